import Verif.Lemmas.CheckDrm19Jacob
/-
What `eval_jacob` does not assign.
-/
set_option autoImplicit false
set_option linter.unusedSectionVars false
set_option maxRecDepth 100000

namespace DLB

section
variable {S : Type} [Add S] [Sub S] [Mul S] [Div S] [Neg S] [OfScientific S] [CMath S] [LE S] [DecidableLE S]

theorem eval_defined {sz : CSizes} {σ : CMem S} (e : CExpr) (x : S) (h : e.eval sz σ = some x) :
    e.reads (fun l => (σ l).isSome) = true := by
  induction e generalizing x with
  | num m e => rfl
  | rd l =>
    simp only [CExpr.eval] at h
    split at h
    · simp [CExpr.reads, h]
    · exact absurd h (by simp)
  | neg a iha | exp a iha | log a iha | log10 a iha =>
    simp only [CExpr.eval, bind, Option.bind_eq_some_iff] at h
    obtain ⟨u, hu, -⟩ := h
    exact iha u hu
  | add a b iha ihb | sub a b iha ihb | mul a b iha ihb | div a b iha ihb | pow a b iha ihb | fmax a b iha ihb =>
    simp only [CExpr.eval, bind, Option.bind_eq_some_iff] at h
    obtain ⟨u, hu, w, hw, -⟩ := h
    simp only [CExpr.reads, Bool.and_eq_true]
    exact ⟨iha u hu, ihb w hw⟩

/-- The entries of the last but one species are not assigned. -/
def checkUnassigned (M : Mech) (J : JacobSrc) : Bool :=
  (List.range M.nsp).all fun j =>
    let l := CLoc.arr .jac (M.nsp * j + (M.nsp - 1))
    J.parts.all (fun P => unassigned P.stmts l) && unassigned J.cpAvg l && unassigned (J.endStart ++ J.endRows.flatten) l &&
      unassigned J.last l

theorem partsT_frame (v : JacobVals S) (Ps : List JacobPart) (i : Nat) (h : Ps.all (fun P => unassigned P.stmts (.arr .jac i)) = true)
    (jac : Nat → S) : v.partsT Ps jac i = jac i := by
  induction Ps generalizing jac with
  | nil => rfl
  | cons P Ps ih =>
    simp only [List.all_cons, Bool.and_eq_true] at h
    rw [JacobVals.partsT, ih h.2]
    exact execT_frame _ _ _ h.1

theorem callParts_frame {M : Mech} (mem : Bool → (Nat → Option S) → Option S → CMem S) (hmem : ∀ b jac jN i, mem b jac jN (.arr .jac i) = jac i)
    (Ps : List JacobPart) (i : Nat)
    (h : Ps.all (fun P => unassigned P.stmts (.arr .jac i)) = true) (jac : Nat → Option S) (jN : Option S) (r : (Nat → Option S) × Option S)
    (e : M.callJacobParts mem Ps jac jN = some r) : r.1 i = jac i := by
  induction Ps generalizing jac jN with
  | nil =>
    obtain rfl := Option.some.inj e
    rfl
  | cons P Ps ih =>
    simp only [List.all_cons, Bool.and_eq_true] at h
    simp only [Mech.callJacobParts, bind, Option.bind_eq_some_iff] at e
    obtain ⟨σ, e1, e2⟩ := e
    rw [ih h.2 _ _ e2]
    rw [execAll_frame _ _ _ _ h.1 e1, hmem]

theorem result_frame {M : Mech} {J : JacobSrc} (hu : checkUnassigned M J = true) (v : JacobVals S) (jac0 : Nat → S) (j : Nat) (hj : j < M.nsp) :
    v.result J jac0 (M.nsp * j + (M.nsp - 1)) = jac0 (M.nsp * j + (M.nsp - 1)) := by
  simp only [checkUnassigned, List.all_eq_true, List.mem_range] at hu
  have hj' := hu j hj
  simp only [Bool.and_eq_true] at hj'
  obtain ⟨⟨⟨u1, u2⟩, u3⟩, u4⟩ := hj'
  unfold JacobVals.result
  exact (execT_frame _ _ _ u4).trans ((execT_frame _ _ _ u3).trans ((execT_frame _ _ _ u2).trans (partsT_frame v _ _ u1 jac0)))

theorem reads_mono (e : CExpr) (p q : CLoc → Bool) (hpq : ∀ l, p l = true → q l = true) (h : e.reads p = true) : e.reads q = true := by
  induction e with
  | num m e => rfl
  | rd l => exact hpq l h
  | neg a iha | exp a iha | log a iha | log10 a iha => exact iha h
  | add a b iha ihb | sub a b iha ihb | mul a b iha ihb | div a b iha ihb | pow a b iha ihb | fmax a b iha ihb =>
    simp only [CExpr.reads, Bool.and_eq_true] at h ⊢
    exact ⟨iha h.1, ihb h.2⟩

/-- The last statement of `eval_jacob` reads the entry `i`. -/
def checkLastReads (J : JacobSrc) (i : Nat) : Bool := match J.last with
  | [s, .set _ e] => s.target != .arr .jac i && !e.reads (fun l => l != .arr .jac i)
  | _ => false

theorem jacob_uninitialised {M : Mech} {J : JacobSrc} (hu : checkUnassigned M J = true) (h0 : 0 < M.nsp)
    (hl : checkLastReads J (M.nsp - 1) = true) (pres : S) (y : Nat → S) (jac : Nat → Option S) (h : jac (M.nsp - 1) = none) :
    M.callJacob J pres y jac = none := by
  by_contra hne
  obtain ⟨σ, hσ⟩ := Option.ne_none_iff_exists'.1 hne
  unfold Mech.callJacob at hσ
  simp only [bind, Option.bind_eq_some_iff] at hσ
  obtain ⟨σc, -, σr, -, σp, -, σs, -, σd, -, ⟨jac', jN'⟩, e1, σh, -, σcp, -, σa, e2, σe, e3, e4⟩ := hσ
  simp only [checkUnassigned, List.all_eq_true, List.mem_range] at hu
  have hj' := hu 0 h0
  simp only [Bool.and_eq_true, Nat.mul_zero, Nat.zero_add] at hj'
  obtain ⟨⟨⟨u1, u2⟩, u3⟩, u4⟩ := hj'
  generalize M.nsp - 1 = i at *
  have f1 : jac' i = none := (callParts_frame _ (fun _ _ _ _ => rfl) _ i u1 _ _ _ e1).trans h
  have f2 : σa (.arr .jac i) = none := (execAll_frame _ _ _ _ u2 e2).trans f1
  have f3 : σe (.arr .jac i) = none := (execAll_frame _ _ _ _ u3 e3).trans f2
  unfold checkLastReads at hl
  split at hl
  · rename_i s l e hJ
    simp only [Bool.and_eq_true, bne_iff_ne, Bool.not_eq_true'] at hl
    rw [hJ] at e4
    simp only [execAll, bind, Option.bind_eq_some_iff] at e4
    obtain ⟨σ1, e5, σ2, e6, -⟩ := e4
    have f4 : σ1 (.arr .jac i) = none := by
      refine (execAll_frame (sz := M.szJ) [s] _ σ1 (.arr .jac i) ?_ (Option.bind_eq_some_iff.2 ⟨σ1, e5, rfl⟩)).trans f3
      simp only [unassigned, List.all_cons, List.all_nil, Bool.and_true, bne_iff_ne]
      exact hl.1
    simp only [CStmt.exec, bind, Option.bind_eq_some_iff] at e6
    obtain ⟨x, hx, -⟩ := e6
    have := reads_mono e _ (fun l => l != .arr .jac i) (by
      intro l hl
      rw [bne_iff_ne]
      rintro rfl
      simp only [f4, Option.isSome_none, Bool.false_eq_true] at hl) (eval_defined _ _ hx)
    rw [hl.2] at this
    exact absurd this (by simp)
  · exact absurd hl (by simp)

end

theorem drm19_unassigned : checkUnassigned drm19.mech Mech.Drm19.jacob = true := by decide +kernel

theorem drm19_lastReads : checkLastReads Mech.Drm19.jacob 20 = true := by decide +kernel

end DLB
