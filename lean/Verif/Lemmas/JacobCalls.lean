import Verif.Model.Jacobian
import Verif.Lemmas.MechChecks
/-
`eval_jacob`: absence of undefined behaviour, and its result in the total semantics.
-/
set_option autoImplicit false
set_option linter.unusedSectionVars false

namespace DLB

/-- As `safe`, but locations that are inputs are not added to the list of those written. -/
def safeW (sz : CSizes) (inp : CLoc → Bool) : List CStmt → List CLoc → Bool
  | [], _ => true
  | s :: p, W =>
    s.reads (fun l => l.inRange sz && (inp l || W.contains l)) && s.target.inRange sz &&
      safeW sz inp p (if inp s.target then W else insertLoc s.target W)

theorem safeW_safe {sz : CSizes} {inp : CLoc → Bool} (p : List CStmt) (W : List CLoc) (h : safeW sz inp p W = true) :
    safe sz inp p W = true := by
  induction p generalizing W with
  | nil => rfl
  | cons s p ih =>
    simp only [safeW, safe, Bool.and_eq_true] at h ⊢
    refine ⟨h.1, ?_⟩
    have := ih _ h.2
    by_cases hi : inp s.target = true
    · rw [if_pos hi] at this
      exact safe_mono _ _ _ (fun l hl => hl.imp_right fun h => mem_insertLoc.2 (Or.inr h)) this
    · rwa [if_neg hi] at this

/-- Inputs of the parts of `eval_jacob` that go through the reactions. -/
def inpPart (M : Mech) (dB : Nat → Bool) (withM : Bool) : CLoc → Bool
  | .var .T => true
  | .var .pres => true
  | .var .m => withM
  | .var .mwAvg => true
  | .var .rho => true
  | .arr .C i => decide (i < M.nsp)
  | .arr .fwd i => decide (i < M.nFwd)
  | .arr .rev i => decide (i < M.nRev)
  | .arr .presMod i => decide (i < M.nPresMod)
  | .arr .spRates i => decide (i < M.nsp)
  | .arr .dBdT i => dB i
  | .arr .jac i => decide (i < M.nsp * M.nsp)
  | _ => false

/-- Inputs of the first part of jacob.c. -/
def inpPre : CLoc → Bool
  | .var .T => true
  | .var .pres => true
  | _ => false

/-- Inputs of the assignment of `cp_avg` in jacob.c. -/
def inpCpAvg (M : Mech) : CLoc → Bool
  | .var .yN => true
  | .arr .y i => decide (i < M.nsp)
  | .arr .cp i => decide (i < M.nsp)
  | .arr .jac i => decide (i < M.nsp * M.nsp)
  | _ => false

/-- Inputs of the last of the `eval_jacob_<k>`. -/
def inpEnd (M : Mech) : CLoc → Bool
  | .var .mwAvg => true
  | .var .rho => true
  | .var .cpAvg => true
  | .arr .spRates i => decide (i < M.nsp)
  | .arr .h i => decide (i < M.nsp)
  | .arr .cp i => decide (i < M.nsp)
  | .arr .jac i => decide (i < M.nsp * M.nsp)
  | _ => false

/-- Inputs of the end of jacob.c; `withN`: there is a variable `J_nplusone`. -/
def inpLast (M : Mech) (withN : Bool) : CLoc → Bool
  | .var .T => true
  | .var .jN => withN
  | .var .yN => true
  | .var .rho => true
  | .var .cpAvg => true
  | .var .workTemp => true
  | .arr .y i => decide (i < M.nsp)
  | .arr .spRates i => decide (i < M.nsp)
  | .arr .h i => decide (i < M.nsp)
  | .arr .cp i => decide (i < M.nsp)
  | .arr .jac i => decide (i < M.nsp * M.nsp)
  | _ => false

/-- No part of `eval_jacob` reads something uninitialised or outside of an array, given initialised inputs. -/
def checkJacobSafe (M : Mech) (J : JacobSrc) : Bool :=
  (M.evalConc.map CStmt.target).contains (.var .mwAvg) &&
  safeW M.szJ inpPre (J.pre ++ J.dBdT) [] && (J.pre.map CStmt.target).contains (.var .m) &&
  J.parts.all (fun P => safeW M.szJ (inpPart M (fun i => (J.dBdT.map CStmt.target).contains (.arr .dBdT i)) P.takesM) P.stmts []) &&
  safeW M.szJ (inpCpAvg M) J.cpAvg [] && (J.cpAvg.map CStmt.target).contains (.var .cpAvg) &&
  (J.cpAvg.map CStmt.target).contains (.var .workTemp) &&
  safeW M.szJ (inpEnd M) (J.endStart ++ J.endRows.flatten) [] &&
  safeW M.szJ (inpLast M ((J.pre.map CStmt.target).contains (.var .jN))) J.last []

section
variable {S : Type} [Add S] [Sub S] [Mul S] [Div S] [Neg S] [OfScientific S] [CMath S] [LE S] [DecidableLE S]

/-- Does no statement assign to the location? -/
def unassigned (p : List CStmt) (l : CLoc) : Bool := p.all fun s => s.target != l

theorem execAll_frame {sz : CSizes} (p : List CStmt) (σ σ' : CMem S) (l : CLoc) (h : unassigned p l = true)
    (e : execAll sz p σ = some σ') : σ' l = σ l := by
  induction p generalizing σ with
  | nil =>
    obtain rfl := Option.some.inj e
    rfl
  | cons s p ih =>
    simp only [unassigned, List.all_cons, Bool.and_eq_true, bne_iff_ne] at h
    simp only [execAll, bind, Option.bind_eq_some_iff] at e
    obtain ⟨σ1, e1, e2⟩ := e
    rw [ih σ1 (by simpa [unassigned] using h.2) e2]
    have write : ∀ (k : CLoc) (v : S), k ≠ l → σ.write sz k v = some σ1 → σ1 l = σ l := by
      intro k v hk hw
      unfold CMem.write at hw
      split at hw
      · obtain rfl := Option.some.inj hw
        simp [Ne.symm hk]
      · exact absurd hw (by simp)
    cases s with
    | set k e =>
      simp only [CStmt.exec, bind, Option.bind_eq_some_iff] at e1
      obtain ⟨v, -, hw⟩ := e1
      exact write _ v h.1 hw
    | ite a b k e1' e2' =>
      simp only [CStmt.exec, bind, Option.bind_eq_some_iff] at e1
      obtain ⟨x, -, y, -, hw⟩ := e1
      split at hw
      · obtain ⟨v, -, hw⟩ := Option.bind_eq_some_iff.1 hw
        exact write _ v h.1 hw
      · obtain ⟨v, -, hw⟩ := Option.bind_eq_some_iff.1 hw
        exact write _ v h.1 hw

theorem execT_frame (p : List CStmt) (τ : CLoc → S) (l : CLoc) (h : unassigned p l = true) : execT p τ l = τ l := by
  induction p generalizing τ with
  | nil => rfl
  | cons s p ih =>
    simp only [unassigned, List.all_cons, Bool.and_eq_true, bne_iff_ne] at h
    rw [execT, ih _ (by simpa [unassigned] using h.2)]
    cases s with
    | set k e => exact if_neg (Ne.symm h.1)
    | ite a b k e1' e2' => exact if_neg (Ne.symm h.1)

/-- What the parts of `eval_jacob` are given. -/
structure JacobVals (S : Type) where
  T : S
  pres : S
  m : S
  mwAvg : S
  rho : S
  cpAvg : S
  yN : S
  workTemp : S
  jN : S
  y : Nat → S
  C : Nat → S
  F : Nat → S
  R : Nat → S
  P : Nat → S
  ω : Nat → S
  dB : Nat → S
  h : Nat → S
  cp : Nat → S

/-- Total memory with these values and the array `jac`. -/
def JacobVals.mem (v : JacobVals S) (jac : Nat → S) : CLoc → S
  | .var .T => v.T
  | .var .pres => v.pres
  | .var .m => v.m
  | .var .mwAvg => v.mwAvg
  | .var .rho => v.rho
  | .var .cpAvg => v.cpAvg
  | .var .yN => v.yN
  | .var .workTemp => v.workTemp
  | .var .jN => v.jN
  | .arr .y i => v.y i
  | .arr .C i => v.C i
  | .arr .fwd i => v.F i
  | .arr .rev i => v.R i
  | .arr .presMod i => v.P i
  | .arr .spRates i => v.ω i
  | .arr .dBdT i => v.dB i
  | .arr .h i => v.h i
  | .arr .cp i => v.cp i
  | .arr .jac i => jac i
  | _ => v.T

/-- The array `jac` after the parts that go through the reactions. -/
def JacobVals.partsT (v : JacobVals S) : List JacobPart → (Nat → S) → Nat → S
  | [], jac => jac
  | P :: Ps, jac => v.partsT Ps fun i => execT P.stmts (v.mem jac) (.arr .jac i)

/-- The variable `J_nplusone` after the parts that go through the reactions. -/
def JacobVals.partsN (v : JacobVals S) : List JacobPart → (Nat → S) → S → S
  | [], _, x => x
  | P :: Ps, jac, x => v.partsN Ps (fun i => execT P.stmts (v.mem jac) (.arr .jac i))
      (if unassigned P.stmts (.var .jN) then x else execT P.stmts (v.mem jac) (.var .jN))

/-- What the parts of `eval_jacob` are given comes from the calls before them. -/
structure JacobStages (M : Mech) (J : JacobSrc) (pres : S) (y jac0 : Nat → S) (v : JacobVals S) : Prop where
  hT : v.T = y 0
  hpres : v.pres = pres
  hy : v.y = y
  conc : ∀ i, i < M.nsp → v.C i = execT M.evalConc (inT (y 0) pres fun i => y (i + 1)) (.arr .C i)
  hmw : v.mwAvg = execT M.evalConc (inT (y 0) pres fun i => y (i + 1)) (.var .mwAvg)
  hrho : v.rho = execT M.evalConc (inT (y 0) pres fun i => y (i + 1)) (.var .rho)
  hyN : v.yN = execT M.evalConc (inT (y 0) pres fun i => y (i + 1)) (.var .yN)
  calls : ∃ σc σr σp σs, M.callEvalConc (y 0) pres (fun i => some (y (i + 1))) = some σc ∧
    M.callRxnRates (y 0) pres (fun i => σc (.arr .C i)) = some σr ∧
    M.callPresMod (y 0) pres (fun i => σc (.arr .C i)) = some σp ∧
    M.callSpecRates (fun i => σr (.arr .fwd i)) (fun i => σr (.arr .rev i)) (fun i => σp (.arr .presMod i)) = some σs ∧
    (∀ i, i < M.nsp → σc (.arr .C i) = some (v.C i)) ∧
    (∀ i, i < M.nFwd → σr (.arr .fwd i) = some (v.F i)) ∧
    (∀ i, i < M.nRev → σr (.arr .rev i) = some (v.R i)) ∧
    (∀ i, i < M.nPresMod → σp (.arr .presMod i) = some (v.P i)) ∧
    (∀ s, s < M.nsp → σs (specLoc M.nsp s) = some (v.ω s))
  hcp : ∃ σcp, M.callCp (y 0) = some σcp ∧ ∀ i, i < M.nsp → σcp (.arr .cp i) = some (v.cp i)
  hh : ∃ σh, M.callH (y 0) = some σh ∧ ∀ i, i < M.nsp → σh (.arr .h i) = some (v.h i)
  hm : v.m = execT (J.pre ++ J.dBdT) (inT (y 0) pres fun _ => y 0) (.var .m)
  hdB : ∀ i, i < M.nsp → v.dB i = execT (J.pre ++ J.dBdT) (inT (y 0) pres fun _ => y 0) (.arr .dBdT i)
  hcpAvg : v.cpAvg = execT J.cpAvg (v.mem (v.partsT J.parts jac0)) (.var .cpAvg)
  hwork : v.workTemp = execT J.cpAvg (v.mem (v.partsT J.parts jac0)) (.var .workTemp)
  hjN : (J.pre.map CStmt.target).contains (.var .jN) = true →
    v.jN = v.partsN J.parts jac0 (execT (J.pre ++ J.dBdT) (inT (y 0) pres fun _ => y 0) (.var .jN))

/-- The array `jac` at the end. -/
def JacobVals.result (v : JacobVals S) (J : JacobSrc) (jac0 : Nat → S) (i : Nat) : S :=
  execT J.last (v.mem fun i => execT (J.endStart ++ J.endRows.flatten)
    (v.mem fun i => execT J.cpAvg (v.mem (v.partsT J.parts jac0)) (.arr .jac i)) (.arr .jac i)) (.arr .jac i)

theorem jacobParts_call {M : Mech} {B : Nat → Bool} (Ps : List JacobPart)
    (hs : Ps.all (fun P => safeW M.szJ (inpPart M B P.takesM) P.stmts []) = true) (v : JacobVals S)
    (conc fwd rev pm spec dB : Nat → Option S) (jac : Nat → Option S) (jacV : Nat → S)
    (hC : ∀ i, i < M.nsp → conc i = some (v.C i)) (hF : ∀ i, i < M.nFwd → fwd i = some (v.F i))
    (hR : ∀ i, i < M.nRev → rev i = some (v.R i)) (hP : ∀ i, i < M.nPresMod → pm i = some (v.P i))
    (hω : ∀ i, i < M.nsp → spec i = some (v.ω i)) (hB : ∀ i, B i = true → dB i = some (v.dB i))
    (hj : ∀ i, i < M.nsp * M.nsp → jac i = some (jacV i)) (jN : Option S) {withN : Prop} {x : S} (hN : withN → jN = some x) :
    ∃ jac' jN', M.callJacobParts (fun withM jac jN => Mech.jacobPartMem withM (some v.T) (some v.pres) (some v.m) (some v.mwAvg) (some v.rho)
        conc fwd rev pm spec dB jac jN) Ps jac jN = some (jac', jN') ∧
      (∀ i, i < M.nsp * M.nsp → jac' i = some (v.partsT Ps jacV i)) ∧ (withN → jN' = some (v.partsN Ps jacV x)) := by
  induction Ps generalizing jac jacV jN x with
  | nil => exact ⟨jac, jN, rfl, hj, hN⟩
  | cons P Ps ih =>
    simp only [List.all_cons, Bool.and_eq_true] at hs
    obtain ⟨σ', e, hag⟩ := exec_agree P.stmts [] (Mech.jacobPartMem P.takesM (some v.T) (some v.pres) (some v.m) (some v.mwAvg)
        (some v.rho) conc fwd rev pm spec dB jac jN) (v.mem jacV) (safeW_safe _ _ hs.1) (by
      intro l hl
      rcases hl with hl | hl
      · unfold inpPart at hl
        split at hl
        · rfl
        · rfl
        · simp only [Mech.jacobPartMem, hl, if_true]
          rfl
        · rfl
        · rfl
        · exact hC _ (by simpa using hl)
        · exact hF _ (by simpa using hl)
        · exact hR _ (by simpa using hl)
        · exact hP _ (by simpa using hl)
        · exact hω _ (by simpa using hl)
        · exact hB _ hl
        · exact hj _ (by simpa using hl)
        · exact absurd hl (by simp)
      · exact absurd hl (by simp))
    obtain ⟨jac', jN', e', h', n'⟩ := ih hs.2 (fun i => σ' (.arr .jac i)) (fun i => execT P.stmts (v.mem jacV) (.arr .jac i)) (by
      intro i hi
      exact hag _ (Or.inl (by simp [inpPart, hi]))) (σ' (.var .jN))
      (x := if unassigned P.stmts (.var .jN) then x else execT P.stmts (v.mem jacV) (.var .jN)) (fun hw => by
        by_cases hu : unassigned P.stmts (.var .jN) = true
        · rw [if_pos hu, execAll_frame _ _ _ _ hu e]
          exact hN hw
        · rw [if_neg hu]
          refine hag _ (Or.inr (target_written ?_ _))
          simp only [unassigned, List.all_eq_true, bne_iff_ne, not_forall, not_not] at hu
          obtain ⟨s, hs, ht⟩ := hu
          exact List.contains_iff_mem.2 (List.mem_map.2 ⟨s, hs, ht⟩))
    refine ⟨jac', jN', ?_, h', n'⟩
    simp only [Mech.callJacobParts, e, bind, Option.bind_some]
    exact e'

theorem jacob_call {M : Mech} {rs : List Reaction} {J : JacobSrc} (hsz : checkSizes M rs = true) (hr : checkRates M rs = true)
    (hrs : checkRatesSafe M = true) (hp : checkPresMod M rs = true) (hps : checkPresSafe M = true) (hsp : checkSpec M rs = true)
    (hss : checkSpecSafe M = true) (ht : checkThermoSafe M = true) (hJ : checkJacobSafe M J = true) (pres : S) (y jac0 : Nat → S) :
    ∃ σ v, M.callJacob J pres y (fun i => some (jac0 i)) = some σ ∧ JacobStages M J pres y jac0 v ∧
      ∀ i, i < M.nsp * M.nsp → σ (.arr .jac i) = some (v.result J jac0 i) := by
  simp only [checkSizes, Bool.and_eq_true, decide_eq_true_eq] at hsz
  obtain ⟨⟨⟨z0, z1⟩, z2⟩, z3⟩ := hsz
  simp only [checkJacobSafe, Bool.and_eq_true, List.all_eq_true] at hJ
  obtain ⟨⟨⟨⟨⟨⟨⟨⟨j0, j1⟩, j2⟩, j4⟩, j5⟩, j6⟩, j7⟩, j8⟩, j9⟩ := hJ
  have hconc : safe M.szS (inpConc M.nsp) M.evalConc [] = true := by
    simp only [checkThermoSafe, Bool.and_eq_true] at ht
    obtain ⟨⟨⟨⟨⟨⟨⟨⟨⟨⟨⟨⟨⟨⟨⟨⟨⟨⟨⟨⟨h1, -⟩, -⟩, -⟩, -⟩, -⟩, -⟩, -⟩, -⟩, -⟩, -⟩, -⟩, -⟩, -⟩, -⟩, -⟩, -⟩, -⟩, -⟩, -⟩, -⟩ := ht
    exact h1
  obtain ⟨σc, ec, c1, c2, c3⟩ := evalConc_call ht (y 0) pres (fun i => some (y (i + 1))) (fun i => y (i + 1))
    (fun i _ => rfl)
  have c4 : σc (.var .mwAvg) = some (execT M.evalConc (inT (y 0) pres fun i => y (i + 1)) (.var .mwAvg)) := by
    obtain ⟨σ', e, hag⟩ := exec_agree M.evalConc [] (fun
      | .var .T => some (y 0)
      | .var .pres => some pres
      | .arr .y i => some (y (i + 1))
      | _ => none) (inT (y 0) pres fun i => y (i + 1)) hconc (by
        intro l hl
        rcases hl with hl | hl
        · unfold inpConc at hl
          split at hl
          · rfl
          · rfl
          · rfl
          · exact absurd hl (by simp)
        · exact absurd hl (by simp))
    obtain rfl := Option.some.inj (e.symm.trans ec)
    exact hag _ (Or.inr (target_written j0 _))
  obtain ⟨σr, er, r1⟩ := rxnRates_call hr hrs (y 0) pres (fun i => σc (.arr .C i)) _ c1
  obtain ⟨σp, ep, p1⟩ := presMod_call hp hps (y 0) pres (fun i => σc (.arr .C i)) _ c1
  obtain ⟨F, hF⟩ := option_fun (y 0) (fun i => σr (.arr .fwd i)) (fun i => i < M.nFwd) (by
    intro i hi
    obtain ⟨n, hn, rfl⟩ := cover_k rs 0 0 0 i (by omega) (by omega)
    exact ⟨_, (r1 n hn).1⟩)
  obtain ⟨R, hR⟩ := option_fun (y 0) (fun i => σr (.arr .rev i)) (fun i => i < M.nRev) (by
    intro i hi
    obtain ⟨n, hn, h, rfl⟩ := cover_j rs 0 0 0 i (by omega) (by omega)
    exact ⟨_, (r1 n hn).2 h⟩)
  obtain ⟨P, hP⟩ := option_fun (y 0) (fun i => σp (.arr .presMod i)) (fun i => i < M.nPresMod) (by
    intro i hi
    obtain ⟨n, hn, h, rfl⟩ := cover_p rs 0 0 0 i (by omega) (by omega)
    exact ⟨_, p1 n hn h⟩)
  obtain ⟨σs, es, s1⟩ := specRates_call hsp hss (y 0) _ _ _ F R P hF hR hP
  obtain ⟨σcp, ecp, cp1⟩ := cp_call ht (y 0)
  obtain ⟨σh, eh, h1⟩ := h_call ht (y 0)
  obtain ⟨ω, hω⟩ := option_fun (y 0) (fun s => σs (specLoc M.nsp s)) (fun s => s < M.nsp) (fun s hs => ⟨_, s1 s hs⟩)
  obtain ⟨cp, hcp⟩ := option_fun (y 0) (fun s => σcp (.arr .cp s)) (fun s => s < M.nsp) (fun s hs => ⟨_, cp1 s hs⟩)
  obtain ⟨h, hh⟩ := option_fun (y 0) (fun s => σh (.arr .h s)) (fun s => s < M.nsp) (fun s hs => ⟨_, h1 s hs⟩)
  -- dBdT
  obtain ⟨σd, ed, dag⟩ := exec_agree (J.pre ++ J.dBdT) [] (fun
    | .var .T => some (y 0)
    | .var .pres => some pres
    | _ => none) (inT (y 0) pres fun _ => y 0) (safeW_safe _ _ j1) (by
      intro l hl
      rcases hl with hl | hl
      · unfold inpPre at hl
        split at hl
        · rfl
        · rfl
        · exact absurd hl (by simp)
      · exact absurd hl (by simp))
  have d1 := dag (.var .m) (Or.inr (target_written (by
    rw [List.map_append, List.contains_iff_mem, List.mem_append]
    exact Or.inl (List.contains_iff_mem.1 j2)) _))
  have d2 : ∀ i, (J.dBdT.map CStmt.target).contains (.arr .dBdT i) = true → σd (.arr .dBdT i) = some (execT (J.pre ++ J.dBdT) (inT (y 0) pres fun _ => y 0) (.arr .dBdT i)) := by
    intro i hi
    refine dag _ (Or.inr (target_written ?_ _))
    rw [List.map_append, List.contains_iff_mem, List.mem_append]
    exact Or.inr (List.contains_iff_mem.1 hi)
  have d3 : (J.pre.map CStmt.target).contains (.var .jN) = true →
      σd (.var .jN) = some (execT (J.pre ++ J.dBdT) (inT (y 0) pres fun _ => y 0) (.var .jN)) := fun h => dag _ (Or.inr (target_written (by
    rw [List.map_append, List.contains_iff_mem, List.mem_append]
    exact Or.inl (List.contains_iff_mem.1 h)) _))
  -- for any values of the variables not yet assigned
  have step : ∀ cpA wt jn : S, ∀ v : JacobVals S, v = ⟨y 0, pres, execT (J.pre ++ J.dBdT) (inT (y 0) pres fun _ => y 0) (.var .m),
      execT M.evalConc (inT (y 0) pres fun i => y (i + 1)) (.var .mwAvg),
      execT M.evalConc (inT (y 0) pres fun i => y (i + 1)) (.var .rho), cpA,
      execT M.evalConc (inT (y 0) pres fun i => y (i + 1)) (.var .yN), wt, jn, y,
      fun i => execT M.evalConc (inT (y 0) pres fun i => y (i + 1)) (.arr .C i), F, R, P, ω,
      fun i => execT (J.pre ++ J.dBdT) (inT (y 0) pres fun _ => y 0) (.arr .dBdT i), h, cp⟩ →
      ∃ jac' jN' σa, M.callJacobParts
        (fun withM jac jN => Mech.jacobPartMem withM (some (y 0)) (some pres) (σd (.var .m)) (σc (.var .mwAvg)) (σc (.var .rho))
          (fun i => σc (.arr .C i)) (fun i => σr (.arr .fwd i)) (fun i => σr (.arr .rev i)) (fun i => σp (.arr .presMod i))
          (fun i => σs (specLoc M.nsp i)) (fun i => σd (.arr .dBdT i)) jac jN) J.parts (fun i => some (jac0 i)) (σd (.var .jN)) = some (jac', jN') ∧
        ((J.pre.map CStmt.target).contains (.var .jN) = true →
          jN' = some (v.partsN J.parts jac0 (execT (J.pre ++ J.dBdT) (inT (y 0) pres fun _ => y 0) (.var .jN)))) ∧
        execAll M.szJ J.cpAvg (fun
          | .arr .y i => some (y i)
          | .var .yN => σc (.var .yN)
          | .arr .cp i => σcp (.arr .cp i)
          | .arr .jac i => jac' i
          | _ => none) = some σa ∧
        σa (.var .cpAvg) = some (execT J.cpAvg (v.mem (v.partsT J.parts jac0)) (.var .cpAvg)) ∧
        σa (.var .workTemp) = some (execT J.cpAvg (v.mem (v.partsT J.parts jac0)) (.var .workTemp)) ∧
        ∀ i, i < M.nsp * M.nsp → σa (.arr .jac i) = some (execT J.cpAvg (v.mem (v.partsT J.parts jac0)) (.arr .jac i)) := by
    intro cpA wt jn v hv
    obtain ⟨jac', jN', e1, q1, n1⟩ := jacobParts_call (M := M) J.parts (List.all_eq_true.2 j4) v (fun i => σc (.arr .C i)) (fun i => σr (.arr .fwd i))
      (fun i => σr (.arr .rev i)) (fun i => σp (.arr .presMod i)) (fun i => σs (specLoc M.nsp i)) (fun i => σd (.arr .dBdT i))
      (fun i => some (jac0 i)) jac0 (by subst hv; exact c1) (by subst hv; exact hF) (by subst hv; exact hR) (by subst hv; exact hP)
      (by subst hv; exact hω) (by subst hv; exact d2) (fun i _ => rfl) (σd (.var .jN)) d3
    obtain ⟨σa, e2, q2⟩ := exec_agree J.cpAvg [] (fun
          | .arr .y i => some (y i)
          | .var .yN => σc (.var .yN)
          | .arr .cp i => σcp (.arr .cp i)
          | .arr .jac i => jac' i
          | _ => none) (v.mem (v.partsT J.parts jac0)) (safeW_safe _ _ j5) (by
      intro l hl
      rcases hl with hl | hl
      · unfold inpCpAvg at hl
        split at hl
        · subst hv; exact c2
        · subst hv; rfl
        · subst hv; exact hcp _ (by simpa using hl)
        · exact q1 _ (by simpa using hl)
        · exact absurd hl (by simp)
      · exact absurd hl (by simp))
    refine ⟨jac', jN', σa, ?_, n1, e2, q2 _ (Or.inr (target_written j6 _)), q2 _ (Or.inr (target_written j7 _)), fun i hi =>
      q2 _ (Or.inl (by simp [inpCpAvg, hi]))⟩
    rw [← e1, d1, c4, c3]
    subst hv
    rfl
  obtain ⟨jac', jN', σa, e1, n1, e2, a1, a2, -⟩ := step (y 0) (y 0) (y 0) _ rfl
  obtain ⟨v, hv⟩ : ∃ v : JacobVals S, v = _ := ⟨_, rfl⟩
  obtain ⟨jac'', jN'', σa', e1', n1', e2', a1', a2', a3'⟩ := step _ _ _ v hv
  obtain ⟨rfl, rfl⟩ := Prod.mk.inj (Option.some.inj (e1.symm.trans e1'))
  obtain rfl := Option.some.inj (e2.symm.trans e2')
  have hcpA : v.cpAvg = execT J.cpAvg (v.mem (v.partsT J.parts jac0)) (.var .cpAvg) := by
    refine Option.some.inj (Eq.trans ?_ a1')
    rw [a1, hv]
  have hwt : v.workTemp = execT J.cpAvg (v.mem (v.partsT J.parts jac0)) (.var .workTemp) := by
    refine Option.some.inj (Eq.trans ?_ a2')
    rw [a2, hv]
  have hjn : (J.pre.map CStmt.target).contains (.var .jN) = true →
      v.jN = v.partsN J.parts jac0 (execT (J.pre ++ J.dBdT) (inT (y 0) pres fun _ => y 0) (.var .jN)) := by
    intro h
    refine Option.some.inj (Eq.trans ?_ (n1' h))
    rw [n1 h, hv]
  clear step e1' e2' a1 a2
  rw [← hcpA] at a1'
  rw [← hwt] at a2'
  obtain ⟨σe, ee, qe⟩ := exec_agree (J.endStart ++ J.endRows.flatten) [] (fun
    | .var .mwAvg => σc (.var .mwAvg)
    | .var .rho => σc (.var .rho)
    | .var .cpAvg => σa (.var .cpAvg)
    | .arr .spRates i => σs (specLoc M.nsp i)
    | .arr .h i => σh (.arr .h i)
    | .arr .cp i => σcp (.arr .cp i)
    | .arr .jac i => σa (.arr .jac i)
    | _ => none) (v.mem fun i => execT J.cpAvg (v.mem (v.partsT J.parts jac0)) (.arr .jac i)) (safeW_safe _ _ j8) (by
      intro l hl
      rcases hl with hl | hl
      · unfold inpEnd at hl
        split at hl
        · subst hv; exact c4
        · subst hv; exact c3
        · exact a1'
        · subst hv; exact hω _ (by simpa using hl)
        · subst hv; exact hh _ (by simpa using hl)
        · subst hv; exact hcp _ (by simpa using hl)
        · exact a3' _ (by simpa using hl)
        · exact absurd hl (by simp)
      · exact absurd hl (by simp))
  have qe' : ∀ i, i < M.nsp * M.nsp → σe (.arr .jac i) = some (execT (J.endStart ++ J.endRows.flatten)
      (v.mem fun i => execT J.cpAvg (v.mem (v.partsT J.parts jac0)) (.arr .jac i)) (.arr .jac i)) := fun i hi =>
    qe _ (Or.inl (by simp [inpEnd, hi]))
  obtain ⟨σ, el, ql⟩ := exec_agree J.last [] (fun
    | .var .T => some (y 0)
    | .arr .y i => some (y i)
    | .var .yN => σc (.var .yN)
    | .var .rho => σc (.var .rho)
    | .var .cpAvg => σa (.var .cpAvg)
    | .var .workTemp => σa (.var .workTemp)
    | .arr .spRates i => σs (specLoc M.nsp i)
    | .arr .h i => σh (.arr .h i)
    | .arr .cp i => σcp (.arr .cp i)
    | .arr .jac i => σe (.arr .jac i)
    | .var .jN => jN'
    | _ => none) (v.mem fun i => execT (J.endStart ++ J.endRows.flatten)
      (v.mem fun i => execT J.cpAvg (v.mem (v.partsT J.parts jac0)) (.arr .jac i)) (.arr .jac i)) (safeW_safe _ _ j9) (by
      intro l hl
      rcases hl with hl | hl
      · unfold inpLast at hl
        split at hl
        · subst hv; rfl
        · exact (n1' hl).trans (congrArg some (hjn hl).symm)
        · subst hv; exact c2
        · subst hv; exact c3
        · exact a1'
        · exact a2'
        · subst hv; rfl
        · subst hv; exact hω _ (by simpa using hl)
        · subst hv; exact hh _ (by simpa using hl)
        · subst hv; exact hcp _ (by simpa using hl)
        · exact qe' _ (by simpa using hl)
        · exact absurd hl (by simp)
      · exact absurd hl (by simp))
  refine ⟨σ, v, ?_, ?_, fun i hi => ql _ (Or.inl (by simp [inpLast, hi]))⟩
  · unfold Mech.callJacob
    simp only [ec, er, ep, es, ecp, eh, bind, Option.bind_some]
    exact Option.bind_eq_some_iff.2 ⟨σd, ed, Option.bind_eq_some_iff.2 ⟨(jac', jN'), e1, Option.bind_eq_some_iff.2 ⟨σa, e2,
      Option.bind_eq_some_iff.2 ⟨σe, ee, el⟩⟩⟩⟩
  · exact { hT := by rw [hv], hpres := by rw [hv], hy := by rw [hv], conc := by rw [hv]; exact fun _ _ => rfl, hmw := by rw [hv]
            hrho := by rw [hv]
            hyN := by rw [hv]
            calls := ⟨σc, σr, σp, σs, ec, er, ep, es, by rw [hv]; exact c1, by rw [hv]; exact hF, by rw [hv]; exact hR,
              by rw [hv]; exact hP, by rw [hv]; exact hω⟩
            hcp := ⟨σcp, ecp, by rw [hv]; exact hcp⟩
            hh := ⟨σh, eh, by rw [hv]; exact hh⟩
            hm := by rw [hv]
            hdB := by rw [hv]; exact fun _ _ => rfl
            hcpAvg := hcpA, hwork := hwt, hjN := hjn }

end

/-- `cp_avg`, `jac[0]` and `working_temp` in jacob.c -/
def jacobCpAvgT (n : Nat) : List CStmt :=
  [.set (.var .cpAvg) (sumExpr ((List.range n).map (fun i => .mul (.rd (.arr .y (i + 1))) (.rd (.arr .cp i))) ++
     [.mul (.rd (.var .yN)) (.rd (.arr .cp n))])),
   .set (.arr .jac 0) (.num 0 0), .set (.var .workTemp) (.num 0 0)]

section
variable {K : Type} [Field K] [LinearOrder K] [IsStrictOrderedRing K] [CMath K]

theorem evalConcT_mw (n : Nat) (rs : List Dec) (τ : CLoc → K) :
    execT (evalConcT n rs) τ (.var .mwAvg) =
      1 / ∑ i ∈ Finset.range (n + 1), complement n (fun i => τ (.arr .y i)) i * Dec.val (nth rs i) := by
  unfold evalConcT
  rw [execT_append, execT_append]
  obtain ⟨τ4, hτ4⟩ : ∃ τ4 : CLoc → K, τ4 = execT [.set (.var .yN) (.sub (.num 1 0) (sumReads .y n)),
   .set (.var .mwAvg) (sumExpr ((List.range n).map (fun i => .mul (.rd (.arr .y i)) (nth rs i).lit) ++
     [.mul (.rd (.var .yN)) (nth rs n).lit])),
   .set (.var .mwAvg) (.div (.num 1 0) (.rd (.var .mwAvg))),
   .set (.var .rho) (.div (.mul (.rd (.var .pres)) (.rd (.var .mwAvg))) (.mul gasConstant (.rd (.var .T))))] τ :=
    ⟨_, rfl⟩
  rw [← hτ4]
  have hmw : τ4 (.var .mwAvg) = 1 / ∑ i ∈ Finset.range (n + 1), complement n (fun i => τ (.arr .y i)) i * Dec.val (nth rs i) := by
    rw [hτ4]
    simp only [execT, CStmt.execT, setT, CExpr.evalT, evalT_sumReads, evalT_sumExpr, evalT_gas, sci_eq,
      List.map_append, List.map_map, List.sum_append, List.map_cons, List.map_nil, List.sum_cons, List.sum_nil]
    simp only [Function.comp_def, CExpr.evalT, evalT_lit, sum_range_list]
    simp [complement_sum_mul, setT]
  obtain ⟨-, h2⟩ := execT_assign (fun i => .arr .C i)
    (fun i => .mul (.mul (.rd (.var .rho)) (.rd (.arr .y i))) (nth rs i).lit) n τ4
    (fun i j _ _ h => by simpa using h)
    (fun i _ τ' h => by
      simp only [CExpr.evalT, evalT_lit]
      rw [h _ (by simp), h _ (by simp)])
  simp only [execT, CStmt.execT, setT]
  rw [if_neg (by simp), h2 _ (by simp), hmw]

end
end DLB
