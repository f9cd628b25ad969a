import Verif.Lemmas.JacobNF
/-
Sequences of statements that add to elements of `jac`.
-/
set_option autoImplicit false
set_option linter.unusedSectionVars false

namespace DLB

/-- Not an element of `jac`. -/
def CLoc.other : CLoc → Bool
  | .arr .jac _ => false
  | _ => true

/-- A statement `jac[idx] = e` (`fresh`) or `jac[idx] += e`. -/
structure JRow where
  fresh : Bool
  idx : Nat
  e : CExpr

/-- Recognise such a statement. -/
def rowOf : CStmt → Option JRow
  | .set (.arr .jac l) (.add (.rd (.arr .jac l')) e) => if Nat.beq l l' && e.reads CLoc.other then some ⟨false, l, e⟩ else none
  | .set (.arr .jac l) (.sub (.rd (.arr .jac l')) e) => if Nat.beq l l' && e.reads CLoc.other then some ⟨false, l, .neg e⟩ else none
  | .set (.arr .jac l) e => if e.reads CLoc.other then some ⟨true, l, e⟩ else none
  | _ => none

/-- Recognise several of them. -/
def rowsOf : List CStmt → Option (List JRow)
  | [] => some []
  | s :: p => match rowOf s with
    | none => none
    | some r => match rowsOf p with
      | none => none
      | some rs => some (r :: rs)

/-- No element with a bit in the mask is assigned without adding; the elements assigned or added to are added to the mask. -/
def freshMask : List JRow → Nat → Option Nat
  | [], m => some m
  | r :: rs, m => if r.fresh && m.testBit r.idx then none else freshMask rs (m ||| (1 <<< r.idx))

/-- What is added to the element `l`. -/
noncomputable def rowSum (τ : CLoc → ℝ) : List JRow → Nat → ℝ
  | [], _ => 0
  | r :: rs, l => (if r.idx = l then r.e.evalT τ else 0) + rowSum τ rs l

theorem evalT_congr (d : CLoc → Bool) (τ τ' : CLoc → ℝ) (h : ∀ l, d l = true → τ l = τ' l) (e : CExpr) (he : e.reads d = true) :
    e.evalT τ = e.evalT τ' := by
  induction e with
  | num m e => rfl
  | rd l => exact h l he
  | neg a ih => rw [CExpr.evalT, CExpr.evalT, ih he]
  | exp a ih => rw [CExpr.evalT, CExpr.evalT, ih he]
  | log a ih => rw [CExpr.evalT, CExpr.evalT, ih he]
  | log10 a ih => rw [CExpr.evalT, CExpr.evalT, ih he]
  | add a b iha ihb | sub a b iha ihb | mul a b iha ihb | div a b iha ihb | pow a b iha ihb | fmax a b iha ihb =>
    simp only [CExpr.reads, Bool.and_eq_true] at he
    rw [CExpr.evalT, CExpr.evalT, iha he.1, ihb he.2]

/-- The elements outside of the mask are zero. -/
def ZeroOutside (m : Nat) (τ : CLoc → ℝ) : Prop := ∀ l, m.testBit l = false → τ (.arr .jac l) = 0

theorem rowOf_sound {s : CStmt} {r : JRow} (h : rowOf s = some r) (τ : CLoc → ℝ)
    (hf : r.fresh = true → τ (.arr .jac r.idx) = 0) :
    r.e.reads CLoc.other = true ∧ CStmt.execT τ s = setT τ (.arr .jac r.idx) (τ (.arr .jac r.idx) + r.e.evalT τ) := by
  unfold rowOf at h
  split at h
  · rename_i l l' e
    split at h
    · rename_i hc
      simp only [Bool.and_eq_true] at hc
      cases h
      obtain rfl := Nat.eq_of_beq_eq_true hc.1
      exact ⟨hc.2, rfl⟩
    · exact absurd h (by simp)
  · rename_i l l' e
    split at h
    · rename_i hc
      simp only [Bool.and_eq_true] at hc
      cases h
      obtain rfl := Nat.eq_of_beq_eq_true hc.1
      refine ⟨hc.2, ?_⟩
      simp only [CStmt.execT, CExpr.evalT, sub_eq_add_neg]
    · exact absurd h (by simp)
  · rename_i l e _ _
    split at h
    · rename_i hc
      cases h
      refine ⟨hc, ?_⟩
      simp only [CStmt.execT, hf rfl, zero_add]
    · exact absurd h (by simp)
  · exact absurd h (by simp)

theorem rowSum_congr (τ τ' : CLoc → ℝ) (h : ∀ l, CLoc.other l = true → τ l = τ' l) (rs : List JRow)
    (hr : ∀ r ∈ rs, r.e.reads CLoc.other = true) (l : Nat) : rowSum τ rs l = rowSum τ' rs l := by
  induction rs with
  | nil => rfl
  | cons r rs ih =>
    rw [rowSum, rowSum, ih fun r hr' => hr r (by simp [hr']), evalT_congr _ τ τ' h r.e (hr r (by simp))]

theorem rowsOf_reads {p : List CStmt} {rs : List JRow} (h : rowsOf p = some rs) : ∀ r ∈ rs, r.e.reads CLoc.other = true := by
  induction p generalizing rs with
  | nil => cases h; simp
  | cons s p ih =>
    unfold rowsOf at h
    split at h
    · exact absurd h (by simp)
    · rename_i r hr
      split at h
      · exact absurd h (by simp)
      · rename_i rs' hrs
        cases h
        intro r' hr'
        rcases List.mem_cons.1 hr' with rfl | hr'
        · by_cases hf : r'.fresh = true
          · exact (rowOf_sound hr (fun _ => 0) (fun _ => rfl)).1
          · exact (rowOf_sound hr (fun _ => 0) (fun _ => rfl)).1
        · exact ih hrs r' hr'

theorem rows_exec {p : List CStmt} {rs : List JRow} (h : rowsOf p = some rs) {m m' : Nat} (hm : freshMask rs m = some m')
    (τ : CLoc → ℝ) (hz : ZeroOutside m τ) :
    (∀ l, execT p τ (.arr .jac l) = τ (.arr .jac l) + rowSum τ rs l) ∧ (∀ l, CLoc.other l = true → execT p τ l = τ l) ∧
      ZeroOutside m' (execT p τ) := by
  induction p generalizing rs m τ with
  | nil =>
    cases h
    cases hm
    exact ⟨fun l => by simp [execT, rowSum], fun l _ => rfl, hz⟩
  | cons s p ih =>
    unfold rowsOf at h
    split at h
    · exact absurd h (by simp)
    · rename_i r hr
      split at h
      · exact absurd h (by simp)
      · rename_i rs' hrs
        cases h
        unfold freshMask at hm
        split at hm
        · exact absurd hm (by simp)
        · rename_i hfr
          obtain ⟨hno, e⟩ := rowOf_sound hr τ (fun hf => hz _ (by simpa [hf] using hfr))
          have hoth : ∀ l, CLoc.other l = true → CStmt.execT τ s l = τ l := by
            intro l hl
            rw [e]
            unfold setT
            rw [if_neg]
            rintro rfl
            exact absurd hl (by simp [CLoc.other])
          obtain ⟨i1, i2, i3⟩ := ih hrs hm (CStmt.execT τ s) (by
            intro l hl
            rw [Nat.testBit_or, Bool.or_eq_false_iff] at hl
            rw [e]
            unfold setT
            rw [if_neg, hz l hl.1]
            intro hc
            have hc : l = r.idx := by simpa using hc
            subst hc
            have := hl.2
            rw [Nat.shiftLeft_eq, one_mul, Nat.testBit_two_pow_self] at this
            exact absurd this (by simp))
          refine ⟨fun l => ?_, fun l hl => ?_, ?_⟩
          · rw [execT, i1, rowSum, rowSum_congr _ τ hoth rs' (rowsOf_reads hrs) l, e]
            unfold setT
            by_cases hl : r.idx = l
            · subst hl
              simp only [if_true]
              ring
            · rw [if_neg (by simpa using fun h => hl h.symm), if_neg hl]
              ring
          · rw [execT, i2 l hl, hoth l hl]
          · rw [execT]
            exact i3

end DLB
