import Verif.Lemmas.JacobParts
/-
The check of the parts of `eval_jacob`, one part at a time.
-/
set_option autoImplicit false
set_option linter.unusedSectionVars false

namespace DLB

theorem blocksOk_suffix {D : Package} {ws : List Nat} (bs : List (List CStmt × List CStmt)) {ns a : List Numbered} {cst : Option CExpr} {mask m : Nat}
    (h : blocksOk D ws bs ns cst mask = some (a, m)) : a <:+ ns := by
  induction bs generalizing ns cst mask with
  | nil =>
    simp only [blocksOk, Option.some.injEq, Prod.mk.injEq] at h
    rw [h.1]
  | cons b bs ih =>
    cases ns with
    | nil => simp [blocksOk] at h
    | cons n ns =>
      simp only [blocksOk] at h
      split at h
      · exact absurd h (by simp)
      · exact (ih h).trans (List.suffix_cons n ns)

/-- One part goes through the reactions from `k` to `k'`. -/
def partStep (D : Package) (ws : List Nat) (P : JacobPart) (k mask k' mask' : Nat) : Bool :=
  startOk P.start && match blocksOk D ws P.blocks ((number D.reactions).drop k) none mask with
    | none => false
    | some (ns, m) => Nat.beq (ns.length + k') (number D.reactions).length && Nat.beq m mask'

theorem partsOk_cons {D : Package} {ws : List Nat} {P : JacobPart} {Ps : List JacobPart} {k mask k' mask' : Nat}
    (h : partStep D ws P k mask k' mask' = true) (h' : partsOk D ws Ps ((number D.reactions).drop k') mask' = true) :
    partsOk D ws (P :: Ps) ((number D.reactions).drop k) mask = true := by
  simp only [partStep, Bool.and_eq_true] at h
  obtain ⟨h1, h2⟩ := h
  simp only [partsOk, h1, Bool.true_and]
  split at h2
  · exact absurd h2 (by simp)
  · rename_i ns m hb
    simp only [Bool.and_eq_true] at h2
    have e1 := Nat.eq_of_beq_eq_true h2.1
    have e2 := Nat.eq_of_beq_eq_true h2.2
    have hs := (blocksOk_suffix _ hb).trans (List.drop_suffix _ _)
    rw [hb]
    dsimp only
    rw [List.suffix_iff_eq_drop.1 hs, e2, show (number D.reactions).length - ns.length = k' by omega]
    exact h'

end DLB
