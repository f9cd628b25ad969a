import Verif.Lemmas.CLang
import Verif.Model.Mechanism
import Verif.Spec.Mechanism
import Mathlib.Data.Rat.Cast.OfScientific
import Mathlib.Algebra.BigOperators.Group.List.Basic
import Mathlib.Algebra.BigOperators.Ring.List
import Mathlib.Tactic.Ring
import Mathlib.Tactic.FieldSimp
import Mathlib.Tactic.Linarith
/-
Linear analysis of eval_spec_rates: every statement adds an integer multiple of one rate of progress to one species.
-/
set_option autoImplicit false
set_option linter.unusedSectionVars false

namespace DLB

section lit
variable {K : Type} [Field K] [CharZero K]

/-- Value of a literal. -/
theorem sci_eq (m e : Nat) : (OfScientific.ofScientific m true e : K) = (m : K) / 10 ^ e := by
  rw [Lean.Grind.LawfulOfScientific.ofScientific_def]
  simp

end lit

/-- `(fwd_rates[f] - rev_rates[r]) * pres_mod[p]`, with or without `rev_rates` and `pres_mod`. -/
structure Mono where
  f : Nat
  r : Option Nat
  p : Option Nat
  deriving DecidableEq

/-- The value of a literal if it is a natural number. -/
def natLit (m e : Nat) : Option Nat := if m % 10 ^ e = 0 then some (m / 10 ^ e) else none

/-- Recognise `c * mono`. -/
def CExpr.lin : CExpr → Option (Int × Mono)
  | .rd (.arr .fwd f) => some (1, ⟨f, none, none⟩)
  | .sub (.rd (.arr .fwd f)) (.rd (.arr .rev r)) => some (1, ⟨f, some r, none⟩)
  | .neg (.num _ _) => none
  | .neg a => (a.lin).map fun x => (-x.1, x.2)
  | .mul (.num m e) b => match natLit m e, b.lin with
    | some n, some x => some (n * x.1, x.2)
    | _, _ => none
  | .mul (.neg (.num m e)) b => match natLit m e, b.lin with
    | some n, some x => some (-n * x.1, x.2)
    | _, _ => none
  | .mul a (.rd (.arr .presMod p)) => match a.lin with
    | some (c, ⟨f, r, none⟩) => some (c, ⟨f, r, some p⟩)
    | _ => none
  | _ => none

/-- A recognised statement: target, whether it is a plain assignment, coefficient, monomial. -/
structure Entry where
  l : CLoc
  fresh : Bool
  c : Int
  m : Mono
  deriving DecidableEq

/-- Recognise `l = c * mono` and `l = l ± c * mono`. -/
def CStmt.entry : CStmt → Option Entry
  | .set l (.add (.rd l') e) => if l' = l then (e.lin).map fun x => ⟨l, false, x.1, x.2⟩ else none
  | .set l (.sub (.rd l') e) =>
    if l' = l then (e.lin).map fun x => ⟨l, false, -x.1, x.2⟩
    else ((CExpr.sub (.rd l') e).lin).map fun x => ⟨l, true, x.1, x.2⟩
  | .set l e => (e.lin).map fun x => ⟨l, true, x.1, x.2⟩
  | _ => none

/-- Locations holding species rates. -/
def CLoc.isRate : CLoc → Bool
  | .arr .spRates _ => true
  | .var .dyN => true
  | _ => false

/-- Check a sequence of statements: all are recognised, target species rates, the first one for each target is a plain
assignment and the others are increments. Result: the entries and the targets. -/
def entries : List CStmt → List CLoc → Option (List Entry × List CLoc)
  | [], W => some ([], W)
  | s :: p, W => match s.entry with
    | none => none
    | some en =>
      if en.l.isRate && (en.fresh == !(W.contains en.l)) then
        (entries p (insertLoc en.l W)).map fun x => (en :: x.1, x.2)
      else none

section sound
variable {K : Type} [Field K] [CharZero K] [CMath K]

/-- Value of a monomial. -/
def Mono.val (τ : CLoc → K) (m : Mono) : K :=
  (match m.r with
    | none => τ (.arr .fwd m.f)
    | some j => τ (.arr .fwd m.f) - τ (.arr .rev j)) *
  (match m.p with
    | none => 1
    | some p => τ (.arr .presMod p))

theorem natLit_eq {m e n : Nat} (h : natLit m e = some n) :
    (OfScientific.ofScientific m true e : K) = (n : K) := by
  unfold natLit at h
  split at h
  · rename_i hm
    obtain rfl := Option.some.inj h
    have hd := Nat.dvd_of_mod_eq_zero hm
    rw [sci_eq, div_eq_iff (pow_ne_zero _ (by norm_num))]
    have := Nat.div_mul_cancel hd
    exact_mod_cast this.symm
  · exact absurd h (by simp)

theorem lin_sound (τ : CLoc → K) (e : CExpr) {x : Int × Mono} (h : e.lin = some x) :
    e.evalT τ = (x.1 : K) * x.2.val τ := by
  induction e using CExpr.lin.induct generalizing x with
  | case1 f => obtain rfl := Option.some.inj h; simp [CExpr.evalT, Mono.val]
  | case2 f r => obtain rfl := Option.some.inj h; simp [CExpr.evalT, Mono.val]
  | case3 => simp [CExpr.lin] at h
  | case4 a h' ih =>
    rw [CExpr.lin] at h
    · obtain ⟨y, hy, rfl⟩ := Option.map_eq_some_iff.1 h
      simp only [CExpr.evalT, ih hy]
      push_cast
      ring
    · assumption
  | case5 m e b n x' hx hn ih =>
    simp only [CExpr.lin, hn, hx, Option.some.injEq] at h
    subst h
    simp only [CExpr.evalT, natLit_eq hn, ih hx]
    push_cast
    ring
  | case6 m e b h1 ih =>
    rw [CExpr.lin] at h
    split at h
    · rename_i hn hx
      exact (h1 _ _ hn hx).elim
    · exact absurd h (by simp)
  | case7 m e b n x' hx hn ih =>
    simp only [CExpr.lin, hn, hx, Option.some.injEq] at h
    subst h
    simp only [CExpr.evalT, natLit_eq hn, ih hx]
    push_cast
    ring
  | case8 m e b h1 ih =>
    rw [CExpr.lin] at h
    split at h
    · rename_i hn hx
      exact (h1 _ _ hn hx).elim
    · exact absurd h (by simp)
  | case9 a p h1 h2 c f r ha ih =>
    rw [CExpr.lin] at h
    · simp only [ha, Option.some.injEq] at h
      subst h
      simp only [CExpr.evalT, ih ha, Mono.val]
      ring
    · assumption
    · assumption
  | case10 a p h1 h2 h3 ih =>
    rw [CExpr.lin] at h
    · split at h
      · rename_i hx
        exact (h3 _ _ _ hx).elim
      · exact absurd h (by simp)
    · assumption
    · assumption
  | case11 e h1 h2 h3 h4 h5 h6 h7 =>
    rw [CExpr.lin] at h
    · exact absurd h (by simp)
    all_goals assumption

variable [LE K] [DecidableLE K]

theorem entry_sound (τ : CLoc → K) (s : CStmt) {en : Entry} (h : s.entry = some en) :
    s.execT τ = setT τ en.l ((if en.fresh then 0 else τ en.l) + (en.c : K) * en.m.val τ) := by
  unfold CStmt.entry at h
  split at h
  · rename_i l l' e
    split at h
    · rename_i hl
      obtain ⟨x, hx, rfl⟩ := Option.map_eq_some_iff.1 h
      subst hl
      simp [CStmt.execT, CExpr.evalT, lin_sound τ e hx]
    · exact absurd h (by simp)
  · rename_i l l' e
    split at h
    · rename_i hl
      obtain ⟨x, hx, rfl⟩ := Option.map_eq_some_iff.1 h
      subst hl
      simp [CStmt.execT, CExpr.evalT, lin_sound τ e hx, sub_eq_add_neg]
    · obtain ⟨x, hx, rfl⟩ := Option.map_eq_some_iff.1 h
      simp [CStmt.execT, lin_sound τ _ hx]
  · obtain ⟨x, hx, rfl⟩ := Option.map_eq_some_iff.1 h
    simp [CStmt.execT, lin_sound τ _ hx]
  · exact absurd h (by simp)

theorem sum_setT (w τ : CLoc → K) (v : K) (l : CLoc) (W : List CLoc) (hn : W.Nodup) :
    (W.map fun k => w k * setT τ l v k).sum =
      (W.map fun k => w k * τ k).sum + if l ∈ W then w l * (v - τ l) else 0 := by
  induction W with
  | nil => simp
  | cons a W ih =>
    obtain ⟨ha, hn⟩ := List.nodup_cons.1 hn
    simp only [List.map_cons, List.sum_cons, ih hn, List.mem_cons]
    by_cases h : l = a
    · subst h
      simp only [setT, if_true, ha, if_false, true_or]
      ring
    · have h' : a ≠ l := fun e => h e.symm
      simp only [setT, h', if_false, h, false_or]
      ring

theorem isRate_ne {l : CLoc} (h : l.isRate = true) :
    (∀ i, CLoc.arr .fwd i ≠ l) ∧ (∀ i, CLoc.arr .rev i ≠ l) ∧ (∀ i, CLoc.arr .presMod i ≠ l) := by
  refine ⟨?_, ?_, ?_⟩ <;> rintro i rfl <;> simp [CLoc.isRate] at h

theorem Mono.val_setT {l : CLoc} (h : l.isRate = true) (τ : CLoc → K) (v : K) (m : Mono) :
    m.val (setT τ l v) = m.val τ := by
  obtain ⟨h1, h2, h3⟩ := isRate_ne h
  rcases m with ⟨f, r, p⟩
  cases r <;> cases p <;> simp [Mono.val, setT, h1, h2, h3]

/-- The sum over all targets, with arbitrary weights, is the sum over all entries. -/
theorem entries_sound (p : List CStmt) (W : List CLoc) {es : List Entry} {W' : List CLoc}
    (h : entries p W = some (es, W')) (hn : W.Nodup) (τ w : CLoc → K) :
    W'.Nodup ∧
    (W'.map fun l => w l * execT p τ l).sum =
      (W.map fun l => w l * τ l).sum + (es.map fun en => w en.l * ((en.c : K) * en.m.val τ)).sum ∧
    ∀ m : Mono, m.val (execT p τ) = m.val τ := by
  induction p generalizing W es W' τ with
  | nil =>
    simp only [entries, Option.some.injEq, Prod.mk.injEq] at h
    obtain ⟨rfl, rfl⟩ := h
    simp [execT, hn]
  | cons s p ih =>
    unfold entries at h
    split at h
    · exact absurd h (by simp)
    · rename_i en hen
      split at h
      · rename_i hc
        simp only [Bool.and_eq_true] at hc
        obtain ⟨hr, hf⟩ := hc
        obtain ⟨⟨es1, W1⟩, h1, h2⟩ := Option.map_eq_some_iff.1 h
        simp only [Prod.mk.injEq] at h2
        obtain ⟨rfl, rfl⟩ := h2
        have hs := entry_sound τ s hen
        obtain ⟨i1, i2, i3⟩ := ih _ h1 (nodup_insertLoc hn) (s.execT τ)
        refine ⟨i1, ?_, ?_⟩
        · simp only [execT, List.map_cons, List.sum_cons]
          rw [i2, hs]
          simp only [Mono.val_setT hr]
          unfold insertLoc
          by_cases hW : en.l ∈ W
          · have hfr : en.fresh = false := by simpa [hW] using hf
            simp only [List.contains_iff_mem, hW, if_true, hfr]
            rw [sum_setT w τ _ _ W hn]
            simp only [hW, if_true]
            simp
            ring
          · have hfr : en.fresh = true := by simpa [hW] using hf
            simp only [List.contains_iff_mem, hW, if_false, hfr, List.map_cons, List.sum_cons]
            rw [sum_setT w τ _ _ W hn]
            simp only [hW, if_false]
            simp [setT]
            ring
        · intro m
          simp only [execT]
          rw [i3 m, hs, Mono.val_setT hr]
      · exact absurd h (by simp)

end sound

/-- The species whose rate is at `l`. -/
def specOf (nsp : Nat) : CLoc → Nat
  | .arr .spRates i => i
  | _ => nsp - 1

/-- The monomial of a reaction. -/
def monoOf (n : Numbered) : Mono :=
  ⟨n.k, if n.r.reversible then some n.j else none, if n.r.modified then some n.p else none⟩

/-- The entries of a block are those of reaction `n`. -/
def blockMatches (nsp : Nat) (n : Numbered) (es : List Entry) : Bool :=
  es.all (fun en => decide (en.m = monoOf n) && decide (en.c = n.r.net (specOf nsp en.l)) &&
    decide (specLoc nsp (specOf nsp en.l) = en.l)) &&
  decide (es.map (·.l)).Nodup &&
  (n.r.reactants ++ n.r.products).all fun s =>
    decide (n.r.net s = 0) || (es.map (·.l)).contains (specLoc nsp s)

/-- The blocks of the function are those of the reactions, in order. -/
def specMatches (nsp : Nat) : List (List CStmt) → List Numbered → List CLoc → Option (List CLoc)
  | [], [], W => some W
  | b :: bs, n :: ns, W => match entries b W with
    | some (es, W1) => if blockMatches nsp n es then specMatches nsp bs ns W1 else none
    | none => none
  | _, _, _ => none

/-- The remaining statements set the rates of further species to zero. -/
def zeroRest : List CStmt → List CLoc → Option (List CLoc)
  | [], W => some W
  | .set l (.num 0 0) :: p, W => if l.isRate && !(W.contains l) then zeroRest p (l :: W) else none
  | _, _ => none

/-- eval_spec_rates computes the production rates of the reactions `rs`. -/
def checkSpec (M : Mech) (rs : List Reaction) : Bool :=
  decide (M.specStart = []) &&
  match specMatches M.nsp M.specBlocks (number rs) [] with
  | none => false
  | some W => match zeroRest M.specRest W with
    | none => false
    | some W' => (List.range M.nsp).all fun s => W'.contains (specLoc M.nsp s)

section match_sound
variable {K : Type} [Field K] [CharZero K] [CMath K] [LE K] [DecidableLE K]

theorem monoOf_val (n : Numbered) (τ : CLoc → K) :
    (monoOf n).val τ = n.progress (fun i => τ (.arr .fwd i)) (fun i => τ (.arr .rev i))
      (fun i => τ (.arr .presMod i)) := by
  cases h1 : n.r.reversible <;> cases h2 : n.r.modified <;> simp [monoOf, Mono.val, Numbered.progress, h1, h2]

theorem sum_entries (es : List Entry) (L : CLoc) (g : CLoc → Int) (v : K) (τ : CLoc → K)
    (hm : ∀ en ∈ es, en.m.val τ = v ∧ en.c = g en.l) (hn : (es.map (·.l)).Nodup) :
    (es.map fun en => (if en.l = L then (1 : K) else 0) * ((en.c : K) * en.m.val τ)).sum =
      if L ∈ es.map (·.l) then (g L : K) * v else 0 := by
  induction es with
  | nil => simp
  | cons a es ih =>
    simp only [List.map_cons, List.nodup_cons] at hn
    obtain ⟨ha, hn⟩ := hn
    have hm' : ∀ en ∈ es, en.m.val τ = v ∧ en.c = g en.l := fun en h => hm en (List.mem_cons_of_mem _ h)
    obtain ⟨h1, h2⟩ := hm a List.mem_cons_self
    simp only [List.map_cons, List.sum_cons, List.mem_cons]
    rw [ih hm' hn]
    by_cases h : a.l = L
    · subst h
      simp only [ha, if_false, if_true, true_or, h1, h2]
      ring
    · have h' : ¬ L = a.l := fun e => h e.symm
      simp only [h, h', if_false, false_or]
      ring

theorem blockMatches_sound {nsp : Nat} {n : Numbered} {es : List Entry} (h : blockMatches nsp n es = true)
    (τ : CLoc → K) (s : Nat) :
    (es.map fun en => (if en.l = specLoc nsp s then (1 : K) else 0) * ((en.c : K) * en.m.val τ)).sum =
      (n.r.net s : K) * (monoOf n).val τ := by
  unfold blockMatches at h
  simp only [Bool.and_eq_true, List.all_eq_true, decide_eq_true_eq, Bool.or_eq_true, List.contains_iff_mem] at h
  obtain ⟨⟨h1, h2⟩, h3⟩ := h
  have hspec : specOf nsp (specLoc nsp s) = s := by
    unfold specLoc
    split
    · simp only [specOf]; omega
    · rfl
  rw [sum_entries es _ (fun l => n.r.net (specOf nsp l)) ((monoOf n).val τ) τ
    (fun en hen => ⟨by rw [(h1 en hen).1.1], (h1 en hen).1.2⟩) h2, hspec]
  split
  · rfl
  · rename_i hni
    have : n.r.net s = 0 := by
      by_cases hmem : s ∈ n.r.reactants ++ n.r.products
      · rcases h3 s hmem with h | h
        · exact h
        · exact absurd h hni
      · simp only [List.mem_append, not_or] at hmem
        simp [Reaction.net, List.count_eq_zero_of_not_mem hmem.1, List.count_eq_zero_of_not_mem hmem.2]
    simp [this]

theorem specMatches_sound {nsp : Nat} (bs : List (List CStmt)) (ns : List Numbered) (W : List CLoc)
    {W' : List CLoc} (h : specMatches nsp bs ns W = some W') (hn : W.Nodup) (τ : CLoc → K) (s : Nat) :
    W'.Nodup ∧
    (W'.map fun l => (if l = specLoc nsp s then (1 : K) else 0) * execT bs.flatten τ l).sum =
      (W.map fun l => (if l = specLoc nsp s then (1 : K) else 0) * τ l).sum +
      (ns.map fun n => (n.r.net s : K) * (monoOf n).val τ).sum ∧
    ∀ m : Mono, m.val (execT bs.flatten τ) = m.val τ := by
  induction bs generalizing ns W τ with
  | nil =>
    cases ns with
    | nil =>
      obtain rfl := Option.some.inj h
      simp [execT, hn]
    | cons n ns => exact absurd h (by simp [specMatches])
  | cons b bs ih =>
    cases ns with
    | nil => exact absurd h (by simp [specMatches])
    | cons n ns =>
      unfold specMatches at h
      split at h
      · rename_i es W1 he
        split at h
        · rename_i hb
          obtain ⟨e1, e2, e3⟩ := entries_sound b W he hn τ (fun l => if l = specLoc nsp s then (1 : K) else 0)
          obtain ⟨i1, i2, i3⟩ := ih ns W1 h e1 (execT b τ)
          simp only [List.flatten_cons, execT_append, List.map_cons, List.sum_cons]
          refine ⟨i1, ?_, fun m => by rw [i3, e3]⟩
          rw [i2, e2, blockMatches_sound hb τ s]
          simp only [e3]
          ring
        · exact absurd h (by simp)
      · exact absurd h (by simp)

theorem zeroRest_sound (p : List CStmt) (W : List CLoc) {W' : List CLoc} (h : zeroRest p W = some W')
    (hn : W.Nodup) (τ : CLoc → K) (L : CLoc) :
    W'.Nodup ∧
    (W'.map fun l => (if l = L then (1 : K) else 0) * execT p τ l).sum =
      (W.map fun l => (if l = L then (1 : K) else 0) * τ l).sum := by
  induction p generalizing W τ with
  | nil =>
    obtain rfl := Option.some.inj h
    exact ⟨hn, rfl⟩
  | cons s p ih =>
    unfold zeroRest at h
    split at h
    · rename_i h'
      cases h'
    · rename_i W _ _ l p' h'
      split at h
      · rename_i hc
        simp only [Bool.and_eq_true, Bool.not_eq_true', List.contains_eq_mem, decide_eq_false_iff_not] at hc
        simp only [List.cons.injEq] at h'
        obtain ⟨rfl, rfl⟩ := h'
        obtain ⟨i1, i2⟩ := ih (l :: W) h (List.nodup_cons.2 ⟨hc.2, hn⟩) (CStmt.execT τ (.set l (.num 0 0)))
        refine ⟨i1, ?_⟩
        simp only [execT]
        rw [i2]
        simp only [CStmt.execT, CExpr.evalT, List.map_cons, List.sum_cons]
        rw [sum_setT (fun l => if l = L then (1 : K) else 0) τ _ _ W hn]
        simp [setT, sci_eq, hc.2]
      · exact absurd h (by simp)
    · exact absurd h (by simp)

theorem sum_indicator (W : List CLoc) (hn : W.Nodup) (L : CLoc) (τ : CLoc → K) :
    (W.map fun l => (if l = L then (1 : K) else 0) * τ l).sum = if L ∈ W then τ L else 0 := by
  induction W with
  | nil => simp
  | cons a W ih =>
    obtain ⟨ha, hn⟩ := List.nodup_cons.1 hn
    simp only [List.map_cons, List.sum_cons, ih hn, List.mem_cons]
    by_cases h : a = L
    · subst h
      simp [ha]
    · have h' : ¬ L = a := fun e => h e.symm
      simp [h, h']

/-- The result of eval_spec_rates. -/
theorem checkSpec_sound {M : Mech} {rs : List Reaction} (h : checkSpec M rs = true) (τ : CLoc → K)
    {s : Nat} (hs : s < M.nsp) :
    execT (M.specStart ++ M.specBlocks.flatten ++ M.specRest) τ (specLoc M.nsp s) =
      productionRate rs (fun i => τ (.arr .fwd i)) (fun i => τ (.arr .rev i)) (fun i => τ (.arr .presMod i)) s := by
  unfold checkSpec at h
  simp only [Bool.and_eq_true, decide_eq_true_eq] at h
  obtain ⟨h0, h⟩ := h
  split at h
  · exact absurd h (by simp)
  · rename_i W hW
    split at h
    · exact absurd h (by simp)
    · rename_i W' hW'
      have hmem := List.all_eq_true.1 h s (List.mem_range.2 hs)
      simp only [List.contains_iff_mem] at hmem
      obtain ⟨a1, a2, a3⟩ := specMatches_sound M.specBlocks (number rs) [] hW List.nodup_nil τ s
      obtain ⟨b1, b2⟩ := zeroRest_sound M.specRest W hW' a1 (execT M.specBlocks.flatten τ) (specLoc M.nsp s)
      rw [h0, List.nil_append, execT_append]
      have := sum_indicator W' b1 (specLoc M.nsp s) (execT M.specRest (execT M.specBlocks.flatten τ))
      rw [if_pos hmem] at this
      rw [← this, b2, a2]
      simp only [List.map_nil, List.sum_nil, zero_add, productionRate, monoOf_val]

end match_sound
end DLB
