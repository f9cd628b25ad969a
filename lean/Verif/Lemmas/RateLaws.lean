import Verif.Lemmas.RateForms
import Verif.Lemmas.RealMath
import Verif.Lemmas.ExpBound
import Verif.Lemmas.ThermoSound
import Verif.Spec.Kinetics
/-
Comparison of the rate coefficients, equilibrium constants and falloff factors of a mechanism library with chem.cti.
-/
set_option autoImplicit false
set_option linter.unusedSectionVars false

namespace DLB

/-! ### Arrhenius' law -/

/-- The constant, if the polynomial is one. -/
def IPoly.const? : IPoly → Option Int
  | [] => some 0
  | [a] => some a
  | _ => none

theorem IPoly.const_eval {K : Type} [Field K] {p : IPoly} {c : Int} (h : p.const? = some c) (x : K) : p.eval x = c := by
  unfold IPoly.const? at h
  split at h
  · cases h
    simp [IPoly.eval]
  · cases h
    simp [IPoly.eval]
  · cases h

/-- The rate coefficient is the one of chem.cti: exact for a literal, otherwise the exponent of `T` is exact, the activation temperature is
right up to 10^(-14) of it, and the logarithm of the factor up to 10^(-14). -/
def arrheniusOk (a : Arrhenius) (order : Nat) : RateVal → Bool
  | .lit m e => decide (0 < a.A.1) && decide (a.b.1 = 0) && decide (a.E.1 = 0) &&
    decide ((m : Int) * 10 ^ a.A.2 * 1000 ^ (order - 1) = a.A.1 * 10 ^ e)
  | .ex f => match f.p.1.const?, f.l.1.const?, f.q.1.const? with
    | some c, some l, some q =>
      decide (0 < a.A.1) && decide (l * 10 ^ a.b.2 = a.b.1 * 10 ^ f.l.2) &&
      decide ((q * 10 ^ a.E.2 * 83144621 + a.E.1 * 41840000 * 10 ^ f.q.2).natAbs * 10 ^ 14 ≤
        (a.E.1 * 41840000 * 10 ^ f.q.2).natAbs) &&
      logOk c f.p.2 a.A.1.toNat (10 ^ a.A.2 * 1000 ^ (order - 1))
    | _, _, _ => false

theorem arrheniusOk_sound {a : Arrhenius} {order : Nat} {v : RateVal} (h : arrheniusOk a order v = true) (T : ℝ) (hT : 0 < T) :
    0 < a.coefficient order T ∧ ∃ η : ℝ, |η| ≤ (1 + |a.temperature| / T) / 10 ^ 14 ∧
      v.eval T (Real.log T) = a.coefficient order T * Real.exp η := by
  have hpos : (0 : Int) < a.A.1 → 0 < a.coefficient order T := by
    intro hA
    have : (0 : ℝ) < a.A.1 := by exact_mod_cast hA
    unfold Arrhenius.coefficient SDec.val
    have := Real.rpow_pos_of_pos hT ((a.b.1 : ℝ) / 10 ^ a.b.2)
    have := Real.exp_pos (-(a.temperature / T))
    positivity
  cases v with
  | lit m e =>
    simp only [arrheniusOk, Bool.and_eq_true, decide_eq_true_eq] at h
    obtain ⟨⟨⟨hA, hb⟩, hE⟩, he⟩ := h
    refine ⟨hpos hA, 0, by rw [abs_zero]; positivity, ?_⟩
    have he' : (m : ℝ) * 10 ^ a.A.2 * 1000 ^ (order - 1) = a.A.1 * 10 ^ e := by exact_mod_cast he
    simp only [RateVal.eval, Arrhenius.coefficient, Arrhenius.temperature, SDec.val, hb, hE, Int.cast_zero, zero_div, zero_mul,
      Real.rpow_zero, neg_zero, Real.exp_zero, mul_one]
    rw [div_div, div_eq_div_iff (by positivity) (by positivity)]
    linarith
  | ex f =>
    unfold arrheniusOk at h
    simp only at h
    split at h
    · rename_i c l q hc hl hq
      simp only [Bool.and_eq_true, decide_eq_true_eq] at h
      obtain ⟨⟨⟨hA, hb⟩, hE⟩, he⟩ := h
      obtain ⟨-, -, hlog⟩ := logOk_sound he
      have hAr : (0 : ℝ) < a.A.1 := by exact_mod_cast hA
      have hA2 : ((a.A.1.toNat : Nat) : ℝ) = a.A.1 := by
        have := Int.toNat_of_nonneg hA.le
        exact_mod_cast congrArg (Int.cast : Int → ℝ) this
      have hAs : ((a.A.1.toNat : Nat) : ℝ) / ((10 ^ a.A.2 * 1000 ^ (order - 1) : Nat) : ℝ) =
          SDec.val a.A / 1000 ^ (order - 1) := by
        rw [hA2]
        unfold SDec.val
        push_cast
        rw [div_div]
      rw [hAs] at hlog
      have hAp : (0 : ℝ) < SDec.val a.A / 1000 ^ (order - 1) := by
        unfold SDec.val
        positivity
      refine ⟨hpos hA, ((c : ℝ) / 10 ^ f.p.2 - Real.log (SDec.val a.A / 1000 ^ (order - 1))) +
        ((q : ℝ) / 10 ^ f.q.2 + a.temperature) / T, ?_, ?_⟩
      · refine (abs_add_le _ _).trans ?_
        rw [add_div (1 : ℝ)]
        refine add_le_add hlog ?_
        rw [abs_div, abs_of_pos hT, div_right_comm]
        refine div_le_div_of_nonneg_right ?_ hT.le
        have hE' : |(q : ℝ) * 10 ^ a.E.2 * 83144621 + a.E.1 * 41840000 * 10 ^ f.q.2| * 10 ^ 14 ≤
            |(a.E.1 : ℝ) * 41840000 * 10 ^ f.q.2| := by
          have : ((((q * 10 ^ a.E.2 * 83144621 + a.E.1 * 41840000 * 10 ^ f.q.2).natAbs : Nat) : Int)) * 10 ^ 14 ≤
              (((a.E.1 * 41840000 * 10 ^ f.q.2).natAbs : Nat) : Int) := by exact_mod_cast hE
          rw [Int.natCast_natAbs, Int.natCast_natAbs] at this
          exact_mod_cast this
        have e1 : a.temperature = (a.E.1 : ℝ) * 41840000 * 10 ^ f.q.2 / (10 ^ a.E.2 * 83144621 * 10 ^ f.q.2) := by
          unfold Arrhenius.temperature SDec.val gasR
          field_simp
          ring
        have e2 : (q : ℝ) / 10 ^ f.q.2 + a.temperature =
            ((q : ℝ) * 10 ^ a.E.2 * 83144621 + a.E.1 * 41840000 * 10 ^ f.q.2) / (10 ^ a.E.2 * 83144621 * 10 ^ f.q.2) := by
          rw [e1]
          field_simp
        rw [e2, e1, abs_div, abs_div, abs_of_pos (show (0 : ℝ) < 10 ^ a.E.2 * 83144621 * 10 ^ f.q.2 by positivity),
          div_right_comm]
        refine div_le_div_of_nonneg_right ?_ (by positivity)
        rw [le_div_iff₀ (by positivity)]
        exact hE'
      · have hb' : (l : ℝ) / 10 ^ f.l.2 = SDec.val a.b := by
          unfold SDec.val
          rw [div_eq_div_iff (by positivity) (by positivity)]
          exact_mod_cast hb
        simp only [RateVal.eval, LForm.eval, QPoly.eval, IPoly.const_eval hc, IPoly.const_eval hl, IPoly.const_eval hq, hb']
        rw [Arrhenius.coefficient, Real.rpow_def_of_pos hT]
        change Real.exp _ = _
        rw [← Real.exp_log hAp, Real.log_exp, ← Real.exp_add, ← Real.exp_add, ← Real.exp_add]
        congr 1
        ring
    · exact absurd h (by simp)

/-! ### Equilibrium constants -/

/-- `-60 (G / (R T) + ln T)` of a species. -/
def gForm (a : List SDec) : LForm :=
  ⟨.add ((a.getD 6 (0, 0)).times 60 |> fun d => ([d.1], d.2))
      (.ofCoeffs [(a.getD 0 (0, 0)).times (-60), (a.getD 1 (0, 0)).times 30, (a.getD 2 (0, 0)).times 10,
        (a.getD 3 (0, 0)).times 5, (a.getD 4 (0, 0)).times 3]),
    .add ([-60], 0) ((a.getD 0 (0, 0)).times 60 |> fun d => ([d.1], d.2)),
    (a.getD 5 (0, 0)).times (-60) |> fun d => ([d.1], d.2)⟩

/-- The absolute value of a decimal number. -/
def SDec.abs (d : SDec) : SDec := ((d.1.natAbs : Int), d.2)

/-- 60 times the terms of the Gibbs energy of a species. -/
def gAbs (a : List SDec) : LForm :=
  ⟨.add ((a.getD 6 (0, 0)).abs.times 60 |> fun d => ([d.1], d.2))
      (.ofCoeffs [(a.getD 0 (0, 0)).abs.times 60, (a.getD 1 (0, 0)).abs.times 30, (a.getD 2 (0, 0)).abs.times 10,
        (a.getD 3 (0, 0)).abs.times 5, (a.getD 4 (0, 0)).abs.times 3]),
    .add ([60], 0) ((a.getD 0 (0, 0)).abs.times 60 |> fun d => ([d.1], d.2)),
    (a.getD 5 (0, 0)).abs.times 60 |> fun d => ([d.1], d.2)⟩

theorem abs_val (d : SDec) : (SDec.val d.abs : ℝ) = |SDec.val d| := by
  unfold SDec.val SDec.abs
  rw [abs_div, abs_of_pos (show (0 : ℝ) < 10 ^ d.2 by positivity), Int.natCast_natAbs, Int.cast_abs]

theorem eval_single (x : ℝ) (d : SDec) : QPoly.eval x ([d.1], d.2) = SDec.val d := by
  simp [QPoly.eval, IPoly.eval, SDec.val]

theorem gForm_eval (a : List SDec) (T : ℝ) (hT : 0 < T) : (gForm a).eval T (Real.log T) = -60 * (gOverRT a T + Real.log T) := by
  simp only [gForm, LForm.eval, QPoly.eval_add, eval_single, QPoly.eval_ofCoeffs_cons, QPoly.eval_ofCoeffs_nil, times_val, gOverRT,
    hOverR, sOverR, nasaCoeff]
  have e : QPoly.eval T ([-60], 0) = -60 := by simp [QPoly.eval, IPoly.eval]
  rw [e]
  push_cast
  field_simp
  ring

theorem gAbs_eval (a : List SDec) (T : ℝ) (hT : 0 < T) : (gAbs a).eval T |Real.log T| = 60 * gTerms a T := by
  simp only [gAbs, LForm.eval, QPoly.eval_add, eval_single, QPoly.eval_ofCoeffs_cons, QPoly.eval_ofCoeffs_nil, times_val, abs_val,
    gTerms, nasaCoeff]
  have e : QPoly.eval T ([60], 0) = 60 := by simp [QPoly.eval, IPoly.eval]
  rw [e]
  push_cast
  field_simp
  ring

namespace LForm

/-- Linear combination. -/
def combine (f : Nat → Int) (g : Nat → LForm) : List Nat → LForm
  | [] => zero
  | s :: l => ((g s).smul (f s)).add (combine f g l)

theorem combine_eval {K : Type} [Field K] [CharZero K] (T y : K) (f : Nat → Int) (g : Nat → LForm) (l : List Nat) :
    (combine f g l).eval T y = (l.map fun s => (f s : K) * (g s).eval T y).sum := by
  induction l with
  | nil => simp [combine, eval_zero]
  | cons s l ih => simp [combine, eval_add, eval_smul, ih]

end LForm

/-- The species whose amount a reaction changes. -/
def Reaction.changed (r : Reaction) (nsp : Nat) : List Nat := (List.range nsp).filter fun s => decide (r.net s ≠ 0)

/-- A summand of the exponent of the equilibrium constant is the contribution of the species with its middle temperature. -/
def pieceOk (fit : Nat → Nasa) (r : Reaction) (sp : List Nat) (p : KcPiece) : Bool :=
  let l := sp.filter fun s => decide ((fit s).tMid = p.tMid)
  ((p.low.smul 60).add (LForm.combine r.net (fun s => gForm (fit s).low) l).neg).dom
    (LForm.combine (fun s => ((r.net s).natAbs : Int)) (fun s => gAbs (fit s).low) l) &&
  ((p.high.smul 60).add (LForm.combine r.net (fun s => gForm (fit s).high) l).neg).dom
    (LForm.combine (fun s => ((r.net s).natAbs : Int)) (fun s => gAbs (fit s).high) l)

/-- The equilibrium constant is the one of chem.cti up to rounding. -/
def kcOk (nsp : Nat) (fit : Nat → Nasa) (r : Reaction) (b : KcBlock) : Bool :=
  let sp := r.changed nsp
  decide (b.pieces.map (·.tMid)).Nodup &&
  sp.all (fun s => (b.pieces.map (·.tMid)).contains (fit s).tMid) &&
  b.pieces.all (pieceOk fit r sp) &&
  decide ((sp.map r.net).sum = r.molecules) &&
  (if 0 ≤ r.molecules then
    logOk 0 0 (b.c.1 * 83144621 ^ r.molecules.toNat) (10 ^ b.c.2 * 1013250000 ^ r.molecules.toNat)
  else logOk 0 0 (b.c.1 * 1013250000 ^ (-r.molecules).toNat) (10 ^ b.c.2 * 83144621 ^ (-r.molecules).toNat))

theorem changed_sum (r : Reaction) (nsp : Nat) (F : Nat → ℝ) (h0 : ∀ s, r.net s = 0 → F s = 0) :
    ∑ s ∈ (r.changed nsp).toFinset, F s = ∑ s ∈ Finset.range nsp, F s := by
  refine Finset.sum_subset ?_ ?_
  · intro s hs
    simp only [Reaction.changed, List.mem_toFinset, List.mem_filter, List.mem_range] at hs
    exact Finset.mem_range.2 hs.1
  · intro s hs hn
    simp only [Reaction.changed, List.mem_toFinset, List.mem_filter, List.mem_range, not_and, decide_eq_true_eq, not_not] at hn
    exact h0 s (hn (Finset.mem_range.1 hs))

theorem changed_nodup (r : Reaction) (nsp : Nat) : (r.changed nsp).Nodup := List.nodup_range.filter _

/-- Splitting a sum over species by their middle temperature. -/
theorem split_sum (sp : List Nat) (hn : sp.Nodup) (ks : List (Nat × Nat)) (hk : ks.Nodup) (key : Nat → Nat × Nat)
    (hc : ∀ s ∈ sp, key s ∈ ks) (F : Nat → ℝ) :
    ∑ s ∈ sp.toFinset, F s = (ks.map fun k => ((sp.filter fun s => decide (key s = k)).map F).sum).sum := by
  rw [← List.sum_toFinset _ hk, ← Finset.sum_fiberwise_of_maps_to (s := sp.toFinset) (t := ks.toFinset) (g := key)
    (fun s hs => List.mem_toFinset.2 (hc s (List.mem_toFinset.1 hs)))]
  refine Finset.sum_congr rfl fun k _ => ?_
  rw [← List.sum_toFinset _ (hn.filter _)]
  refine Finset.sum_congr ?_ fun _ _ => rfl
  ext s
  simp

theorem abs_list_sum_le {α : Type} (l : List α) (f g : α → ℝ) (h : ∀ a ∈ l, |f a| ≤ g a) : |(l.map f).sum| ≤ (l.map g).sum := by
  induction l with
  | nil => simp
  | cons a l ih =>
    simp only [List.map_cons, List.sum_cons]
    exact (abs_add_le _ _).trans (add_le_add (h a (by simp)) (ih fun b hb => h b (by simp [hb])))

theorem pieceOk_sound {fit : Nat → Nasa} {r : Reaction} {sp : List Nat} {p : KcPiece} (h : pieceOk fit r sp p = true)
    (T : ℝ) (hT : 0 < T) :
    |p.eval T (Real.log T) + ((sp.filter fun s => decide ((fit s).tMid = p.tMid)).map fun s =>
        (r.net s : ℝ) * (gOverRT ((fit s).at T) T + Real.log T)).sum| ≤
      ((sp.filter fun s => decide ((fit s).tMid = p.tMid)).map fun s =>
        |(r.net s : ℝ)| * gTerms ((fit s).at T) T / 10 ^ 14).sum := by
  simp only [pieceOk, Bool.and_eq_true] at h
  obtain ⟨h1, h2⟩ := h
  have h1 := LForm.dom_sound h1 T (Real.log T) hT
  have h2 := LForm.dom_sound h2 T (Real.log T) hT
  simp only [LForm.eval_add, LForm.eval_neg, LForm.eval_smul, LForm.combine_eval, gForm_eval _ T hT, gAbs_eval _ T hT] at h1 h2
  generalize hl : (sp.filter fun s => decide ((fit s).tMid = p.tMid)) = l at *
  have htm : ∀ s ∈ l, (fit s).tMid = p.tMid := by
    intro s hs
    rw [← hl, List.mem_filter] at hs
    simpa using hs.2
  have key : ∀ (a : Nat → List SDec) (v : ℝ),
      |(60 : Int) * v + -(l.map fun s => (r.net s : ℝ) * (-60 * (gOverRT (a s) T + Real.log T))).sum| ≤
        (l.map fun s => (((r.net s).natAbs : Int) : ℝ) * (60 * gTerms (a s) T)).sum / 10 ^ 14 →
      (∀ s ∈ l, (fit s).at T = a s) →
      |v + (l.map fun s => (r.net s : ℝ) * (gOverRT ((fit s).at T) T + Real.log T)).sum| ≤
      (l.map fun s => |(r.net s : ℝ)| * gTerms ((fit s).at T) T / 10 ^ 14).sum := by
    intro a v hv ha
    have e1 : (l.map fun s => (r.net s : ℝ) * (-60 * (gOverRT (a s) T + Real.log T))).sum =
        -60 * (l.map fun s => (r.net s : ℝ) * (gOverRT ((fit s).at T) T + Real.log T)).sum := by
      rw [← List.sum_map_mul_left]
      congr 1
      refine List.map_congr_left fun s hs => ?_
      rw [ha s hs]
      ring
    have e2 : (l.map fun s => (((r.net s).natAbs : Int) : ℝ) * (60 * gTerms (a s) T)).sum / 10 ^ 14 =
        60 * (l.map fun s => |(r.net s : ℝ)| * gTerms ((fit s).at T) T / 10 ^ 14).sum := by
      rw [← List.sum_map_mul_left, div_eq_inv_mul, ← List.sum_map_mul_left]
      congr 1
      refine List.map_congr_left fun s hs => ?_
      rw [ha s hs, Int.natCast_natAbs, Int.cast_abs]
      ring
    rw [e1, e2] at hv
    have e3 : ((60 : Int) : ℝ) * v + -(-60 * (l.map fun s => (r.net s : ℝ) * (gOverRT ((fit s).at T) T + Real.log T)).sum) =
        60 * (v + (l.map fun s => (r.net s : ℝ) * (gOverRT ((fit s).at T) T + Real.log T)).sum) := by push_cast; ring
    rw [e3, abs_mul, abs_of_pos (by norm_num : (0 : ℝ) < 60)] at hv
    linarith
  unfold KcPiece.eval
  split
  · rename_i hle
    exact key _ _ h1 fun s hs => by unfold Nasa.at; rw [htm s hs, if_pos hle]
  · rename_i hle
    exact key _ _ h2 fun s hs => by unfold Nasa.at; rw [htm s hs, if_neg hle]

theorem standard_ratio : (standardPressure / gasR : ℝ) = 1013250000 / 83144621 := by
  unfold standardPressure gasR
  norm_num

theorem kcOk_sound {nsp : Nat} {fit : Nat → Nasa} {r : Reaction} {b : KcBlock} (h : kcOk nsp fit r b = true)
    (T : ℝ) (hT : 0 < T) :
    ∃ η : ℝ, |η| ≤ (1 + gibbsTerms nsp fit r T) / 10 ^ 14 ∧
      b.eval T (Real.log T) = equilibriumConstant nsp fit r T * Real.exp η := by
  simp only [kcOk, Bool.and_eq_true, decide_eq_true_eq, List.all_eq_true, List.contains_iff_mem] at h
  obtain ⟨⟨⟨⟨hnd, hcov⟩, hp⟩, hmol⟩, hc⟩ := h
  -- the exponent
  have hsplit : ∀ F : Nat → ℝ, (∀ s, r.net s = 0 → F s = 0) → ∑ s ∈ Finset.range nsp, F s =
      (b.pieces.map fun p => (((r.changed nsp).filter fun s => decide ((fit s).tMid = p.tMid)).map F).sum).sum := by
    intro F hF
    rw [← changed_sum r nsp F hF, split_sum _ (changed_nodup r nsp) _ hnd (fun s => (fit s).tMid) hcov, List.map_map]
    rfl
  have hdiff : |(b.pieces.map fun p => p.eval T (Real.log T)).sum +
      ∑ s ∈ Finset.range nsp, (r.net s : ℝ) * (gOverRT ((fit s).at T) T + Real.log T)| ≤ gibbsTerms nsp fit r T / 10 ^ 14 := by
    rw [hsplit _ (fun s hs => by simp [hs]), ← List.sum_map_add]
    have e : gibbsTerms nsp fit r T / 10 ^ 14 =
        ∑ s ∈ Finset.range nsp, |(r.net s : ℝ)| * gTerms ((fit s).at T) T / 10 ^ 14 := by
      rw [gibbsTerms, Finset.sum_div]
    rw [e, hsplit _ (fun s hs => by simp [hs])]
    exact abs_list_sum_le _ _ _ fun p hp' => pieceOk_sound (hp p hp') T hT
  have hnet : ∑ s ∈ Finset.range nsp, (r.net s : ℝ) = (r.molecules : ℝ) := by
    rw [← changed_sum r nsp _ (fun s hs => by simp [hs]), List.sum_toFinset _ (changed_nodup r nsp), ← hmol]
    push_cast
    simp [List.map_map, Function.comp_def]
  have e1 : ∑ s ∈ Finset.range nsp, (r.net s : ℝ) * (gOverRT ((fit s).at T) T + Real.log T) =
      ∑ s ∈ Finset.range nsp, (r.net s : ℝ) * gOverRT ((fit s).at T) T + r.molecules * Real.log T := by
    rw [← hnet, Finset.sum_mul, ← Finset.sum_add_distrib]
    exact Finset.sum_congr rfl fun s _ => by ring
  rw [e1] at hdiff
  -- the constant
  have hρ : (0 : ℝ) < standardPressure / gasR := by rw [standard_ratio]; norm_num
  have hcc : 0 < b.c.1 ∧ |Real.log ((b.c.1 : ℝ) / 10 ^ b.c.2) - r.molecules * Real.log (standardPressure / gasR)| ≤ 1 / 10 ^ 14 := by
    have hlogpow : ∀ k : Nat, Real.log ((1013250000 : ℝ) ^ k / 83144621 ^ k) = k * Real.log (1013250000 / 83144621) := by
      intro k
      rw [← div_pow, Real.log_pow]
    rw [standard_ratio]
    split at hc
    · rename_i hm
      obtain ⟨k1, k2, k3⟩ := logOk_sound hc
      have hb : 0 < b.c.1 := Nat.pos_of_ne_zero fun h0 => by simp [h0] at k1
      have hb' : (0 : ℝ) < b.c.1 := by exact_mod_cast hb
      refine ⟨hb, ?_⟩
      have hz : (r.molecules : ℝ) = (r.molecules.toNat : ℝ) := by
        have := Int.toNat_of_nonneg hm
        exact_mod_cast (congrArg (Int.cast : Int → ℝ) this).symm
      push_cast at k3
      have e : (b.c.1 : ℝ) * 83144621 ^ r.molecules.toNat / (10 ^ b.c.2 * 1013250000 ^ r.molecules.toNat) =
          (b.c.1 : ℝ) / 10 ^ b.c.2 / (1013250000 ^ r.molecules.toNat / 83144621 ^ r.molecules.toNat) := by
        field_simp
      rw [e, Real.log_div (by positivity) (by positivity), hlogpow, zero_div, zero_sub, abs_neg] at k3
      rw [hz]
      exact k3
    · rename_i hm
      obtain ⟨k1, k2, k3⟩ := logOk_sound hc
      have hb : 0 < b.c.1 := Nat.pos_of_ne_zero fun h0 => by simp [h0] at k1
      have hb' : (0 : ℝ) < b.c.1 := by exact_mod_cast hb
      refine ⟨hb, ?_⟩
      have hz : (r.molecules : ℝ) = -((-r.molecules).toNat : ℝ) := by
        have : (((-r.molecules).toNat : Nat) : Int) = -r.molecules := Int.toNat_of_nonneg (by omega)
        have := congrArg (Int.cast : Int → ℝ) this
        push_cast at this
        linarith
      push_cast at k3
      have e : (b.c.1 : ℝ) * 1013250000 ^ (-r.molecules).toNat / (10 ^ b.c.2 * 83144621 ^ (-r.molecules).toNat) =
          (b.c.1 : ℝ) / 10 ^ b.c.2 * (1013250000 ^ (-r.molecules).toNat / 83144621 ^ (-r.molecules).toNat) := by
        field_simp
      rw [e, Real.log_mul (by positivity) (by positivity), hlogpow, zero_div, zero_sub, abs_neg] at k3
      rw [hz]
      have e' : Real.log ((b.c.1 : ℝ) / 10 ^ b.c.2) - -((-r.molecules).toNat : ℝ) * Real.log (1013250000 / 83144621) =
        Real.log ((b.c.1 : ℝ) / 10 ^ b.c.2) + ((-r.molecules).toNat : ℝ) * Real.log (1013250000 / 83144621) := by ring
      rw [e']
      exact k3
  obtain ⟨hb, hconst⟩ := hcc
  have hb' : (0 : ℝ) < (b.c.1 : ℝ) / 10 ^ b.c.2 := by
    have : (0 : ℝ) < b.c.1 := by exact_mod_cast hb
    positivity
  refine ⟨(Real.log ((b.c.1 : ℝ) / 10 ^ b.c.2) - r.molecules * Real.log (standardPressure / gasR)) +
    ((b.pieces.map fun p => p.eval T (Real.log T)).sum + (∑ s ∈ Finset.range nsp, (r.net s : ℝ) * gOverRT ((fit s).at T) T +
      r.molecules * Real.log T)), ?_, ?_⟩
  · refine (abs_add_le _ _).trans ?_
    rw [add_div]
    exact add_le_add hconst hdiff
  · have hq : (0 : ℝ) < standardPressure / (gasR * T) := by
      rw [← div_div]
      exact div_pos hρ hT
    have e2 : (standardPressure / (gasR * T)) ^ r.molecules =
        Real.exp (r.molecules * (Real.log (standardPressure / gasR) - Real.log T)) := by
      rw [← Real.log_div hρ.ne' hT.ne', div_div, ← Real.rpow_intCast, Real.rpow_def_of_pos hq]
      congr 1
      ring
    unfold KcBlock.eval equilibriumConstant
    rw [e2]
    change (b.c.1 : ℝ) / 10 ^ b.c.2 * Real.exp _ = _
    nth_rewrite 1 [← Real.exp_log hb']
    rw [← Real.exp_add, ← Real.exp_add, ← Real.exp_add]
    congr 1
    ring

end DLB
