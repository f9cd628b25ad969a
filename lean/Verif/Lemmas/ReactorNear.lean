import Verif.Lemmas.KineticsNear
/-
The right-hand side that the shipped libraries compute is near that of chem.cti.
-/
set_option autoImplicit false
set_option linter.unusedSectionVars false

namespace DLB

theorem list_abs_sub {α : Type} (l : List α) (f g e : α → ℝ) (h : ∀ n ∈ l, |f n - g n| ≤ e n) :
    |(l.map f).sum - (l.map g).sum| ≤ (l.map e).sum := by
  induction l with
  | nil => simp
  | cons a l ih =>
    simp only [List.map_cons, List.sum_cons]
    have h1 := h a (by simp)
    have h2 := ih fun n hn => h n (by simp [hn])
    have : f a + (l.map f).sum - (g a + (l.map g).sum) = (f a - g a) + ((l.map f).sum - (l.map g).sum) := by ring
    rw [this]
    exact (abs_add_le _ _).trans (add_le_add h1 h2)

theorem list_abs_sum {α : Type} (l : List α) (f e : α → ℝ) (h : ∀ n ∈ l, |f n| ≤ e n) : |(l.map f).sum| ≤ (l.map e).sum := by
  have := list_abs_sub l f (fun _ => 0) e (by simpa using h)
  simpa using this

theorem list_sum_mul {α : Type} (l : List α) (f : α → ℝ) (c : ℝ) : (l.map f).sum * c = (l.map fun n => f n * c).sum := by
  induction l with
  | nil => simp
  | cons a l ih => simp only [List.map_cons, List.sum_cons, add_mul, ih]

section
variable {D : Package} (hD : D ∈ shipped)
include hD

/-- The literals of the weights. -/
theorem weight_near (i : Nat) (hi : i < D.nsp) :
    Near (2 / 10 ^ 15) (Dec.val (nth D.mech.weights i)) (D.molWeight i) ∧
    Near (2 / 10 ^ 15) (Dec.val (nth D.mech.recips i)) (D.molWeight i)⁻¹ := by
  have hc := checked_of_shipped hD
  have hW : (0 : ℝ) < D.molWeight i := molWeight_pos hc i hi
  have hcl := close_literals (K := ℝ) hc
  obtain ⟨p1, p2⟩ := close_pos hcl (fun i hi => molWeight_pos hc i hi) i hi
  obtain ⟨h1, h2⟩ := hcl i hi
  constructor
  · refine (Near.of_abs (ε := 1 / 10 ^ 15) p1.le hW.le (by norm_num) (by norm_num) ?_).mono (by norm_num)
    rw [one_div_mul_eq_div]
    exact h1
  · refine (Near.of_abs (ε := 1 / 10 ^ 15) p2.le (inv_pos.2 hW).le (by norm_num) (by norm_num) ?_).mono (by norm_num)
    have e : (Dec.val (nth D.mech.recips i) : ℝ) - (D.molWeight i)⁻¹ =
        (Dec.val (nth D.mech.recips i) * D.molWeight i - 1) * (D.molWeight i)⁻¹ := by
      field_simp
    rw [e, abs_mul, abs_of_pos (inv_pos.2 hW)]
    exact mul_le_mul_of_nonneg_right h2 (inv_pos.2 hW).le

/-- Density and concentrations. -/
theorem density_near (T pres : ℝ) (hT : 0 < T) (hp : 0 < pres) (Y : Nat → ℝ) (hY : ∀ i, i < D.nsp → 0 ≤ Y i) (ρ : ℝ) (C : Nat → ℝ)
    (hρ : ρ = pres / (gasR * T * ∑ i ∈ Finset.range D.nsp, Y i * Dec.val (nth D.mech.recips i)))
    (hC : ∀ i, i < D.nsp → C i = ρ * Y i * Dec.val (nth D.mech.recips i)) :
    Near (2 / 10 ^ 15) ρ (D.chemistry.density T pres Y) ∧
    ∀ i, i < D.nsp → Near (4 / 10 ^ 15) (C i) (D.chemistry.concentrations T pres Y i) := by
  have hR0 : (0 : ℝ) ≤ gasR := by unfold gasR; positivity
  have hs : Near (2 / 10 ^ 15) (∑ i ∈ Finset.range D.nsp, Y i * Dec.val (nth D.mech.recips i))
      (∑ i ∈ Finset.range D.nsp, Y i / D.molWeight i) := by
    refine Near.sum fun i hi => ?_
    rw [div_eq_mul_inv]
    exact ((Near.refl (hY i hi)).mul (weight_near hD i hi).2).mono (by norm_num)
  have h1 : Near (2 / 10 ^ 15) ρ (D.chemistry.density T pres Y) := by
    rw [hρ]
    exact ((Near.refl hp.le).div ((Near.refl (mul_nonneg hR0 hT.le)).mul hs)).mono (by norm_num)
  refine ⟨h1, fun i hi => ?_⟩
  rw [hC i hi]
  unfold Chemistry.concentrations
  rw [div_eq_mul_inv]
  exact ((h1.mul (Near.refl (hY i hi))).mul (weight_near hD i hi).2).mono (by norm_num)

/-- The rates of change of the mass fractions. -/
theorem dYdt_near (T pres : ℝ) (h1 : 200 ≤ T) (h2 : T ≤ 6000) (hp : 0 < pres) (Y : Nat → ℝ) (hY : ∀ i, i < D.nsp → 0 ≤ Y i) (ρ : ℝ)
    (C fwd rev pm : Nat → ℝ)
    (hρ : ρ = pres / (gasR * T * ∑ i ∈ Finset.range D.nsp, Y i * Dec.val (nth D.mech.recips i)))
    (hC : ∀ i, i < D.nsp → C i = ρ * Y i * Dec.val (nth D.mech.recips i))
    (hsum : ∑ i ∈ Finset.range D.nsp, C i = pres / (gasR * T))
    (hR : RatesAt D.reactions D.nsp C fwd rev pm)
    (hX : ∀ m ∈ number D.reactions,
        fwd m.k = execT (D.mech.rateStart ++ D.mech.rateBlocks.flatten) (inT T pres C) (.arr .fwd m.k) ∧
        (m.r.reversible = true →
          rev m.j = execT (D.mech.rateStart ++ D.mech.rateBlocks.flatten) (inT T pres C) (.arr .rev m.j)) ∧
        (m.r.modified = true →
          pm m.p = execT (D.mech.presModStart ++ D.mech.presModBlocks.flatten) (inT T pres C) (.arr .presMod m.p)))
    (hpole : D.chemistry.AwayFromPoles T (D.chemistry.concentrations T pres Y)) (i : Nat) (hi : i < D.nsp) :
    |productionRate D.reactions fwd rev pm i * Dec.val (nth D.mech.weights i) / ρ - D.chemistry.dYdt T pres Y i| ≤
      7 / 10 ^ 10 * D.chemistry.dYdtTerms T pres Y i ∧
    |D.chemistry.dYdt T pres Y i| ≤ D.chemistry.dYdtTerms T pres Y i := by
  have hT : 0 < T := by linarith
  obtain ⟨nρ, nC⟩ := density_near hD T pres hT hp Y hY ρ C hρ hC
  obtain ⟨C', hC'⟩ : ∃ C', C' = D.chemistry.concentrations T pres Y := ⟨_, rfl⟩
  rw [← hC'] at nC hpole
  have nw := (weight_near hD i hi).1
  have nf : Near (4 / 10 ^ 15) (Dec.val (nth D.mech.weights i) / ρ) (D.molWeight i / D.chemistry.density T pres Y) :=
    (nw.div nρ).mono (by norm_num)
  obtain ⟨a, ha⟩ : ∃ a : ℝ, a = Dec.val (nth D.mech.weights i) / ρ := ⟨_, rfl⟩
  obtain ⟨b, hb⟩ : ∃ b, b = D.molWeight i / D.chemistry.density T pres Y := ⟨_, rfl⟩
  rw [← ha, ← hb] at nf
  -- every reaction
  have key : ∀ n ∈ number D.reactions, ∃ F R M f r m : ℝ,
      D.chemistry.forward n T C' = F ∧ D.chemistry.reverse n T C' = R ∧ D.chemistry.modification n T C' = M ∧
      n.progress fwd rev pm = (f - r) * m ∧ Near (1 / 10 ^ 10) f F ∧ Near (1 / 10 ^ 10) r R ∧ Near (2 / 10 ^ 10) m M := by
    intro n hn
    obtain ⟨k1, k2, k3, k4, k5⟩ := kinetics_near hD T pres h1 h2 C C' nC hsum.symm hpole n hn
    obtain ⟨x1, x2, x3⟩ := hX n hn
    rw [← x1] at k1
    refine ⟨_, _, _, fwd n.k, if n.r.reversible then rev n.j else 0, if n.r.modified then pm n.p else 1, rfl, rfl, rfl, ?_, k1, ?_, ?_⟩
    · unfold Numbered.progress
      by_cases hr : n.r.reversible = true <;> simp [hr]
    · by_cases hr : n.r.reversible = true
      · rw [if_pos hr, x2 hr]; exact k2 hr
      · rw [if_neg hr]
        unfold Chemistry.reverse
        rw [if_neg hr]
        exact (Near.refl le_rfl).mono (by norm_num)
    · by_cases hm : n.r.modified = true
      · rw [if_pos hm]
        cases hk : n.r.kind with
        | elementary => simp [Reaction.modified, hk] at hm
        | thirdBody eff => rw [hR.third n hn eff hk]; exact (k3 eff hk).mono (by norm_num)
        | falloff eff => rw [x3 hm]; exact k4 eff hk
      · rw [if_neg hm, k5 (by simpa using hm)]
        exact (Near.refl zero_le_one).mono (by norm_num)
  have e1 : productionRate D.reactions fwd rev pm i * Dec.val (nth D.mech.weights i) / ρ =
      ((number D.reactions).map fun n => (n.r.net i : ℝ) * n.progress fwd rev pm * a).sum := by
    rw [mul_div_assoc, ← ha, productionRate, list_sum_mul]
  have e2 : D.chemistry.dYdt T pres Y i = ((number D.reactions).map fun n => (n.r.net i : ℝ) *
      ((D.chemistry.forward n T C' - D.chemistry.reverse n T C') * D.chemistry.modification n T C') * b).sum := by
    unfold Chemistry.dYdt Chemistry.production
    rw [← hC', mul_div_assoc, show D.chemistry.weight i / D.chemistry.density T pres Y = b from hb.symm, list_sum_mul]
    rfl
  have e3 : D.chemistry.dYdtTerms T pres Y i = ((number D.reactions).map fun n => |(n.r.net i : ℝ)| *
      ((D.chemistry.forward n T C' + D.chemistry.reverse n T C') * D.chemistry.modification n T C') * b).sum := by
    unfold Chemistry.dYdtTerms Chemistry.turnover
    rw [← hC', mul_div_assoc, show D.chemistry.weight i / D.chemistry.density T pres Y = b from hb.symm, list_sum_mul]
    rfl
  constructor
  · rw [e1, e2, e3, mul_comm (7 / 10 ^ 10 : ℝ), list_sum_mul]
    refine list_abs_sub _ _ _ _ fun n hn => ?_
    obtain ⟨F, R, M, f, r, m, eF, eR, eM, eP, nF, nR, nM⟩ := key n hn
    rw [eF, eR, eM, eP]
    have n1 := ((nF.mul nM).mul nf).abs_sub (by norm_num) (by norm_num)
    have n2 := ((nR.mul nM).mul nf).abs_sub (by norm_num) (by norm_num)
    have p1 : 0 ≤ F * M * b := mul_nonneg (mul_nonneg nF.right nM.right) nf.right
    have p2 : 0 ≤ R * M * b := mul_nonneg (mul_nonneg nR.right nM.right) nf.right
    have e : (n.r.net i : ℝ) * ((f - r) * m) * a - n.r.net i * ((F - R) * M) * b =
        n.r.net i * ((f * m * a - F * M * b) - (r * m * a - R * M * b)) := by ring
    rw [e, abs_mul]
    have e' : |(n.r.net i : ℝ)| * ((F + R) * M) * b * (7 / 10 ^ 10) =
        |(n.r.net i : ℝ)| * (7 / 10 ^ 10 * (F * M * b) + 7 / 10 ^ 10 * (R * M * b)) := by ring
    rw [e']
    refine mul_le_mul_of_nonneg_left ((abs_sub _ _).trans (add_le_add (n1.trans ?_) (n2.trans ?_))) (abs_nonneg _)
    · exact mul_le_mul_of_nonneg_right (by norm_num) p1
    · exact mul_le_mul_of_nonneg_right (by norm_num) p2
  · rw [e2, e3]
    refine list_abs_sum _ _ _ fun n hn => ?_
    obtain ⟨F, R, M, f, r, m, eF, eR, eM, -, nF, nR, nM⟩ := key n hn
    rw [eF, eR, eM, abs_mul, abs_mul, abs_mul, abs_of_nonneg nf.right, abs_of_nonneg nM.right]
    refine mul_le_mul_of_nonneg_right ?_ nf.right
    refine mul_le_mul_of_nonneg_left ?_ (abs_nonneg _)
    refine mul_le_mul_of_nonneg_right ?_ nM.right
    rw [abs_le]
    constructor <;> linarith [nF.right, nR.right]

/-- Without a reduced pressure above 10 no reaction is at a pole. -/
theorem away_of_low (T : ℝ) (h1 : 200 ≤ T) (h2 : T ≤ 6000) (C : Nat → ℝ)
    (h : ∀ n ∈ number D.reactions, ∀ eff kInf k0 t, n.r.kind = .falloff eff → D.law n.k = .falloff kInf k0 (some t) →
      D.chemistry.reducedPressure n kInf k0 eff T C ≤ 10) : D.chemistry.AwayFromPoles T C := by
  intro n hn eff kInf k0 t he hlaw
  have hP := h n hn eff kInf k0 t he hlaw
  have hk := kinetics_of_shipped hD
  simp only [kineticsOk, Bool.and_eq_true, List.all_eq_true] at hk
  have k3 := (hk.1 n hn).2
  have hlaw' : D.law n.k = .falloff kInf k0 (some t) := hlaw
  rw [hlaw'] at k3
  simp only [Bool.and_eq_true] at k3
  have hF3 := centreSmall_sound k3.2 T h1
  have hF0 : 0 < t.centre T := lt_of_lt_of_le (by positivity) (centreBig_sound k3.1.2 T (by linarith) (by linarith))
  have hL : lg (t.centre T) ≤ 12 / 25 := (lg_le hF0 hF3).trans lg_three
  have h10 : lg 10 = 1 := div_self log_ten_pos.ne'
  have hl : lg (max (D.chemistry.reducedPressure n kInf k0 eff T C) (1 / 10 ^ 300)) ≤ 1 := by
    refine le_of_le_of_eq (lg_le (lt_max_of_lt_right (by positivity)) (max_le hP ?_)) h10
    rw [div_le_iff₀ (by positivity)]
    exact one_le_mul_of_one_le_of_one_le (by norm_num) (one_le_pow₀ (by norm_num))
  have hpole : (17 : ℝ) / 10 ≤ Troe.pole (t.centre T) := by
    unfold Troe.pole
    linarith
  rw [abs_sub_comm]
  refine lt_of_lt_of_le (b := 7 / 10) (by norm_num) (le_trans ?_ (le_abs_self _))
  linarith

/-- At low pressure no reaction is at a pole. -/
theorem away_of_low_pressure (T : ℝ) (h1 : 200 ≤ T) (h2 : T ≤ 6000) (Y : Nat → ℝ) :
    ∃ p0 : ℝ, 0 < p0 ∧ ∀ p, 0 < p → p ≤ p0 → D.chemistry.AwayFromPoles T (D.chemistry.concentrations T p Y) := by
  have lin : ∀ (n : Numbered) (kInf k0 : Arrhenius) (eff : List (Nat × Nat × Nat)) (p : ℝ),
      D.chemistry.reducedPressure n kInf k0 eff T (D.chemistry.concentrations T p Y) =
        p * D.chemistry.reducedPressure n kInf k0 eff T (D.chemistry.concentrations T 1 Y) := by
    intro n kInf k0 eff p
    have hd : ∀ i, D.chemistry.concentrations T p Y i = p * D.chemistry.concentrations T 1 Y i := by
      intro i
      unfold Chemistry.concentrations Chemistry.density
      ring
    unfold Chemistry.reducedPressure thirdBody
    have : ∑ i ∈ Finset.range D.chemistry.nsp, efficiency eff i * D.chemistry.concentrations T p Y i =
        p * ∑ i ∈ Finset.range D.chemistry.nsp, efficiency eff i * D.chemistry.concentrations T 1 Y i := by
      rw [Finset.mul_sum]
      refine Finset.sum_congr rfl fun i _ => ?_
      rw [hd]
      ring
    rw [this]
    ring
  have one : ∀ n : Numbered, ∃ p0 : ℝ, 0 < p0 ∧ ∀ p, 0 < p → p ≤ p0 → ∀ eff kInf k0 t, n.r.kind = .falloff eff →
      D.law n.k = .falloff kInf k0 (some t) →
      D.chemistry.reducedPressure n kInf k0 eff T (D.chemistry.concentrations T p Y) ≤ 10 := by
    intro n
    cases hk : n.r.kind with
    | elementary => exact ⟨1, one_pos, fun p _ _ eff kInf k0 t h => by simp at h⟩
    | thirdBody eff => exact ⟨1, one_pos, fun p _ _ eff kInf k0 t h => by simp at h⟩
    | falloff eff =>
      cases hl : D.law n.k with
      | simple k => exact ⟨1, one_pos, fun p _ _ eff kInf k0 t _ h => by simp at h⟩
      | falloff kInf k0 troe =>
        obtain ⟨q, hq⟩ : ∃ q, q = D.chemistry.reducedPressure n kInf k0 eff T (D.chemistry.concentrations T 1 Y) := ⟨_, rfl⟩
        refine ⟨10 / (|q| + 1), by positivity, fun p hp hp0 eff' kInf' k0' t e1 e2 => ?_⟩
        simp only [ReactionKind.falloff.injEq] at e1
        simp only [RateLaw.falloff.injEq] at e2
        obtain ⟨rfl, rfl, -⟩ := e2
        subst e1
        rw [lin, ← hq]
        rw [le_div_iff₀ (by positivity)] at hp0
        have := mul_le_mul_of_nonneg_left (le_abs_self q) hp.le
        linarith
  have all : ∀ l : List Numbered, ∃ p0 : ℝ, 0 < p0 ∧ ∀ p, 0 < p → p ≤ p0 → ∀ n ∈ l, ∀ eff kInf k0 t, n.r.kind = .falloff eff →
      D.law n.k = .falloff kInf k0 (some t) →
      D.chemistry.reducedPressure n kInf k0 eff T (D.chemistry.concentrations T p Y) ≤ 10 := by
    intro l
    induction l with
    | nil => exact ⟨1, one_pos, fun p _ _ n hn => by simp at hn⟩
    | cons a l ih =>
      obtain ⟨p1, q1, r1⟩ := one a
      obtain ⟨p2, q2, r2⟩ := ih
      refine ⟨min p1 p2, lt_min q1 q2, fun p hp hle n hn => ?_⟩
      rcases List.mem_cons.1 hn with rfl | hn
      · exact r1 p hp (hle.trans (min_le_left _ _))
      · exact r2 p hp (hle.trans (min_le_right _ _)) n hn
  obtain ⟨p0, q, r⟩ := all (number D.reactions)
  exact ⟨p0, q, fun p hp hle => away_of_low hD T h1 h2 _ (r p hp hle)⟩

end
end DLB
