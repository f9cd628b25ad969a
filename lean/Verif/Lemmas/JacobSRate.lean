import Verif.Lemmas.JacobSNear
/-
The derivatives by the mass fractions that `eval_jacob` adds up are near the exact ones.
-/
set_option autoImplicit false
set_option linter.unusedSectionVars false

namespace DLB

theorem two_near {a a' b b' f f' r r' : ℝ} (ha : Ap a' a 16 (25 / 10 ^ 9)) (hb : Ap b' b 16 (25 / 10 ^ 9)) (hf : Near (14 / 10 ^ 10) f' f)
    (hr : Near (14 / 10 ^ 10) r' r) :
    |(a' * f' - b' * r') - (a * f - b * r)| ≤ 8 / 10 ^ 8 * (f + r) ∧ |a * f - b * r| ≤ 16 * (f + r) := by
  have key : ∀ {z z' w w' : ℝ}, Near (14 / 10 ^ 10) z' z → Ap w' w 16 (25 / 10 ^ 9) →
      |w' * z' - w * z| ≤ 8 / 10 ^ 8 * z ∧ |w * z| ≤ 16 * z := by
    intro z z' w w' hz hw
    have h0 := hz.right
    have h1 := hz.abs_sub (by norm_num) (by norm_num)
    have hw' : |w'| ≤ 17 := by
      have e := abs_add_le (w' - w) w
      rw [sub_add_cancel] at e
      have := hw.size
      have := hw.err
      norm_num at *
      linarith
    constructor
    · have e : w' * z' - w * z = w' * (z' - z) + (w' - w) * z := by ring
      rw [e]
      refine (abs_add_le _ _).trans ?_
      rw [abs_mul, abs_mul, abs_of_nonneg h0]
      have q1 := mul_le_mul hw' h1 (abs_nonneg _) (by positivity)
      have q2 := mul_le_mul_of_nonneg_right hw.err h0
      norm_num at q1 q2 ⊢
      linarith
    · rw [abs_mul, abs_of_nonneg h0]
      exact mul_le_mul_of_nonneg_right hw.size h0
  obtain ⟨u1, u2⟩ := key hf ha
  obtain ⟨u3, u4⟩ := key hr hb
  constructor
  · have e : a' * f' - b' * r' - (a * f - b * r) = (a' * f' - a * f) - (b' * r' - b * r) := by ring
    rw [e]
    refine (abs_sub _ _).trans ?_
    linarith
  · refine (abs_sub _ _).trans ?_
    linarith

/-- A coefficient times a value. -/
theorem coef_near {c w W x' x t : ℝ} (hc : |c - w| ≤ W / 10 ^ 14) (hw : |w| ≤ W) (hx : |x' - x| ≤ 8 / 10 ^ 8 * t) (hs : |x| ≤ 16 * t) :
    |c * x' - w * x| ≤ 81 / 10 ^ 9 * (W * t) ∧ |w * x| ≤ 16 * (W * t) := by
  have hW : 0 ≤ W := (abs_nonneg _).trans hw
  refine ⟨?_, ?_⟩
  swap
  · rw [abs_mul]
    exact (mul_le_mul hw hs (abs_nonneg _) hW).trans (le_of_eq (by ring))
  have ht : 0 ≤ t := by have := abs_nonneg x; linarith
  have hx' : |x'| ≤ 17 * t := by
    have e := abs_add_le (x' - x) x
    rw [sub_add_cancel] at e
    norm_num at hx
    linarith
  have e : c * x' - w * x = (c - w) * x' + w * (x' - x) := by ring
  rw [e]
  refine (abs_add_le _ _).trans ?_
  rw [abs_mul, abs_mul]
  have q1 := mul_le_mul hc hx' (abs_nonneg _) (by positivity)
  have q2 := mul_le_mul hw hx (abs_nonneg _) hW
  have q3 : 0 ≤ W * t := mul_nonneg hW ht
  norm_num at q1 q2 ⊢
  nlinarith

theorem coef_near' {c w W x' x : ℝ} (hc : |c - w| ≤ W / 10 ^ 14) (hw : |w| ≤ W) (hx : Near (14 / 10 ^ 10) x' x) :
    |c * x' - w * x| ≤ 81 / 10 ^ 9 * (W * x) ∧ |w * x| ≤ 16 * (W * x) := by
  have h0 := hx.right
  refine coef_near hc hw ?_ ?_
  · have := hx.abs_sub (by norm_num) (by norm_num)
    norm_num at this ⊢
    linarith
  · rw [abs_of_nonneg h0]
    linarith

section
variable {D : Package} (hD : D ∈ shipped) (hz : sizesOk D = true) (hrev : ∀ n ∈ number D.reactions, n.r.reversible = true) {pres : ℝ} {Y : Nat → ℝ} {v : JacobVals ℝ} (hv : JacobAt D pres Y v)
  (h1 : 200 ≤ v.T) (h2 : v.T ≤ 6000) (hp : 0 < pres) (hY : ∀ i, i < D.nsp → 0 ≤ Y i)
  (hpole : D.chemistry.AwayFromPoles v.T (D.chemistry.concentrations v.T pres Y))
  (hcut : D.chemistry.AboveCutOff v.T (D.chemistry.concentrations v.T pres Y))
include hD hz hrev hv h1 h2 hp hY hpole hcut

theorem sMid_near (n : Numbered) (hn : n ∈ number D.reactions) {jt pt : ℝ} (h : SMid D n v jt pt) :
    ∃ g, Ap g (D.chemistry.thirdSlope n v.T (D.chemistry.concentrations v.T pres Y)) 11 (25 / 10 ^ 9) ∧
      jt = -((n.r.reactants.length + g) * (v.mwAvg * (1 / v.rho) * v.pm n * v.F n.k) -
        (n.r.products.length + g) * (v.mwAvg * (1 / v.rho) * v.pm n * v.R n.j)) ∧
      (n.r.kind = .elementary ∨ ∃ q, Near (13 / 10 ^ 10) q (D.chemistry.modificationPer n v.T (D.chemistry.concentrations v.T pres Y)) ∧
        pt = g * (q * v.F n.k) - g * (q * v.R n.j)) := by
  have hT : 0 < v.T := by linarith
  obtain ⟨nρ, nC⟩ := density_near hD v.T pres hT hp Y hY v.rho v.C hv.rho hv.conc
  obtain ⟨-, -, -, z5, z6⟩ := sizesOk_sound hz n hn
  have hB := exactB_away hD hv h1 h2 hp hY hpole hcut n hn
  have hcutn := hcut n hn
  clear hcut hpole
  generalize D.chemistry.concentrations v.T pres Y = C at *
  unfold SMid at h
  have hlawc : D.chemistry.law = D.law := rfl
  unfold Chemistry.thirdSlope Chemistry.modificationPer
  cases hk : n.r.kind with
  | elementary =>
    rw [hk] at h
    refine ⟨0, Ap.mono (Ap.const 0 (M := 0) (by simp)) (by norm_num) (by norm_num), ?_, .inl rfl⟩
    rw [h]
    ring
  | thirdBody eff =>
    rw [hk] at h
    refine ⟨1, Ap.mono (Ap.const 1 (M := 1) (by simp)) (by norm_num) (by norm_num), ?_, .inr ⟨1, (Near.refl zero_le_one).mono (by norm_num), ?_⟩⟩
    · rw [h.2]
      ring
    · rw [h.1]
      ring
  | falloff eff =>
    rw [hk] at h
    rw [hlawc]
    cases hl : D.law n.k with
    | simple k => rw [hl] at h; exact absurd h (by simp)
    | falloff kInf k0 troe =>
      rw [hl] at h z5
      cases troe with
      | none => exact absurd h (by simp)
      | some t =>
        obtain ⟨P', Fc, ⟨q0, q1, ⟨η, hη, eP⟩, hF⟩, ej, η', hη', ep⟩ := h
        obtain ⟨w1, w2, w3⟩ := z6 kInf k0 _ hl
        have w3 := w3 t rfl
        have m0 := (modest_sound w1 h1).1
        have mI := (modest_sound z5 h1).1
        have hsum : (1 + (|k0.temperature| + |kInf.temperature|) / v.T) / 10 ^ 14 ≤ 661 / 10 ^ 14 := by
          refine div_le_div_of_nonneg_right ?_ (by norm_num)
          rw [add_div]
          have : |kInf.temperature| / v.T ≤ 328 := mI
          linarith
        have hPr : Near (67 / 10 ^ 13) P' (D.chemistry.reducedPressure n kInf k0 eff v.T C) := by
          have hthird : Near (4 / 10 ^ 15) (thirdBody D.nsp eff v.C) (thirdBody D.nsp eff C) := by
            refine Near.sum fun i hi => ?_
            have h0 : (0 : ℝ) ≤ efficiency eff i := by unfold efficiency; positivity
            exact ((Near.refl h0).mul (nC i hi)).mono (by norm_num)
          have hb : Near (4 / 10 ^ 15) (k0.coefficient (n.r.reactants.length + 1) v.T * thirdBody D.nsp eff v.C /
              kInf.coefficient n.r.reactants.length v.T) (D.chemistry.reducedPressure n kInf k0 eff v.T C) :=
            (((Near.refl q1.le).mul hthird).div (Near.refl q0.le)).mono (by norm_num)
          exact ((Near.of_exp hb.left (hη.trans hsum) eP).trans hb).mono (by norm_num)
        have hk' := kinetics_of_shipped hD
        simp only [kineticsOk, Bool.and_eq_true, List.all_eq_true] at hk'
        have k3 := (hk'.1 n hn).2
        rw [hl] at k3
        simp only [Bool.and_eq_true] at k3
        have hF3 := centreSmall_sound k3.2 v.T h1
        have hF0 := centreBig_sound k3.1.2 v.T hT (by linarith)
        have hc := hcutn eff kInf k0 t hk hl
        obtain ⟨hg, hq⟩ := troe_third_near w3 h1 h2 hF hF0 hF3 hPr hc (hB eff kInf k0 t hk hl)
        obtain ⟨g, hgd⟩ : ∃ g, g = troeG P' Fc (troeA P' Fc) (troeB P' Fc) := ⟨_, rfl⟩
        rw [← hgd] at hg ej ep
        refine ⟨g, hg, by rw [ej]; ring, .inr ⟨k0.coefficient (n.r.reactants.length + 1) v.T / kInf.coefficient n.r.reactants.length v.T *
          Real.exp η' * Fc ^ (1 / (1 + troeA P' Fc * troeA P' Fc / (troeB P' Fc * troeB P' Fc))) / (1 + P'), ?_, by rw [ep]; ring⟩⟩
        have hPe : D.chemistry.reducedPressure n kInf k0 eff v.T C =
            k0.coefficient (n.r.reactants.length + 1) v.T / kInf.coefficient n.r.reactants.length v.T * thirdBody D.chemistry.nsp eff C := by
          unfold Chemistry.reducedPressure
          ring
        have hM0 : thirdBody D.chemistry.nsp eff C ≠ 0 := by
          intro h0
          rw [hPe, h0, mul_zero] at hc
          exact absurd hc (not_lt.2 (by positivity))
        have hex : D.chemistry.modification n v.T C / thirdBody D.chemistry.nsp eff C =
            k0.coefficient (n.r.reactants.length + 1) v.T / kInf.coefficient n.r.reactants.length v.T *
            (Troe.factor (t.centre v.T) (D.chemistry.reducedPressure n kInf k0 eff v.T C) /
              (1 + D.chemistry.reducedPressure n kInf k0 eff v.T C)) := by
          unfold Chemistry.modification
          rw [hk, hlawc, hl]
          dsimp only
          rw [max_eq_left hc.le]
          generalize hPd : D.chemistry.reducedPressure n kInf k0 eff v.T C = P at *
          rw [mul_div_assoc, mul_div_assoc]
          have : P / (1 + P) / thirdBody D.chemistry.nsp eff C =
              k0.coefficient (n.r.reactants.length + 1) v.T / kInf.coefficient n.r.reactants.length v.T / (1 + P) := by
            rw [hPe]
            field_simp
          rw [this]
          ring
        show Near _ _ (D.chemistry.modification n v.T C / thirdBody D.chemistry.nsp eff C)
        rw [hex]
        have hκ : 0 ≤ k0.coefficient (n.r.reactants.length + 1) v.T / kInf.coefficient n.r.reactants.length v.T := div_nonneg q1.le q0.le
        have := (Near.of_exp (x := k0.coefficient (n.r.reactants.length + 1) v.T / kInf.coefficient n.r.reactants.length v.T * Real.exp η')
          hκ (hη'.trans hsum) rfl).mul hq
        rw [mul_div_assoc]
        exact this.mono (by norm_num)

/-- Sizes of the terms of `rateBy`. -/
noncomputable def rateByTerms (X : Chemistry) (n : Numbered) (T p : ℝ) (Y : Nat → ℝ) (j : Nat) : ℝ :=
  let C := X.concentrations T p Y
  let N := X.nsp - 1
  let z := X.modification n T C / (X.density T p Y * ∑ i ∈ Finset.range X.nsp, Y i / X.weight i)
  (1 / X.weight j + 1 / X.weight N) * (z * X.forward n T C + z * X.reverse n T C) +
  (Chemistry.efficiencyOf n.r j / X.weight j + Chemistry.efficiencyOf n.r N / X.weight N) *
    (X.modificationPer n T C * X.forward n T C + X.modificationPer n T C * X.reverse n T C) +
  (X.modification n T C * X.coefficient n T *
    (Chemistry.productBy n.r.reactants C j / X.weight j + Chemistry.productBy n.r.reactants C N / X.weight N) +
    X.modification n T C * (X.coefficient n T / equilibriumConstant X.nsp X.fit n.r T) *
      (Chemistry.productBy n.r.products C j / X.weight j + Chemistry.productBy n.r.products C N / X.weight N))

theorem sRow_near (n : Numbered) (hn : n ∈ number D.reactions) {jt pt kf kr x : ℝ} (hm : SMid D n v jt pt) (hr : SRates D n v kf kr)
    {j k : Nat} (hx : SRow n (D.nsp - 1) D.molWeight v jt pt kf kr j k x) :
    |x - n.r.net k * D.molWeight k * D.chemistry.rateBy n v.T pres Y j| ≤
      81 / 10 ^ 9 * (|(n.r.net k : ℝ)| * D.molWeight k * rateByTerms D.chemistry n v.T pres Y j) ∧
    |n.r.net k * D.molWeight k * D.chemistry.rateBy n v.T pres Y j| ≤
      16 * (|(n.r.net k : ℝ)| * D.molWeight k * rateByTerms D.chemistry n v.T pres Y j) := by
  have hT : 0 < v.T := by linarith
  obtain ⟨nρ, nC⟩ := density_near hD v.T pres hT hp Y hY v.rho v.C hv.rho hv.conc
  have hck := checked_of_shipped hD
  obtain ⟨hre, hpr, -⟩ := balance_sound (K := ℝ) hck n.r (mem_numberFrom D.reactions 0 0 0 n hn)
  obtain ⟨nF, nR, nM⟩ := jacob_rates_near hD hv h1 h2 hp hY hpole n hn
  obtain ⟨g, hg, ej, hpt⟩ := sMid_near hD hz hrev hv h1 h2 hp hY hpole hcut n hn hm
  obtain ⟨z2, z3, -, -, -⟩ := sizesOk_sound hz n hn
  have z4 : n.r.reversible = true := hrev n hn
  have z3 := z3 z4
  have nR := nR z4
  obtain ⟨r0, ⟨η, hη, ekf⟩, ⟨η', hη', ekr⟩⟩ := hr
  obtain ⟨b1, b2⟩ := boundsOk_sound (bounds_of_shipped hD) n hn v.T h1 h2
  have nkf : Near (11 / 10 ^ 12) kf (D.chemistry.coefficient n v.T) := by
    refine Near.of_exp r0.le (hη.trans ?_) ekf
    rw [div_le_iff₀ (by norm_num)]
    norm_num
    linarith
  have hK0 : 0 < equilibriumConstant D.nsp D.fit n.r v.T := by
    have hR0 : (0 : ℝ) < gasR := by unfold gasR; positivity
    unfold equilibriumConstant standardPressure
    positivity
  have nkr : Near (6 / 10 ^ 11) kr (D.chemistry.coefficient n v.T / equilibriumConstant D.nsp D.fit n.r v.T) := by
    rw [ekr]
    refine (nkf.div (Near.of_exp (ε := 41 / 10 ^ 12) hK0.le (hη'.trans ?_) rfl)).mono (by norm_num)
    rw [div_le_iff₀ (by norm_num)]
    norm_num
    linarith
  have nμ : Near (2 / 10 ^ 15) v.mwAvg (1 / ∑ i ∈ Finset.range D.nsp, Y i / D.molWeight i) := by
    rw [hv.mw]
    refine ((Near.refl zero_le_one).div (Near.sum (ε := 2 / 10 ^ 15) fun i hi => ?_)).mono (by norm_num)
    rw [div_eq_mul_inv]
    exact ((Near.refl (hY i hi)).mul (weight_near hD i hi).2).mono (by norm_num)
  have prodN : ∀ l : List Nat, l.length ≤ 5 → (∀ s ∈ l, s < D.nsp) → ∀ s, Near (2 / 10 ^ 14) ((l.erase s).map v.C).prod
      ((l.erase s).map (D.chemistry.concentrations v.T pres Y)).prod := by
    intro l hl hlt s
    refine (Near.prod (l.erase s) fun i hi => nC i (hlt i (List.mem_of_mem_erase hi))).mono ?_
    have : ((l.erase s).length : ℝ) ≤ 5 := by exact_mod_cast (List.length_erase_le).trans hl
    norm_num
    linarith
  have pr := prodN _ z2 hre
  have pp := prodN _ z3 hpr
  have hW0 : ∀ i, (0 : ℝ) ≤ D.molWeight i := fun i => by unfold Package.molWeight; positivity
  have hE0 : ∀ i, 0 ≤ Chemistry.efficiencyOf n.r i := fun i => by
    unfold Chemistry.efficiencyOf
    split
    · exact le_rfl
    · unfold efficiency; positivity
    · unfold efficiency; positivity
  obtain ⟨c1, c2, c3, c4, c5, c6, q1, q2, q3, q4, q5, q6, ex⟩ := hx
  unfold Chemistry.rateBy rateByTerms Chemistry.productBy
  dsimp only
  have hws : D.chemistry.weight = D.molWeight := rfl
  have hns : D.chemistry.nsp = D.nsp := rfl
  have hfs : D.chemistry.fit = D.fit := rfl
  rw [hws, hns, hfs]
  clear hcut hpole
  generalize D.chemistry.concentrations v.T pres Y = C at *
  generalize D.chemistry.thirdSlope n v.T C = g0 at *
  generalize D.chemistry.modificationPer n v.T C = q0 at *
  generalize D.chemistry.modification n v.T C = M at *
  generalize D.chemistry.forward n v.T C = F at *
  generalize D.chemistry.reverse n v.T C = R at *
  generalize D.chemistry.density v.T pres Y = ρ at *
  generalize D.chemistry.coefficient n v.T = κ at *
  generalize κ / equilibriumConstant D.nsp D.fit n.r v.T = κ' at *
  generalize ∑ i ∈ Finset.range D.nsp, Y i / D.molWeight i = μ at *
  have hnet : |(n.r.net k : ℝ) * D.molWeight k| = |(n.r.net k : ℝ)| * D.molWeight k := by rw [abs_mul, abs_of_nonneg (hW0 k)]
  generalize (n.r.net k : ℝ) * D.molWeight k = w at *
  generalize |(n.r.net k : ℝ)| * D.molWeight k = W at *
  have wj : (0 : ℝ) ≤ 1 / D.molWeight j := one_div_nonneg.2 (hW0 j)
  have wN : (0 : ℝ) ≤ 1 / D.molWeight (D.nsp - 1) := one_div_nonneg.2 (hW0 _)
  have ej0 : 0 ≤ Chemistry.efficiencyOf n.r j / D.molWeight j := div_nonneg (hE0 _) (hW0 _)
  have eN0 : 0 ≤ Chemistry.efficiencyOf n.r (D.nsp - 1) / D.molWeight (D.nsp - 1) := div_nonneg (hE0 _) (hW0 _)
  have hW : 0 ≤ W := by rw [← hnet]; exact abs_nonneg _
  have sizeD : ∀ {a b : ℝ}, 0 ≤ a → 0 ≤ b → |w * (a - b)| ≤ W * (a + b) := by
    intro a b ha hb
    rw [abs_mul, hnet]
    refine mul_le_mul_of_nonneg_left ?_ hW
    rw [abs_le]
    constructor <;> linarith
  have sizeP : ∀ {a : ℝ}, 0 ≤ a → |w * a| ≤ W * a := by
    intro a ha
    rw [abs_mul, hnet, abs_of_nonneg ha]
  have sizeM : ∀ {a : ℝ}, 0 ≤ a → |-w * a| ≤ W * a := by
    intro a ha
    rw [abs_mul, abs_neg, hnet, abs_of_nonneg ha]
  have l1 : |(n.r.reactants.length : ℝ)| ≤ 5 := by rw [abs_of_nonneg (by positivity)]; exact_mod_cast z2
  have l2 : |(n.r.products.length : ℝ)| ≤ 5 := by rw [abs_of_nonneg (by positivity)]; exact_mod_cast z3
  -- by the density
  have nf : Near (14 / 10 ^ 10) (v.mwAvg * (1 / v.rho) * v.pm n * v.F n.k) (M / (ρ * μ) * F) := by
    have := ((nμ.mul ((Near.refl zero_le_one).div nρ)).mul nM).mul nF
    have e : M / (ρ * μ) * F = 1 / μ * (1 / ρ) * M * F := by
      simp only [div_eq_mul_inv, mul_inv]
      ring
    rw [e]
    exact this.mono (by norm_num)
  have nr : Near (14 / 10 ^ 10) (v.mwAvg * (1 / v.rho) * v.pm n * v.R n.j) (M / (ρ * μ) * R) := by
    have := ((nμ.mul ((Near.refl zero_le_one).div nρ)).mul nM).mul nR
    have e : M / (ρ * μ) * R = 1 / μ * (1 / ρ) * M * R := by
      simp only [div_eq_mul_inv, mul_inv]
      ring
    rw [e]
    exact this.mono (by norm_num)
  obtain ⟨u1, u2⟩ := two_near (((Ap.const _ l1).add hg).mono (by norm_num) (by norm_num))
    (((Ap.const _ l2).add hg).mono (by norm_num) (by norm_num)) nf nr
  have v1 : |c1 * jt - w * (1 / D.molWeight j - 1 / D.molWeight (D.nsp - 1)) *
      -((n.r.reactants.length + g0) * (M / (ρ * μ) * F) - (n.r.products.length + g0) * (M / (ρ * μ) * R))| ≤
      81 / 10 ^ 9 * (W * (1 / D.molWeight j + 1 / D.molWeight (D.nsp - 1)) * (M / (ρ * μ) * F + M / (ρ * μ) * R)) ∧
      |w * (1 / D.molWeight j - 1 / D.molWeight (D.nsp - 1)) *
      -((n.r.reactants.length + g0) * (M / (ρ * μ) * F) - (n.r.products.length + g0) * (M / (ρ * μ) * R))| ≤
      16 * (W * (1 / D.molWeight j + 1 / D.molWeight (D.nsp - 1)) * (M / (ρ * μ) * F + M / (ρ * μ) * R)) := by
    refine coef_near q1 (sizeD wj wN) ?_ (by rw [abs_neg]; exact u2)
    rw [ej, neg_sub_neg, abs_sub_comm]
    exact u1
  -- by the concentration of third bodies
  have v2 : |c2 * pt - w * (Chemistry.efficiencyOf n.r j / D.molWeight j - Chemistry.efficiencyOf n.r (D.nsp - 1) / D.molWeight (D.nsp - 1)) *
      (g0 * (q0 * F) - g0 * (q0 * R))| ≤
      81 / 10 ^ 9 * (W * (Chemistry.efficiencyOf n.r j / D.molWeight j + Chemistry.efficiencyOf n.r (D.nsp - 1) / D.molWeight (D.nsp - 1)) *
        (q0 * F + q0 * R)) ∧
      |w * (Chemistry.efficiencyOf n.r j / D.molWeight j - Chemistry.efficiencyOf n.r (D.nsp - 1) / D.molWeight (D.nsp - 1)) *
      (g0 * (q0 * F) - g0 * (q0 * R))| ≤
      16 * (W * (Chemistry.efficiencyOf n.r j / D.molWeight j + Chemistry.efficiencyOf n.r (D.nsp - 1) / D.molWeight (D.nsp - 1)) *
        (q0 * F + q0 * R)) := by
    rcases hpt with hk | ⟨q, nq, ep⟩
    · have e0 : ∀ i, Chemistry.efficiencyOf n.r i = 0 := fun i => by unfold Chemistry.efficiencyOf; rw [hk]
      simp only [e0, zero_div, sub_zero, add_zero, mul_zero, sub_self, zero_mul] at q2 ⊢
      have : c2 = 0 := by
        have := abs_le.1 q2
        linarith [this.1, this.2]
      rw [this]
      simp
    · have hg' := hg.mono (N := 16) (δ := 25 / 10 ^ 9) (by norm_num) le_rfl
      obtain ⟨u3, u4⟩ := two_near hg' hg' ((nq.mul nF).mono (by norm_num)) ((nq.mul nR).mono (by norm_num))
      rw [ep]
      exact coef_near q2 (sizeD ej0 eN0) u3 u4
  have cnt : ∀ (l : List Nat) (i : Nat), 0 ≤ (l.count i : ℝ) / D.molWeight i := fun l i => div_nonneg (Nat.cast_nonneg _) (hW0 i)
  have v3 := coef_near' q3 (sizeP (cnt _ _)) ((nkf.mul (nM.mul (pr j))).mono (by norm_num))
  have v4 := coef_near' q4 (sizeM (cnt _ _)) ((nkr.mul (nM.mul (pp j))).mono (by norm_num))
  have v5 := coef_near' q5 (sizeM (cnt _ _)) ((nkf.mul (nM.mul (pr (D.nsp - 1)))).mono (by norm_num))
  have v6 := coef_near' q6 (sizeP (cnt _ _)) ((nkr.mul (nM.mul (pp (D.nsp - 1)))).mono (by norm_num))
  rw [ex]
  have tri : ∀ {a1 a2 a3 a4 a5 a6 b1 b2 b3 b4 b5 b6 s1 s2 s3 s4 s5 s6 : ℝ}, |a1 - b1| ≤ s1 → |a2 - b2| ≤ s2 → |a3 - b3| ≤ s3 → |a4 - b4| ≤ s4 →
      |a5 - b5| ≤ s5 → |a6 - b6| ≤ s6 → |a1 + a2 + a3 + a4 + a5 + a6 - (b1 + b2 + b3 + b4 + b5 + b6)| ≤ s1 + s2 + s3 + s4 + s5 + s6 := by
    intro a1 a2 a3 a4 a5 a6 b1 b2 b3 b4 b5 b6 s1 s2 s3 s4 s5 s6 t1 t2 t3 t4 t5 t6
    rw [abs_le] at *
    constructor <;> linarith [t1.1, t1.2, t2.1, t2.2, t3.1, t3.2, t4.1, t4.2, t5.1, t5.2, t6.1, t6.2]
  constructor
  · have := tri v1.1 v2.1 v3.1 v4.1 v5.1 v6.1
    refine le_trans (le_of_eq ?_) (this.trans (le_of_eq ?_))
    · congr 1
      ring
    · ring
  · have tri' : ∀ {b1 b2 b3 b4 b5 b6 s1 s2 s3 s4 s5 s6 : ℝ}, |b1| ≤ s1 → |b2| ≤ s2 → |b3| ≤ s3 → |b4| ≤ s4 →
        |b5| ≤ s5 → |b6| ≤ s6 → |b1 + b2 + b3 + b4 + b5 + b6| ≤ s1 + s2 + s3 + s4 + s5 + s6 := by
      intro b1 b2 b3 b4 b5 b6 s1 s2 s3 s4 s5 s6 t1 t2 t3 t4 t5 t6
      rw [abs_le] at *
      constructor <;> linarith [t1.1, t1.2, t2.1, t2.2, t3.1, t3.2, t4.1, t4.2, t5.1, t5.2, t6.1, t6.2]
    have := tri' v1.2 v2.2 v3.2 v4.2 v5.2 v6.2
    refine le_trans (le_of_eq ?_) (this.trans (le_of_eq ?_))
    · congr 1
      ring
    · ring

end
end DLB
