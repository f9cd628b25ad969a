import Verif.Lemmas.JacobNear
import Verif.Spec.Jacobian
/-
The temperature derivatives of the mass fractions that `eval_jacob` computes are near the exact ones.
-/
set_option autoImplicit false
set_option linter.unusedSectionVars false

namespace DLB

/-- What the values computed before the reactions are. -/
structure JacobAt (D : Package) (pres : ℝ) (Y : Nat → ℝ) (v : JacobVals ℝ) : Prop where
  rho : v.rho = pres / (gasR * v.T * ∑ i ∈ Finset.range D.nsp, Y i * Dec.val (nth D.mech.recips i))
  rho_pos : 0 < v.rho
  conc : ∀ i, i < D.nsp → v.C i = v.rho * Y i * Dec.val (nth D.mech.recips i)
  m : v.m = ∑ i ∈ Finset.range D.nsp, v.C i
  sum : ∑ i ∈ Finset.range D.nsp, v.C i = pres / (gasR * v.T)
  rates : RatesAt D.reactions D.nsp v.C v.F v.R v.P
  exec : ∀ m ∈ number D.reactions,
    v.F m.k = execT (D.mech.rateStart ++ D.mech.rateBlocks.flatten) (inT v.T pres v.C) (.arr .fwd m.k) ∧
    (m.r.reversible = true → v.R m.j = execT (D.mech.rateStart ++ D.mech.rateBlocks.flatten) (inT v.T pres v.C) (.arr .rev m.j)) ∧
    (m.r.modified = true → v.P m.p = execT (D.mech.presModStart ++ D.mech.presModBlocks.flatten) (inT v.T pres v.C) (.arr .presMod m.p))
  dB : ∀ n ∈ number D.reactions, n.r.reversible = true → ∀ i, i < D.nsp → n.r.net i ≠ 0 → DBVal (D.fit i) v.T (v.dB i)
  prod : ∀ s, s < D.nsp → v.ω s = productionRate D.reactions v.F v.R v.P s
  mw : v.mwAvg = 1 / ∑ i ∈ Finset.range D.nsp, Y i * Dec.val (nth D.mech.recips i)

section
variable {D : Package} (hD : D ∈ shipped) (hz : sizesOk D = true) {pres : ℝ} {Y : Nat → ℝ} {v : JacobVals ℝ} (hv : JacobAt D pres Y v)
  (h1 : 200 ≤ v.T) (h2 : v.T ≤ 6000) (hp : 0 < pres) (hY : ∀ i, i < D.nsp → 0 ≤ Y i)
  (hpole : D.chemistry.AwayFromPoles v.T (D.chemistry.concentrations v.T pres Y))
include hD hv h1 h2 hp hY hpole

/-- Density, concentrations and rates. -/
theorem jacob_rates_near (n : Numbered) (hn : n ∈ number D.reactions) :
    Near (1 / 10 ^ 10) (v.F n.k) (D.chemistry.forward n v.T (D.chemistry.concentrations v.T pres Y)) ∧
    (n.r.reversible = true → Near (1 / 10 ^ 10) (v.R n.j) (D.chemistry.reverse n v.T (D.chemistry.concentrations v.T pres Y))) ∧
    Near (2 / 10 ^ 10) (v.pm n) (D.chemistry.modification n v.T (D.chemistry.concentrations v.T pres Y)) := by
  have hT : 0 < v.T := by linarith
  obtain ⟨nρ, nC⟩ := density_near hD v.T pres hT hp Y hY v.rho v.C hv.rho hv.conc
  obtain ⟨k1, k2, k3, k4, k5⟩ := kinetics_near hD v.T pres h1 h2 v.C _ nC hv.sum.symm hpole n hn
  obtain ⟨x1, x2, x3⟩ := hv.exec n hn
  rw [← x1] at k1
  refine ⟨k1, fun hr => by rw [x2 hr]; exact k2 hr, ?_⟩
  unfold JacobVals.pm
  by_cases hm : n.r.modified = true
  · rw [if_pos hm]
    cases hk : n.r.kind with
    | elementary => simp [Reaction.modified, hk] at hm
    | thirdBody eff => rw [hv.rates.third n hn eff hk]; exact (k3 eff hk).mono (by norm_num)
    | falloff eff => rw [x3 hm]; exact k4 eff hk
  · rw [if_neg hm, k5 (by simpa using hm)]
    exact (Near.refl zero_le_one).mono (by norm_num)

/-- `B` of Troe's formula away from the poles. -/
theorem exactB_away (hcut : D.chemistry.AboveCutOff v.T (D.chemistry.concentrations v.T pres Y)) (n : Numbered) (hn : n ∈ number D.reactions)
    (eff : List (Nat × Nat × Nat)) (kInf k0 : Arrhenius) (t : Troe) (hk : n.r.kind = .falloff eff)
    (hl : D.law n.k = .falloff kInf k0 (some t)) :
    14 / 10 ^ 11 < |exactB (D.chemistry.reducedPressure n kInf k0 eff v.T (D.chemistry.concentrations v.T pres Y)) (t.centre v.T)| := by
  have hc := hcut n hn eff kInf k0 t hk hl
  have ha := hpole n hn eff kInf k0 t hk hl
  rw [max_eq_left hc.le] at ha
  generalize D.chemistry.reducedPressure n kInf k0 eff v.T (D.chemistry.concentrations v.T pres Y) = P at *
  have e : exactB P (t.centre v.T) = -(14 / 100) * (lg P - Troe.pole (t.centre v.T)) := by
    unfold exactB Troe.pole
    ring
  rw [e, abs_mul, abs_neg, abs_of_pos (by norm_num : (0 : ℝ) < 14 / 100)]
  norm_num at ha ⊢
  linarith

include hz

/-- The temperature derivative of the rate of a reaction. -/
theorem tVal_near (hcut : D.chemistry.AboveCutOff v.T (D.chemistry.concentrations v.T pres Y)) (n : Numbered) (hn : n ∈ number D.reactions)
    (x : ℝ) (hx : TVal D n v x) :
    |x - D.chemistry.rateSlope n v.T (D.chemistry.concentrations v.T pres Y) / (D.chemistry.density v.T pres Y * v.T)| ≤
      8 / 10 ^ 6 * ((D.chemistry.forward n v.T (D.chemistry.concentrations v.T pres Y) +
        D.chemistry.reverse n v.T (D.chemistry.concentrations v.T pres Y)) *
        D.chemistry.modification n v.T (D.chemistry.concentrations v.T pres Y) / (D.chemistry.density v.T pres Y * v.T)) ∧
    |x| ≤ 5000 * ((D.chemistry.forward n v.T (D.chemistry.concentrations v.T pres Y) +
        D.chemistry.reverse n v.T (D.chemistry.concentrations v.T pres Y)) *
        D.chemistry.modification n v.T (D.chemistry.concentrations v.T pres Y) / (D.chemistry.density v.T pres Y * v.T)) := by
  have hT : 0 < v.T := by linarith
  obtain ⟨nρ, nC⟩ := density_near hD v.T pres hT hp Y hY v.rho v.C hv.rho hv.conc
  have hc := checked_of_shipped hD
  obtain ⟨hre, hpr, -⟩ := balance_sound (K := ℝ) hc n.r (mem_numberFrom D.reactions 0 0 0 n hn)
  obtain ⟨z2, z3, zs, z5, z6⟩ := sizesOk_sound hz n hn
  have zs := fun hr => zs hr v.T h1 h2
  obtain ⟨nF, nR, nM⟩ := jacob_rates_near hD hv h1 h2 hp hY hpole n hn
  have hB := exactB_away hD hv h1 h2 hp hY hpole hcut n hn
  have hcutn := hcut n hn
  clear hcut hpole
  generalize D.chemistry.concentrations v.T pres Y = C at *
  -- the form of the derivative
  have key : ∃ f r : ℝ, x = 1 / v.rho * v.pm n * (1 / v.T) * (v.F n.k * f - v.Rv n * r) ∧
      Ap f (SDec.val (D.law n.k).high.b + (D.law n.k).high.temperature / v.T - n.r.reactants.length + 1 + D.chemistry.modSlope n v.T C)
        4230 (502 / 10 ^ 8) ∧
      (n.r.reversible = true → Ap r (SDec.val (D.law n.k).high.b + (D.law n.k).high.temperature / v.T - kcSlope D.nsp D.fit n.r v.T - n.r.products.length + 1 +
        D.chemistry.modSlope n v.T C) 4230 (502 / 10 ^ 8)) := by
    unfold TVal at hx
    unfold Chemistry.modSlope
    have hlawc : D.chemistry.law = D.law := rfl
    cases hk : n.r.kind with
    | elementary =>
      rw [hk] at hx
      obtain ⟨f, r, e, a1, a2⟩ := lin_near (φ := 0) (fit := D.fit) hx h1 z5 z2 z3 hre hpr (by norm_num) (hv.dB n hn) zs
      push_cast at a1 a2
      exact ⟨f, r, e, a1.mono (by norm_num) (by norm_num), fun hr => (a2 hr).mono (by norm_num) (by norm_num)⟩
    | thirdBody eff =>
      rw [hk] at hx
      obtain ⟨f, r, e, a1, a2⟩ := lin_near (φ := -1) (fit := D.fit) hx h1 z5 z2 z3 hre hpr (by norm_num) (hv.dB n hn) zs
      push_cast at a1 a2
      exact ⟨f, r, e, a1.mono (by norm_num) (by norm_num), fun hr => (a2 hr).mono (by norm_num) (by norm_num)⟩
    | falloff eff =>
      rw [hk] at hx
      rw [hlawc]
      cases hl : D.law n.k with
      | simple k => rw [hl] at hx; exact absurd hx (by simp)
      | falloff kInf k0 troe =>
        rw [hl] at hx z5
        obtain ⟨w1, w2, w3⟩ := z6 kInf k0 troe hl
        have m0 := (modest_sound w1 h1).1
        have mI := (modest_sound z5 h1).1
        have hsum : (1 + (|k0.temperature| + |kInf.temperature|) / v.T) / 10 ^ 14 ≤ 661 / 10 ^ 14 := by
          refine div_le_div_of_nonneg_right ?_ (by norm_num)
          rw [add_div]
          have : |kInf.temperature| / v.T ≤ 328 := mI
          linarith
        have hPn : ∀ P' η : ℝ, |η| ≤ (1 + (|k0.temperature| + |kInf.temperature|) / v.T) / 10 ^ 14 →
            P' = k0.coefficient (n.r.reactants.length + 1) v.T * thirdBody D.nsp eff v.C / kInf.coefficient n.r.reactants.length v.T *
              Real.exp η → 0 < kInf.coefficient n.r.reactants.length v.T → 0 < k0.coefficient (n.r.reactants.length + 1) v.T →
            Near (67 / 10 ^ 13) P' (D.chemistry.reducedPressure n kInf k0 eff v.T C) := by
          intro P' η hη eP q0 q1
          have hthird : Near (4 / 10 ^ 15) (thirdBody D.nsp eff v.C) (thirdBody D.nsp eff C) := by
            refine Near.sum fun i hi => ?_
            have h0 : (0 : ℝ) ≤ efficiency eff i := by unfold efficiency; positivity
            exact ((Near.refl h0).mul (nC i hi)).mono (by norm_num)
          have hb : Near (4 / 10 ^ 15) (k0.coefficient (n.r.reactants.length + 1) v.T * thirdBody D.nsp eff v.C /
              kInf.coefficient n.r.reactants.length v.T) (D.chemistry.reducedPressure n kInf k0 eff v.T C) :=
            (((Near.refl q1.le).mul hthird).div (Near.refl q0.le)).mono (by norm_num)
          exact ((Near.of_exp hb.left (hη.trans hsum) eP).trans hb).mono (by norm_num)
        have hpm : v.pm n = v.P n.p := by
          unfold JacobVals.pm
          rw [if_pos (by simp [Reaction.modified, hk])]
        cases troe with
        | none =>
          obtain ⟨q0, q1, P', S1, lin, η, hη, eP, hS1, hlin, ex⟩ := hx
          obtain ⟨f, r, e, a1, a2⟩ := lin_near (φ := 0) (fit := D.fit) hlin h1 z5 z2 z3 hre hpr (by norm_num) (hv.dB n hn) zs
          push_cast at a1 a2
          have hs := lind_slope_near hT (hPn P' η hη eP q0 q1) (slopeSmall_sound w2 h1) (hS1.trans (hsum.trans (by norm_num)))
          generalize S1 / (v.T * (1 + P')) = X at *
          refine ⟨f + v.T * X, r + v.T * X, ?_, ?_, fun hr => ?_⟩
          · rw [ex, e, hpm]
            field_simp
            ring
          · have := (a1.add hs).mono (N := 4230) (δ := 502 / 10 ^ 8) (by norm_num) (by norm_num)
            rw [add_zero] at this
            exact this
          · have := ((a2 hr).add hs).mono (N := 4230) (δ := 502 / 10 ^ 8) (by norm_num) (by norm_num)
            rw [add_zero] at this
            exact this
        | some t =>
          obtain ⟨P', Fc, S1, FP, S2, lin, ⟨q0, q1, ⟨η, hη, eP⟩, hF⟩, hFP, hS1, hS2, hlin, ex⟩ := hx
          obtain ⟨f, r, e, a1, a2⟩ := lin_near (φ := 0) (fit := D.fit) hlin h1 z5 z2 z3 hre hpr (by norm_num) (hv.dB n hn) zs
          push_cast at a1 a2
          have hPr := hPn P' η hη eP q0 q1
          have hk' := kinetics_of_shipped hD
          simp only [kineticsOk, Bool.and_eq_true, List.all_eq_true] at hk'
          have k3 := (hk'.1 n hn).2
          rw [hl] at k3
          simp only [Bool.and_eq_true] at k3
          have hF3 := centreSmall_sound k3.2 v.T h1
          have hF0 := centreBig_sound k3.1.2 v.T hT (by linarith)
          have hs := troe_slope_near (w3 t rfl) h1 h2 hF hFP hF0 hF3 hPr (hcutn eff kInf k0 t hk hl) (hB eff kInf k0 t hk hl) (slopeSmall_sound w2 h1)
            (hS1.trans (hsum.trans (by norm_num))) (hS2.trans (hsum.trans (by norm_num)))
          generalize troeX v.T P' Fc (troeA P' Fc) (troeB P' Fc) (troeL Fc (troeA P' Fc) (troeB P' Fc)) S1 FP S2 = X at *
          refine ⟨f + v.T * X, r + v.T * X, ?_, ?_, fun hr => ?_⟩
          · rw [ex, e, hpm]
            field_simp
            ring
          · have := (a1.add hs).mono (N := 4230) (δ := 502 / 10 ^ 8) (by norm_num) (by norm_num)
            rw [add_zero] at this
            exact this
          · have := ((a2 hr).add hs).mono (N := 4230) (δ := 502 / 10 ^ 8) (by norm_num) (by norm_num)
            rw [add_zero] at this
            exact this
  obtain ⟨f, r, e, hf, hr⟩ := key
  unfold Chemistry.rateSlope
  obtain ⟨f0, hf0⟩ : ∃ f0, f0 = SDec.val (D.law n.k).high.b + (D.law n.k).high.temperature / v.T - n.r.reactants.length + 1 +
    D.chemistry.modSlope n v.T C := ⟨_, rfl⟩
  obtain ⟨r0, hr0⟩ : ∃ r0, r0 = SDec.val (D.law n.k).high.b + (D.law n.k).high.temperature / v.T - kcSlope D.nsp D.fit n.r v.T -
    n.r.products.length + 1 + D.chemistry.modSlope n v.T C := ⟨_, rfl⟩
  rw [← hf0] at hf
  rw [← hr0] at hr
  have e1 : SDec.val (D.chemistry.law n.k).high.b + (D.chemistry.law n.k).high.temperature / v.T - n.r.reactants.length + 1 +
    D.chemistry.modSlope n v.T C = f0 := hf0.symm
  have e2 : SDec.val (D.chemistry.law n.k).high.b + (D.chemistry.law n.k).high.temperature / v.T -
    kcSlope D.chemistry.nsp D.chemistry.fit n.r v.T - n.r.products.length + 1 + D.chemistry.modSlope n v.T C = r0 := hr0.symm
  rw [e1, e2, e]
  clear e1 e2 hf0 hr0 e hx hcutn hB
  have hR0 : n.r.reversible = false → D.chemistry.reverse n v.T C = 0 := by
    intro hr
    unfold Chemistry.reverse
    rw [if_neg (by simp [hr])]
  generalize D.chemistry.forward n v.T C = F at *
  generalize D.chemistry.reverse n v.T C = R at *
  generalize D.chemistry.modification n v.T C = M at *
  generalize D.chemistry.density v.T pres Y = ρ at *
  have n1 : Near (31 / 10 ^ 11) (v.F n.k * v.pm n / (v.rho * v.T)) (F * M / (ρ * v.T)) :=
    ((nF.mul nM).div (nρ.mul (Near.refl hT.le))).mono (by norm_num)
  have nR' : Near (1 / 10 ^ 10) (v.Rv n) R := by
    by_cases hrev : n.r.reversible = true
    · rw [v.Rv_pos hrev]
      exact nR hrev
    · rw [hR0 (by simpa using hrev)]
      unfold JacobVals.Rv
      rw [if_neg hrev]
      exact (Near.refl le_rfl).mono (by norm_num)
  have n2 : Near (31 / 10 ^ 11) (v.Rv n * v.pm n / (v.rho * v.T)) (R * M / (ρ * v.T)) :=
    ((nR'.mul nM).div (nρ.mul (Near.refl hT.le))).mono (by norm_num)
  have ex : 1 / v.rho * v.pm n * (1 / v.T) * (v.F n.k * f - v.Rv n * r) =
      v.F n.k * v.pm n / (v.rho * v.T) * f - v.Rv n * v.pm n / (v.rho * v.T) * r := by
    simp only [div_eq_mul_inv, mul_inv]
    ring
  have ex0 : M * (F * f0 - R * r0) / (ρ * v.T) = F * M / (ρ * v.T) * f0 - R * M / (ρ * v.T) * r0 := by ring
  have ex1 : (F + R) * M / (ρ * v.T) = F * M / (ρ * v.T) + R * M / (ρ * v.T) := by ring
  rw [ex, ex0, ex1]
  have s1 := n1.abs_sub (by norm_num) (by norm_num)
  have s2 := n2.abs_sub (by norm_num) (by norm_num)
  have p1 := n1.right
  have p2 := n2.right
  have hb0 : n.r.reversible = false → R * M / (ρ * v.T) = 0 ∧ v.Rv n * v.pm n / (v.rho * v.T) = 0 := by
    intro hr
    rw [hR0 hr]
    unfold JacobVals.Rv
    rw [if_neg (by simp [hr])]
    simp
  generalize v.F n.k * v.pm n / (v.rho * v.T) = a' at *
  generalize v.Rv n * v.pm n / (v.rho * v.T) = b' at *
  generalize F * M / (ρ * v.T) = a at *
  generalize R * M / (ρ * v.T) = b at *
  have t1 : ∀ {z z' w w' : ℝ}, 0 ≤ z → |z' - z| ≤ 2 * (31 / 10 ^ 11) * z → Ap w' w 4230 (502 / 10 ^ 8) →
      |z' * w' - z * w| ≤ 8 / 10 ^ 6 * z ∧ |z * w| ≤ 4230 * z := by
    intro z z' w w' hz hzz hw
    have hw' : |w'| ≤ 4231 := by
      have e := abs_add_le (w' - w) w
      rw [sub_add_cancel] at e
      have := hw.size
      have := hw.err
      norm_num at *
      linarith
    constructor
    · have e : z' * w' - z * w = (z' - z) * w' + z * (w' - w) := by ring
      rw [e]
      refine (abs_add_le _ _).trans ?_
      rw [abs_mul, abs_mul, abs_of_nonneg hz]
      have q1 := mul_le_mul hzz hw' (abs_nonneg _) (by positivity)
      have q2 := mul_le_mul_of_nonneg_left hw.err hz
      norm_num at q1 q2 ⊢
      linarith
    · rw [abs_mul, abs_of_nonneg hz]
      have := mul_le_mul_of_nonneg_left hw.size hz
      linarith
  obtain ⟨u1, u2⟩ := t1 p1 s1 hf
  obtain ⟨u3, u4⟩ : |b' * r - b * r0| ≤ 8 / 10 ^ 6 * b ∧ |b * r0| ≤ 4230 * b := by
    by_cases hrev : n.r.reversible = true
    · exact t1 p2 s2 (hr hrev)
    · obtain ⟨e1, e2⟩ := hb0 (by simpa using hrev)
      rw [e1, e2]
      simp
  constructor
  · have e : a' * f - b' * r - (a * f0 - b * r0) = (a' * f - a * f0) - (b' * r - b * r0) := by ring
    rw [e]
    refine (abs_sub _ _).trans ?_
    linarith
  · have e : a' * f - b' * r = (a' * f - a * f0) - (b' * r - b * r0) + a * f0 - b * r0 := by ring
    rw [e]
    refine (abs_sub _ _).trans ?_
    have q1 := abs_add_le ((a' * f - a * f0) - (b' * r - b * r0)) (a * f0)
    have q2 := abs_sub (a' * f - a * f0) (b' * r - b * r0)
    norm_num at *
    linarith

/-- The sum over the reactions. -/
theorem tRow_near (hcut : D.chemistry.AboveCutOff v.T (D.chemistry.concentrations v.T pres Y)) {bs : List (List CStmt × List CStmt)}
    {ns : List Numbered} {cs : List (Nat → ℝ)} {ws : List Nat} (hw : (List.range D.nsp).map D.weight5 = ws) (hb : BlocksAdd D ws v bs ns cs)
    (hns : ∀ n ∈ ns, n ∈ number D.reactions) (k : Nat) (hk : k < D.nsp - 1) :
    |(cs.map fun c => c (k + 1)).sum - (ns.map fun n => (n.r.net k : ℝ) * D.chemistry.weight k *
        (D.chemistry.rateSlope n v.T (D.chemistry.concentrations v.T pres Y) / (D.chemistry.density v.T pres Y * v.T))).sum| ≤
      1 / 10 ^ 5 * (ns.map fun n => |(n.r.net k : ℝ)| * D.chemistry.weight k *
        ((D.chemistry.forward n v.T (D.chemistry.concentrations v.T pres Y) +
          D.chemistry.reverse n v.T (D.chemistry.concentrations v.T pres Y)) *
        D.chemistry.modification n v.T (D.chemistry.concentrations v.T pres Y) / (D.chemistry.density v.T pres Y * v.T))).sum ∧
    |(ns.map fun n => (n.r.net k : ℝ) * D.chemistry.weight k *
        (D.chemistry.rateSlope n v.T (D.chemistry.concentrations v.T pres Y) / (D.chemistry.density v.T pres Y * v.T))).sum| ≤
      5001 * (ns.map fun n => |(n.r.net k : ℝ)| * D.chemistry.weight k *
        ((D.chemistry.forward n v.T (D.chemistry.concentrations v.T pres Y) +
          D.chemistry.reverse n v.T (D.chemistry.concentrations v.T pres Y)) *
        D.chemistry.modification n v.T (D.chemistry.concentrations v.T pres Y) / (D.chemistry.density v.T pres Y * v.T))).sum := by
  induction hb with
  | nil => simp
  | @cons n b c bs ns cs h _ ih =>
    have hn := hns n (by simp)
    have ih := ih fun n hn => hns n (by simp [hn])
    obtain ⟨x, hx, hrow⟩ := h.1
    have hlen : ws.length = D.nsp := by rw [← hw]; simp
    obtain ⟨w, hw1, hw2⟩ := hrow k (by omega)
    obtain ⟨t1, t2⟩ := tVal_near hD hz hv h1 h2 hp hY hpole hcut n hn x hx
    have hW : D.chemistry.weight k = ((ws.getD k 0 : Nat) : ℝ) / 10 ^ 5 := by
      rw [← hw, List.getD_eq_getElem _ _ (by simp; omega), List.getElem_map, List.getElem_range]
      rfl
    have hW0 : 0 ≤ D.chemistry.weight k := by rw [hW]; positivity
    have e0 : (n.r.net k : ℝ) * ws.getD k 0 / 10 ^ 5 = n.r.net k * D.chemistry.weight k := by rw [hW]; ring
    rw [e0, abs_mul, abs_of_nonneg hW0] at hw1
    simp only [List.map_cons, List.sum_cons]
    rw [hw2, mul_add (1 / 10 ^ 5 : ℝ), mul_add (5001 : ℝ)]
    have e : ∀ a b c d : ℝ, a + b - (c + d) = (a - c) + (b - d) := fun a b c d => by ring
    rw [e]
    suffices h : _ ∧ _ from ⟨(abs_add_le _ _).trans (add_le_add h.1 ih.1), (abs_add_le _ _).trans (add_le_add h.2 ih.2)⟩
    generalize D.chemistry.rateSlope n v.T (D.chemistry.concentrations v.T pres Y) / (D.chemistry.density v.T pres Y * v.T) = s at *
    generalize (D.chemistry.forward n v.T (D.chemistry.concentrations v.T pres Y) +
          D.chemistry.reverse n v.T (D.chemistry.concentrations v.T pres Y)) *
        D.chemistry.modification n v.T (D.chemistry.concentrations v.T pres Y) / (D.chemistry.density v.T pres Y * v.T) = t at *
    constructor
    swap
    · rw [abs_mul, abs_mul _ (D.chemistry.weight k), abs_of_nonneg hW0]
      have hs : |s| ≤ 5001 * t := by
        have q1 := abs_sub_abs_le_abs_sub s x
        rw [abs_sub_comm] at q1
        have := abs_nonneg x
        norm_num at t1
        linarith
      exact (mul_le_mul_of_nonneg_left hs (mul_nonneg (abs_nonneg _) hW0)).trans (le_of_eq (by ring))
    have e : w * x - n.r.net k * D.chemistry.weight k * s = (w - n.r.net k * D.chemistry.weight k) * x +
      n.r.net k * D.chemistry.weight k * (x - s) := by ring
    rw [e]
    refine (abs_add_le _ _).trans ?_
    rw [abs_mul, abs_mul _ (x - s), abs_mul _ (D.chemistry.weight k), abs_of_nonneg hW0]
    have hN : 0 ≤ |(n.r.net k : ℝ)| * D.chemistry.weight k := mul_nonneg (abs_nonneg _) hW0
    generalize |(n.r.net k : ℝ)| * D.chemistry.weight k = N at *
    have q1 := mul_le_mul hw1 t2 (abs_nonneg _) (by positivity)
    have q2 := mul_le_mul_of_nonneg_left t1 hN
    have q3 : 0 ≤ N * t := mul_nonneg hN (by have := abs_nonneg x; linarith)
    norm_num at q1 q2 ⊢
    nlinarith

end
end DLB
