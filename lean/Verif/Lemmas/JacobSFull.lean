import Verif.Lemmas.JacobSRate
import Verif.Lemmas.JacobEnd
import Verif.Lemmas.JacobFull
/-
The derivatives by the mass fractions that `eval_jacob` returns, as sums over the reactions.
-/
set_option autoImplicit false
set_option linter.unusedSectionVars false

namespace DLB

theorem abs_map_sub_le {α : Type} (l : List α) (f g s : α → ℝ) {ε : ℝ} (h : ∀ a ∈ l, |f a - g a| ≤ ε * s a) :
    |(l.map f).sum - (l.map g).sum| ≤ ε * (l.map s).sum := by
  induction l with
  | nil => simp
  | cons a l ih =>
    simp only [List.map_cons, List.sum_cons]
    have e : ∀ a b c d : ℝ, a + b - (c + d) = (a - c) + (b - d) := fun a b c d => by ring
    rw [e, mul_add]
    exact (abs_add_le _ _).trans (add_le_add (h a (by simp)) (ih fun b hb => h b (by simp [hb])))

theorem abs_map_le {α : Type} (l : List α) (f s : α → ℝ) (h : ∀ a ∈ l, |f a| ≤ s a) : |(l.map f).sum| ≤ (l.map s).sum := by
  have := abs_map_sub_le l f (fun _ => 0) s (ε := 1) fun a ha => by rw [sub_zero, one_mul]; exact h a ha
  simpa using this

theorem forall₂_left {α β : Type} {P : α → Prop} {l : List α} {l' : List β} (h : List.Forall₂ (fun a _ => P a) l l') : ∀ a ∈ l, P a := by
  induction h with
  | nil => intro a ha; exact absurd ha (by simp)
  | cons h _ ih =>
    intro a ha
    rcases List.mem_cons.1 ha with rfl | ha
    · exact h
    · exact ih a ha

section
variable {D : Package} (hD : D ∈ shipped) (hz : sizesOk D = true) (hrev : ∀ n ∈ number D.reactions, n.r.reversible = true) {pres : ℝ} {Y : Nat → ℝ} {v : JacobVals ℝ} (hv : JacobAt D pres Y v)
  (h1 : 200 ≤ v.T) (h2 : v.T ≤ 6000) (hp : 0 < pres) (hY : ∀ i, i < D.nsp → 0 ≤ Y i)
  (hpole : D.chemistry.AwayFromPoles v.T (D.chemistry.concentrations v.T pres Y))
include hD hz hrev hv h1 h2 hp hY hpole

theorem sCol_near (hcut : D.chemistry.AboveCutOff v.T (D.chemistry.concentrations v.T pres Y)) {ns : List Numbered} {cs : List (Nat → ℝ)}
    (hb : List.Forall₂ (SAdds D · v ·) ns cs) (hns : ∀ n ∈ ns, n ∈ number D.reactions) (j k : Nat) (hj : j < D.nsp - 1) (hk : k + 1 < D.nsp) :
    |(cs.map fun c => c (D.nsp * (j + 1) + (k + 1))).sum -
      (ns.map fun n => (n.r.net k : ℝ) * D.molWeight k * D.chemistry.rateBy n v.T pres Y j).sum| ≤
      81 / 10 ^ 9 * (ns.map fun n => |(n.r.net k : ℝ)| * D.molWeight k * rateByTerms D.chemistry n v.T pres Y j).sum ∧
    |(ns.map fun n => (n.r.net k : ℝ) * D.molWeight k * D.chemistry.rateBy n v.T pres Y j).sum| ≤
      16 * (ns.map fun n => |(n.r.net k : ℝ)| * D.molWeight k * rateByTerms D.chemistry n v.T pres Y j).sum := by
  induction hb with
  | nil => simp
  | @cons n c ns cs h _ ih =>
    have hn := hns n (by simp)
    have ih := ih fun n hn => hns n (by simp [hn])
    obtain ⟨-, jt, pt, kf, kr, hm, hr, hx, hx0, -⟩ := h
    simp only [List.map_cons, List.sum_cons]
    have e : ∀ a b c d : ℝ, a + b - (c + d) = (a - c) + (b - d) := fun a b c d => by ring
    rw [e, mul_add (81 / 10 ^ 9 : ℝ), mul_add (16 : ℝ)]
    suffices h : |c (D.nsp * (j + 1) + (k + 1)) - n.r.net k * D.molWeight k * D.chemistry.rateBy n v.T pres Y j| ≤
        81 / 10 ^ 9 * (|(n.r.net k : ℝ)| * D.molWeight k * rateByTerms D.chemistry n v.T pres Y j) ∧
        |n.r.net k * D.molWeight k * D.chemistry.rateBy n v.T pres Y j| ≤
        16 * (|(n.r.net k : ℝ)| * D.molWeight k * rateByTerms D.chemistry n v.T pres Y j) from
      ⟨(abs_add_le _ _).trans (add_le_add h.1 ih.1), (abs_add_le _ _).trans (add_le_add h.2 ih.2)⟩
    by_cases h0 : n.r.net k = 0
    · rw [hx0 j k hk h0, h0]
      simp
    · exact sRow_near hD hz hrev hv h1 h2 hp hY hpole hcut n hn hm hr (hx j k hj hk h0)

omit hz hrev in
/-- The molar production rates over the density, times the mean molar mass. -/
theorem endTerm_near (hrev : ∀ n ∈ number D.reactions, n.r.reversible = true) (k : Nat) (hk : k < D.nsp) :
    |v.ω k * v.mwAvg * (1 / v.rho) - D.chemistry.production v.T (D.chemistry.concentrations v.T pres Y) k /
        (D.chemistry.density v.T pres Y * ∑ i ∈ Finset.range D.nsp, Y i / D.molWeight i)| ≤
      1 / 10 ^ 9 * (D.chemistry.turnover v.T (D.chemistry.concentrations v.T pres Y) k /
        (D.chemistry.density v.T pres Y * ∑ i ∈ Finset.range D.nsp, Y i / D.molWeight i)) := by
  have hT : 0 < v.T := by linarith
  obtain ⟨nρ, nC⟩ := density_near hD v.T pres hT hp Y hY v.rho v.C hv.rho hv.conc
  have nμ : Near (2 / 10 ^ 15) v.mwAvg (1 / ∑ i ∈ Finset.range D.nsp, Y i / D.molWeight i) := by
    rw [hv.mw]
    refine ((Near.refl zero_le_one).div (Near.sum (ε := 2 / 10 ^ 15) fun i hi => ?_)).mono (by norm_num)
    rw [div_eq_mul_inv]
    exact ((Near.refl (hY i hi)).mul (weight_near hD i hi).2).mono (by norm_num)
  rw [hv.prod k hk]
  unfold productionRate Chemistry.production Chemistry.turnover
  have hcr : D.chemistry.reactions = D.reactions := rfl
  generalize hc : (D.chemistry.density v.T pres Y * ∑ i ∈ Finset.range D.nsp, Y i / D.molWeight i) = c
  rw [hcr, mul_assoc, list_sum_mul, div_eq_mul_inv (List.sum _) c, list_sum_mul, div_eq_mul_inv (List.sum _) c, list_sum_mul, ← hc]
  refine abs_map_sub_le _ _ _ _ fun n hn => ?_
  obtain ⟨nF, nR, nM⟩ := jacob_rates_near hD hv h1 h2 hp hY hpole n hn
  have nR := nR (hrev n hn)
  have hpg : n.progress v.F v.R v.P = (v.F n.k - v.R n.j) * v.pm n := by
    unfold Numbered.progress JacobVals.pm
    rw [if_pos (hrev n hn)]
  rw [hpg]
  generalize D.chemistry.concentrations v.T pres Y = C at *
  generalize D.chemistry.modification n v.T C = M at *
  generalize D.chemistry.forward n v.T C = F at *
  generalize D.chemistry.reverse n v.T C = R at *
  generalize D.chemistry.density v.T pres Y = ρ at *
  generalize ∑ i ∈ Finset.range D.nsp, Y i / D.molWeight i = μ at *
  have nz := nM.mul (nμ.mul ((Near.refl zero_le_one).div nρ))
  have ez : M * (1 / μ * (1 / ρ)) = M * (ρ * μ)⁻¹ := by simp only [div_eq_mul_inv, mul_inv]; ring
  rw [ez] at nz
  have a1 := (nF.mul nz).mono (δ := 4 / 10 ^ 10) (by norm_num) |>.abs_sub (by norm_num) (by norm_num)
  have a2 := (nR.mul nz).mono (δ := 4 / 10 ^ 10) (by norm_num) |>.abs_sub (by norm_num) (by norm_num)
  have e : ∀ a : ℝ, a * ((v.F n.k - v.R n.j) * v.pm n) * (v.mwAvg * (1 / v.rho)) - a * ((F - R) * M) * (ρ * μ)⁻¹ =
      a * ((v.F n.k * (v.pm n * (v.mwAvg * (1 / v.rho))) - F * (M * (ρ * μ)⁻¹)) -
        (v.R n.j * (v.pm n * (v.mwAvg * (1 / v.rho))) - R * (M * (ρ * μ)⁻¹))) := fun a => by ring
  have e' : ∀ a : ℝ, 1 / 10 ^ 9 * (a * ((F + R) * M) * (ρ * μ)⁻¹) = a * (1 / 10 ^ 9 * (F * (M * (ρ * μ)⁻¹) + R * (M * (ρ * μ)⁻¹))) :=
    fun a => by ring
  rw [e, e', abs_mul]
  refine mul_le_mul_of_nonneg_left ((abs_sub _ _).trans ((add_le_add a1 a2).trans ?_)) (abs_nonneg _)
  have p1 := (nF.mul nz).right
  have p2 := (nR.mul nz).right
  generalize F * (M * (ρ * μ)⁻¹) = f at *
  generalize R * (M * (ρ * μ)⁻¹) = r at *
  norm_num
  linarith

/-- The terms by the density are among those of the derivative. -/
theorem rateByTerms_ge (n : Numbered) (hn : n ∈ number D.reactions) (hk0 : 0 ≤ D.chemistry.coefficient n v.T) (j : Nat) :
    (1 / D.molWeight j + 1 / D.molWeight (D.nsp - 1)) * ((D.chemistry.forward n v.T (D.chemistry.concentrations v.T pres Y) +
      D.chemistry.reverse n v.T (D.chemistry.concentrations v.T pres Y)) *
      D.chemistry.modification n v.T (D.chemistry.concentrations v.T pres Y) *
      (D.chemistry.density v.T pres Y * ∑ i ∈ Finset.range D.nsp, Y i / D.molWeight i)⁻¹) ≤ rateByTerms D.chemistry n v.T pres Y j := by
  have hT : 0 < v.T := by linarith
  obtain ⟨nρ, nC⟩ := density_near hD v.T pres hT hp Y hY v.rho v.C hv.rho hv.conc
  obtain ⟨nF, nR, nM⟩ := jacob_rates_near hD hv h1 h2 hp hY hpole n hn
  obtain ⟨hre, hpr, -⟩ := balance_sound (K := ℝ) (checked_of_shipped hD) n.r (mem_numberFrom D.reactions 0 0 0 n hn)
  have z4 : n.r.reversible = true := hrev n hn
  have nR := nR z4
  have hR0 : (0 : ℝ) < gasR := by unfold gasR; positivity
  have hK0 : 0 < equilibriumConstant D.nsp D.fit n.r v.T := by
    unfold equilibriumConstant standardPressure
    positivity
  have hW0 : ∀ i, (0 : ℝ) ≤ D.molWeight i := fun i => by unfold Package.molWeight; positivity
  have hE0 : ∀ i, 0 ≤ Chemistry.efficiencyOf n.r i / D.molWeight i := fun i => by
    refine div_nonneg ?_ (hW0 i)
    unfold Chemistry.efficiencyOf
    split
    · exact le_rfl
    · unfold efficiency; positivity
    · unfold efficiency; positivity
  have hprod : ∀ l : List Nat, (∀ s ∈ l, s < D.nsp) → ∀ i,
      0 ≤ Chemistry.productBy l (D.chemistry.concentrations v.T pres Y) i / D.molWeight i := by
    intro l hl i
    refine div_nonneg (mul_nonneg (Nat.cast_nonneg _) (List.prod_nonneg ?_)) (hW0 i)
    intro x hx
    obtain ⟨s, hs, rfl⟩ := List.mem_map.1 hx
    exact (nC s (hl s (List.mem_of_mem_erase hs))).right
  have hper : 0 ≤ D.chemistry.modificationPer n v.T (D.chemistry.concentrations v.T pres Y) := by
    unfold Chemistry.modificationPer
    split
    · exact le_rfl
    · exact zero_le_one
    · refine div_nonneg nM.right (Finset.sum_nonneg fun i hi => mul_nonneg ?_ (nC i (Finset.mem_range.1 hi)).right)
      unfold efficiency
      positivity
  unfold rateByTerms
  dsimp only
  have hws : D.chemistry.weight = D.molWeight := rfl
  have hns : D.chemistry.nsp = D.nsp := rfl
  have hfs : D.chemistry.fit = D.fit := rfl
  rw [hws, hns, hfs, add_assoc]
  have p1 := hprod _ hre j
  have p2 := hprod _ hre (D.nsp - 1)
  have p3 := hprod _ hpr j
  have p4 := hprod _ hpr (D.nsp - 1)
  have p5 := hE0 j
  have p6 := hE0 (D.nsp - 1)
  have p7 := nM.right
  have p8 := nF.right
  have p9 := nR.right
  refine le_trans (le_of_eq ?_) (le_add_of_nonneg_right (by positivity))
  rw [div_eq_mul_inv (D.chemistry.modification _ _ _)]
  ring

end

/-- The derivatives by the mass fractions of the rates of change of the mass fractions. -/
theorem jacob_colS {D : Package} (hD : D ∈ shipped) (hz : sizesOk D = true) {J : JacobSrc} (hdb : dbOk D J = true) {ws : List Nat}
    (hw : (List.range D.nsp).map D.weight5 = ws) (hJ : partsOk D ws J.parts (number D.reactions) 0 = true)
    (hS : sBlocksOk D ws (J.parts.map JacobPart.blocks).flatten (number D.reactions) = true) (hN : 0 < ws.getD (D.nsp - 1) 0)
    (h3 : 2 < D.nsp) (e1 : onlyFirst J.cpAvg = true) (e2 : endStartOk J = true) (e3 : endOk D.nsp ws (endPairs D.nsp) J.endRows.flatten = true)
    (e4 : onlyFirst J.last = true) (h0 : ∀ n ∈ number D.reactions, n.r.net (D.nsp - 2) = 0) (pres : ℝ) (y : Nat → ℝ)
    (h1 : 200 ≤ y 0) (h2 : y 0 ≤ 6000) (hp : 0 < pres) (hY : ∀ i, i < D.nsp → 0 ≤ complement (D.nsp - 1) (fun i => y (i + 1)) i)
    (hpole : D.chemistry.AwayFromPoles (y 0) (D.chemistry.concentrations (y 0) pres (complement (D.nsp - 1) fun i => y (i + 1))))
    (hcut : D.chemistry.AboveCutOff (y 0) (D.chemistry.concentrations (y 0) pres (complement (D.nsp - 1) fun i => y (i + 1))))
    {v : JacobVals ℝ} (hst : JacobStages D.mech J pres y (fun _ => 0) v) (j : Nat) (hj : j < D.nsp - 1) :
    (∀ k, k < D.nsp - 1 →
      ∃ d, HasDerivAt (fun x => D.chemistry.dYdt (y 0) pres (complement (D.nsp - 1) (Function.update (fun i => y (i + 1)) j x)) k) d (y (j + 1)) ∧
        |v.result J (fun _ => 0) (D.nsp * (j + 1) + (k + 1)) - d| ≤
          1 / 10 ^ 7 * D.chemistry.dYdtByTerms (y 0) pres (complement (D.nsp - 1) fun i => y (i + 1)) k j ∧
        |d| ≤ 17 * D.chemistry.dYdtByTerms (y 0) pres (complement (D.nsp - 1) fun i => y (i + 1)) k j) ∧
    ∃ x, EndSum D.nsp D.molWeight v (v.result J fun _ => 0) j (endPairs D.nsp) x ∧ v.result J (fun _ => 0) (D.nsp * (j + 1)) = -x := by
  have hc := checked_of_shipped hD
  have hT : 0 < y 0 := by linarith
  obtain ⟨hat, -⟩ := jacob_at hc hdb pres y _ hT hp hY hst
  have hvT := hst.hT
  rw [← hvT] at hT h1 h2 hpole hcut ⊢
  obtain ⟨cs, hb, hjac⟩ := parts_sound J.parts hJ (v := v) (jac := fun _ => 0) (fun _ _ => rfl) hat.m hT
  have hreg := regular_of hD hat h1 h2 hp hY hpole hcut hb.vals
  have hsp := hb.species hS hw hN hT
  have hrev : ∀ n ∈ number D.reactions, n.r.reversible = true := forall₂_left (hsp.imp fun _ _ h => h.1)
  have hcol0 : ∀ j, v.partsT J.parts (fun _ => 0) (D.nsp * (j + 1)) = 0 := by
    intro j
    rw [hjac, zero_add]
    refine List.sum_eq_zero fun x hx => ?_
    obtain ⟨c, hc, rfl⟩ := List.mem_map.1 hx
    refine forall₂_left (P := fun c : Nat → ℝ => c (D.nsp * (j + 1)) = 0) (hsp.flip.imp fun c n h => ?_) c hc
    obtain ⟨-, _, _, _, _, -, -, -, -, h⟩ := h
    exact h j
  have hcoef : ∀ n ∈ number D.reactions, 0 ≤ D.chemistry.coefficient n v.T := forall₂_left (hsp.imp fun n c h => by
    obtain ⟨-, _, _, _, _, -, h, -, -, -⟩ := h
    exact h.1.le)
  have hW : ∀ i, i < D.nsp → D.molWeight i = (ws.getD i 0 : ℝ) / 10 ^ 5 := by
    intro i hi
    have : ws.getD i 0 = D.weight5 i := by rw [← hw, List.getD_eq_getElem?_getD]; simp [hi]
    rw [this]
    rfl
  obtain ⟨r1, r2, -, r4⟩ := result_end h3 hW e1 e2 e3 e4 v (fun _ => 0) fun j _ => hcol0 j
  refine ⟨fun k hk => ?_, r4 j hj⟩
  obtain ⟨nρ, -⟩ := density_near hD v.T pres hT hp _ hY v.rho v.C hat.rho hat.conc
  have hρ : D.chemistry.density v.T pres (complement (D.nsp - 1) fun i => y (i + 1)) ≠ 0 := by
    intro h0
    exact hat.rho_pos.ne' (nρ.zero_iff.2 h0)
  have hμ : ∑ i ∈ Finset.range D.chemistry.nsp, (complement (D.nsp - 1) (fun i => y (i + 1)) i) / D.chemistry.weight i ≠ 0 := by
    intro h0
    refine hρ ?_
    unfold Chemistry.density
    rw [h0, mul_zero, div_zero]
  have hred : ∀ n ∈ number D.chemistry.reactions, ∀ eff kInf k0 troe, n.r.kind = .falloff eff → D.chemistry.law n.k = .falloff kInf k0 troe →
      0 < D.chemistry.reducedPressure n kInf k0 eff v.T (D.chemistry.concentrations v.T pres (complement (D.nsp - 1) fun i => y (i + 1))) := by
    intro n hn eff kInf k0 troe hk hl
    obtain ⟨x, hx⟩ := hb.vals n hn
    have hl' : D.law n.k = .falloff kInf k0 troe := hl
    unfold TVal at hx
    rw [hk, hl'] at hx
    cases troe with
    | none =>
      exfalso
      refine forall₂_left (P := fun n : Numbered => n.r.kind = .falloff eff → D.law n.k = .falloff kInf k0 none → False)
        (hsp.imp fun n c h hk hl => ?_) n hn hk hl'
      obtain ⟨-, _, _, _, _, h, -⟩ := h
      unfold SMid at h
      rw [hk, hl] at h
      exact h
    | some t => exact lt_trans (by positivity) (hcut n hn eff kInf k0 t hk hl)
  have hup : complement (D.nsp - 1) (Function.update (fun i => y (i + 1)) j (y (j + 1))) = complement (D.nsp - 1) fun i => y (i + 1) := by
    rw [Function.update_eq_self]
  have hder := D.chemistry.dYdt_along (T := v.T) (p := pres) (f := fun t => complement (D.nsp - 1) (Function.update (fun i => y (i + 1)) j t))
    (u := massShift (D.nsp - 1) j) (x := y (j + 1)) (complement_along (D.nsp - 1) j hj _ _) (by simp only [hup]; exact hμ)
    (by simp only [hup]; exact hρ) (by simp only [hup]; exact hreg) (by simp only [hup]; exact hred) k
  simp only [hup] at hder
  refine ⟨_, hder, ?_⟩
  generalize complement (D.nsp - 1) (fun i => y (i + 1)) = Y at *
  obtain ⟨hcol, hsz⟩ := sCol_near hD hz hrev hat h1 h2 hp hY hpole hcut hsp (fun n hn => hn) j k hj (by omega)
  have hend := endTerm_near hD hat h1 h2 hp hY hpole hrev k (by omega)
  have hdens : 0 < D.chemistry.density v.T pres Y := lt_of_le_of_ne nρ.right (Ne.symm hρ)
  have hW0 : ∀ i, (0 : ℝ) ≤ D.molWeight i := fun i => by unfold Package.molWeight; positivity
  -- the sizes
  have hsize : ((number D.reactions).map fun n => |(n.r.net k : ℝ)| * D.molWeight k * rateByTerms D.chemistry n v.T pres Y j).sum =
      D.chemistry.dYdtByTerms v.T pres Y k j := by
    unfold Chemistry.dYdtByTerms Chemistry.dYdtTerms Chemistry.turnover
    have hcr : D.chemistry.reactions = D.reactions := rfl
    rw [hcr]
    generalize hμ' : ∑ i ∈ Finset.range D.chemistry.nsp, Y i / D.chemistry.weight i = μ at *
    have e : ∀ a b c d : ℝ, a / b * (c * d / D.chemistry.density v.T pres Y) = c * (a / b * (d / D.chemistry.density v.T pres Y)) := fun a b c d => by ring
    rw [e, list_sum_mul, ← List.sum_map_add]
    congr 1
    refine List.map_congr_left fun n _ => ?_
    unfold rateByTerms
    dsimp only
    rw [hμ']
    have hws : D.chemistry.weight = D.molWeight := rfl
    simp only [hws, div_eq_mul_inv, mul_inv]
    ring
  -- the derivative
  have hsplit : ((number D.chemistry.reactions).map fun n => (n.r.net k : ℝ) * D.chemistry.weight k *
      D.chemistry.rateAlong n v.T pres Y (massShift (D.nsp - 1) j)).sum = D.molWeight k * (1 / D.molWeight j - 1 / D.molWeight (D.nsp - 1)) *
      (D.chemistry.production v.T (D.chemistry.concentrations v.T pres Y) k /
        (D.chemistry.density v.T pres Y * ∑ i ∈ Finset.range D.nsp, Y i / D.molWeight i)) +
      ((number D.reactions).map fun n => (n.r.net k : ℝ) * D.molWeight k * D.chemistry.rateBy n v.T pres Y j).sum := by
    unfold Chemistry.production
    have hcr : D.chemistry.reactions = D.reactions := rfl
    have hws : D.chemistry.weight = D.molWeight := rfl
    have hns : D.chemistry.nsp = D.nsp := rfl
    rw [hcr]
    have e : ∀ a b c : ℝ, a * (b / c) = b * (a / c) := fun a b c => by ring
    rw [e, list_sum_mul, ← List.sum_map_add]
    congr 1
    refine List.map_congr_left fun n hn => ?_
    have := D.chemistry.rateAlong_massShift n (hrev n hn) v.T pres Y j hj
    rw [hws, hns] at this
    rw [hws, this]
    simp only [div_eq_mul_inv]
    ring
  rw [hsplit, ← hsize]
  have hcsum : v.partsT J.parts (fun _ => 0) (D.nsp * (j + 1) + (k + 1)) = (cs.map fun c => c (D.nsp * (j + 1) + (k + 1))).sum := by
    rw [hjac, zero_add]
  by_cases hk2 : k < D.nsp - 2
  · obtain ⟨c, hc1, hc2⟩ := r1 j k hj hk2
    rw [hc2, hcsum]
    have hge : D.molWeight k * (1 / D.molWeight j + 1 / D.molWeight (D.nsp - 1)) *
        (D.chemistry.turnover v.T (D.chemistry.concentrations v.T pres Y) k /
        (D.chemistry.density v.T pres Y * ∑ i ∈ Finset.range D.nsp, Y i / D.molWeight i)) ≤
        ((number D.reactions).map fun n => |(n.r.net k : ℝ)| * D.molWeight k * rateByTerms D.chemistry n v.T pres Y j).sum := by
      unfold Chemistry.turnover
      have hcr : D.chemistry.reactions = D.reactions := rfl
      rw [hcr]
      have e : ∀ a b c : ℝ, a * (b / c) = b * (a / c) := fun a b c => by ring
      rw [e, list_sum_mul]
      refine List.sum_le_sum fun n hn => ?_
      have := mul_le_mul_of_nonneg_left (rateByTerms_ge hD hz hrev hat h1 h2 hp hY hpole n hn (hcoef n hn) j) (mul_nonneg (abs_nonneg (n.r.net k : ℝ)) (hW0 k))
      refine le_trans (le_of_eq ?_) this
      simp only [div_eq_mul_inv]
      ring
    have hwt : |(D.molWeight k : ℝ) * (1 / D.molWeight j - 1 / D.molWeight (D.nsp - 1))| ≤
        D.molWeight k * (1 / D.molWeight j + 1 / D.molWeight (D.nsp - 1)) := by
      rw [abs_mul, abs_of_nonneg (hW0 k)]
      refine mul_le_mul_of_nonneg_left ?_ (hW0 k)
      have a1 : (0 : ℝ) ≤ 1 / D.molWeight j := one_div_nonneg.2 (hW0 j)
      have a2 : (0 : ℝ) ≤ 1 / D.molWeight (D.nsp - 1) := one_div_nonneg.2 (hW0 _)
      rw [abs_le]
      constructor <;> linarith
    have htu : |D.chemistry.production v.T (D.chemistry.concentrations v.T pres Y) k /
        (D.chemistry.density v.T pres Y * ∑ i ∈ Finset.range D.nsp, Y i / D.molWeight i)| ≤
        D.chemistry.turnover v.T (D.chemistry.concentrations v.T pres Y) k /
        (D.chemistry.density v.T pres Y * ∑ i ∈ Finset.range D.nsp, Y i / D.molWeight i) := by
      have hμ0 : 0 ≤ ∑ i ∈ Finset.range D.nsp, Y i / D.molWeight i :=
        Finset.sum_nonneg fun i hi => div_nonneg (hY i (Finset.mem_range.1 hi)) (hW0 i)
      have hc0 : 0 ≤ (D.chemistry.density v.T pres Y * ∑ i ∈ Finset.range D.nsp, Y i / D.molWeight i) := mul_nonneg hdens.le hμ0
      rw [abs_div, abs_of_nonneg hc0]
      refine div_le_div_of_nonneg_right (abs_map_le _ _ _ fun n hn => ?_) hc0
      obtain ⟨nF, nR, nM⟩ := jacob_rates_near hD hat h1 h2 hp hY hpole n hn
      have nR := (nR (hrev n hn)).right
      have nF := nF.right
      rw [abs_mul, abs_mul _ (D.chemistry.modification _ _ _), abs_of_nonneg nM.right]
      refine mul_le_mul_of_nonneg_left (mul_le_mul_of_nonneg_right ?_ nM.right) (abs_nonneg _)
      rw [abs_le]
      constructor <;> linarith
    generalize ((number D.reactions).map fun n => |(n.r.net k : ℝ)| * D.molWeight k * rateByTerms D.chemistry n v.T pres Y j).sum = S at *
    generalize ((number D.reactions).map fun n => (n.r.net k : ℝ) * D.molWeight k * D.chemistry.rateBy n v.T pres Y j).sum = s at *
    generalize (cs.map fun c => c (D.nsp * (j + 1) + (k + 1))).sum = s' at *
    generalize D.chemistry.production v.T (D.chemistry.concentrations v.T pres Y) k /
        (D.chemistry.density v.T pres Y * ∑ i ∈ Finset.range D.nsp, Y i / D.molWeight i) = a at *
    generalize D.chemistry.turnover v.T (D.chemistry.concentrations v.T pres Y) k /
        (D.chemistry.density v.T pres Y * ∑ i ∈ Finset.range D.nsp, Y i / D.molWeight i) = t at *
    generalize (D.molWeight k : ℝ) * (1 / D.molWeight j - 1 / D.molWeight (D.nsp - 1)) = w at *
    generalize (D.molWeight k : ℝ) * (1 / D.molWeight j + 1 / D.molWeight (D.nsp - 1)) = u at *
    have e : s' + v.ω k * v.mwAvg * c * (1 / v.rho) - (w * a + s) = (s' - s) + (v.ω k * v.mwAvg * (1 / v.rho) - a) * c + a * (c - w) := by ring
    rw [e]
    generalize v.ω k * v.mwAvg * (1 / v.rho) - a = b at *
    constructor
    swap
    · refine (abs_add_le _ _).trans ?_
      rw [abs_mul]
      have := mul_le_mul hwt htu (abs_nonneg _) ((abs_nonneg _).trans hwt)
      linarith
    have hu : 0 ≤ u := (abs_nonneg _).trans hwt
    have ht : 0 ≤ t := (abs_nonneg _).trans htu
    have hcu : |c| ≤ 2 * u := by
      have := abs_sub_abs_le_abs_sub c w
      norm_num at hc1
      linarith
    refine (abs_add_le _ _).trans ((add_le_add (abs_add_le _ _) le_rfl).trans ?_)
    rw [abs_mul, abs_mul]
    have m1 := mul_le_mul hend hcu (abs_nonneg _) (by positivity)
    have m2 := mul_le_mul htu hc1 (abs_nonneg _) ht
    have : 0 ≤ u * t := mul_nonneg hu ht
    norm_num at m1 m2 hcol ⊢
    nlinarith
  · have hk3 : k = D.nsp - 2 := by omega
    subst hk3
    have z : ∀ n ∈ number D.reactions, (n.r.net (D.nsp - 2) : ℝ) = 0 := fun n hn => by rw [h0 n hn]; simp
    have := r2 j
    rw [show D.nsp - 2 + 1 = D.nsp - 1 by omega] at hcsum ⊢
    rw [this, hcsum]
    have c0 : (cs.map fun c => c (D.nsp * (j + 1) + (D.nsp - 1))).sum = 0 := by
      refine List.sum_eq_zero fun x hx => ?_
      obtain ⟨c, hc, rfl⟩ := List.mem_map.1 hx
      have hsp' : List.Forall₂ (fun c n => n ∈ number D.reactions ∧ SAdds D n v c) cs (number D.reactions) := by
        exact List.Forall₂.flip ((List.forall₂_and_left _ _ (p := (· ∈ number D.reactions))).2 ⟨fun n hn => hn, hsp⟩)
      refine forall₂_left (P := fun c : Nat → ℝ => c (D.nsp * (j + 1) + (D.nsp - 1)) = 0) (hsp'.imp fun c n h => ?_) c hc
      obtain ⟨hn, -, _, _, _, _, -, -, -, h, -⟩ := h
      have := h j (D.nsp - 2) (by omega) (h0 n hn)
      rwa [show D.nsp - 2 + 1 = D.nsp - 1 by omega] at this
    rw [c0]
    have d0 : ∀ (g : Numbered → ℝ), ((number D.reactions).map fun n => (n.r.net (D.nsp - 2) : ℝ) * g n).sum = 0 := fun g =>
      List.sum_eq_zero fun x hx => by
        obtain ⟨n, hn, rfl⟩ := List.mem_map.1 hx
        rw [z n hn, zero_mul]
    have p0 : D.chemistry.production v.T (D.chemistry.concentrations v.T pres Y) (D.nsp - 2) = 0 := d0 _
    have p1 : ((number D.reactions).map fun n => (n.r.net (D.nsp - 2) : ℝ) * D.molWeight (D.nsp - 2) * D.chemistry.rateBy n v.T pres Y j).sum = 0 := by
      simp only [mul_assoc]
      exact d0 _
    have p2 : ((number D.reactions).map fun n => |(n.r.net (D.nsp - 2) : ℝ)| * D.molWeight (D.nsp - 2) * rateByTerms D.chemistry n v.T pres Y j).sum = 0 :=
      List.sum_eq_zero fun x hx => by
        obtain ⟨n, hn, rfl⟩ := List.mem_map.1 hx
        rw [z n hn, abs_zero, zero_mul, zero_mul]
    rw [p0, p1, p2]
    simp

end DLB
