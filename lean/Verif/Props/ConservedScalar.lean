import Verif.Model.FoamDict
import Verif.Props.MixtureFraction
import Verif.Props.FullStackChemistry
import Verif.Props.Mechanisms
/-
C110: the mixture fraction is a conserved scalar.  C111: what the mapping of the tutorials covers.
-/
set_option autoImplicit false
set_option linter.unusedSectionVars false

namespace DLB

variable {K : Type} [Field K] [LinearOrder K] [IsStrictOrderedRing K]

/-! ### Lemmas -/

/-- The blend of the streams with the share `z` of fuel. -/
def blend (d : MixFracDict K) (z : K) (s : String) : K := z * fuelStream d s + (1 - z) * oxidizerStream d s

/-- Two compositions have the same amounts of carbon, hydrogen and oxygen. -/
def SameElements (d : MixFracDict K) (Y Y' : String → K) : Prop :=
  elementMassFraction Elements.C 1 d Y = elementMassFraction Elements.C 1 d Y' ∧
  elementMassFraction Elements.H 1 d Y = elementMassFraction Elements.H 1 d Y' ∧
  elementMassFraction Elements.O 1 d Y = elementMassFraction Elements.O 1 d Y'

theorem shouldMap_iff {m : RefMapper K} (ha : m.active = true) {d : MixFracDict K} {Y : String → K} {z : K}
    (hz : mixtureFractionOf m.mixFrac d Y = .ok z) : shouldMap m (d.species.map Y) = .ok (decide (z < m.Ztolerance)) := by
  unfold mixtureFractionOf at hz
  simp [shouldMap, ha, hz, bind, Except.bind]

/-- C110. The mixture fraction depends on a composition only through its amounts of carbon, hydrogen and oxygen, which no reaction changes:
compositions with the same amounts have the same mixture fraction, and are either both mapped or both not. -/
theorem C110_depends_on_elements_only (m : RefMapper K) (ha : m.active = true) (d : MixFracDict K)
    (h : mixFracInitialize d = .ok m.mixFrac) (Y Y' : String → K) (hY : SameElements d Y Y') :
    mixtureFractionOf m.mixFrac d Y = mixtureFractionOf m.mixFrac d Y' ∧
      shouldMap m (d.species.map Y) = shouldMap m (d.species.map Y') := by
  have h1 : (1 : K) ≠ 0 := one_ne_zero
  have e : mixtureFractionOf m.mixFrac d Y = mixtureFractionOf m.mixFrac d Y' := by
    rw [(C34_bilger d _ h 1 1 1 h1 h1 h1 _).1, (C34_bilger d _ h 1 1 1 h1 h1 h1 _).1]
    unfold bilger
    rw [hY.1, hY.2.1, hY.2.2]
  refine ⟨e, ?_⟩
  have hz := (C34_bilger d _ h 1 1 1 h1 h1 h1 Y).1
  rw [shouldMap_iff ha hz, shouldMap_iff ha (e ▸ hz)]

/-- C110. A composition, burnt or not, with the elements of a blend of the streams has the share of fuel as mixture fraction, and is mapped
exactly if that share is below the tolerance. -/
theorem C110_share_of_fuel (m : RefMapper K) (ha : m.active = true) (d : MixFracDict K)
    (h : mixFracInitialize d = .ok m.mixFrac)
    (hne : bilger 1 1 1 d (fuelStream d) ≠ bilger 1 1 1 d (oxidizerStream d)) (z : K) (Y : String → K)
    (hY : SameElements d Y (blend d z)) :
    mixtureFractionOf m.mixFrac d Y = .ok z ∧ (shouldMap m (d.species.map Y) = .ok true ↔ z < m.Ztolerance) := by
  have e : mixtureFractionOf m.mixFrac d Y = .ok z :=
    (C110_depends_on_elements_only m ha d h Y _ hY).1.trans (C33_mixing d _ h hne z)
  refine ⟨e, ?_⟩
  rw [shouldMap_iff ha e]
  simp

/-! ### The dictionary of a mechanism -/

theorem idxOf_names {l : List String} (hl : l.Nodup) {s : Nat} (hs : s < l.length) : l.idxOf l[s] = s :=
  hl.idxOf_getElem s hs

theorem dotAcc_range (a y : Nat → K) (n : Nat) : ∀ (k : Nat) (acc : K),
    dotAcc acc ((List.range' k n).map a) ((List.range' k n).map y) =
      .ok (acc + ((List.range' k n).map fun s => a s * y s).sum) := by
  induction n with
  | zero => intro k acc; simp [dotAcc]
  | succ n ih =>
    intro k acc
    simp only [List.range'_succ, List.map_cons, dotAcc, ih, List.sum_cons, add_assoc]

theorem list_sum_range (f : Nat → K) (n : Nat) : ((List.range n).map f).sum = ∑ s ∈ Finset.range n, f s := by
  induction n with
  | zero => simp
  | succ n ih => simp [List.range_succ, Finset.sum_range_succ, ih]

/-- Coefficient of a species in the coupling function times its weight. -/
def couplingNumber (D : Package) (s : Nat) : K := 2 * (D.foamCount "C" s : K) + 1 / 2 * (D.foamCount "H" s : K) - (D.foamCount "O" s : K)

theorem mixFracDict_spec {D : Package} (hD : D ∈ shipped) {ox fu : String → Option K} {mf : MixtureFraction K}
    (h : mixFracInitialize (D.mixFracDict ox fu) = .ok mf) (y : Nat → K) :
    massFractionToMixtureFraction mf ((List.range D.nsp).map y) =
      .ok ((∑ s ∈ Finset.range D.nsp, couplingNumber D s / D.foamWeight s * y s - mf.beta0) / (mf.beta1 - mf.beta0)) := by
  have h1 : (1 : K) ≠ 0 := one_ne_zero
  obtain ⟨ha, -, -⟩ := mixFrac_spec h h1 h1 h1
  have hn := (checked_of_shipped hD).names
  simp only [checkNames, Bool.and_eq_true, decide_eq_true_eq] at hn
  obtain ⟨⟨⟨⟨⟨⟨⟨n1, n2⟩, n4⟩, -⟩, n3⟩, -⟩, -⟩, -⟩ := hn
  have hal : mf.alpha = (List.range' 0 D.nsp).map (fun s => couplingNumber D s / D.foamWeight s) := by
    rw [ha, ← List.range_eq_range']
    have hlen : (D.mixFracDict ox fu).species.length = D.nsp := by
      show D.foamNames.length = _
      rw [n1, n4]
    refine List.ext_getElem (by simp [hlen]) ?_
    intro s hs hs'
    simp only [List.getElem_map, List.getElem_range]
    have hsn : s < D.foamNames.length := by
      rw [List.length_map] at hs
      exact hs
    have hid : D.foamNames.idxOf D.foamNames[s] = s := idxOf_names (by rw [n1]; exact n3) hsn
    show weight (D.mixFracDict ox fu) D.foamNames[s] = _
    unfold weight atoms Package.mixFracDict couplingNumber
    simp only [List.getElem_mem, if_true, Option.getD_some, hid]
    ring
  unfold massFractionToMixtureFraction
  rw [hal, List.range_eq_range', dotAcc_range]
  simp only [bind, Except.bind, zero_add]
  rw [← List.range_eq_range', list_sum_range]

theorem foamCount_eq {D : Package} (hD : D ∈ shipped) (el : String) (s : Nat) :
    D.foamCount el s = D.atomCount s (D.elements.idxOf el) := by
  have hn := (checked_of_shipped hD).names
  simp only [checkNames, Bool.and_eq_true, decide_eq_true_eq] at hn
  obtain ⟨⟨⟨⟨⟨⟨⟨-, n2⟩, -⟩, -⟩, -⟩, -⟩, -⟩, -⟩ := hn
  unfold Package.foamCount Package.atomCount
  rw [n2]

/-- Carbon, hydrogen and oxygen are elements of the mechanism, and the last species has none of them. -/
theorem cho_of_shipped {D : Package} (hD : D ∈ shipped) : ∀ el ∈ ["C", "H", "O"],
    D.elements.idxOf el < D.elements.length ∧ D.atomCount (D.nsp - 1) (D.elements.idxOf el) = 0 := by
  simp only [shipped, List.mem_cons, List.mem_nil_iff, or_false] at hD
  rcases hD with rfl | rfl | rfl <;> decide +kernel

theorem inverse_close {W a b e : K} (hW : 0 < W) (ha : |a - W| ≤ W * e) (hb : |b - W| ≤ W * e) (he : 0 ≤ e) (he' : e ≤ 1 / 10) :
    |1 / a - 1 / b| ≤ 3 * e / W := by
  obtain ⟨a1, a2⟩ := abs_le.1 ha
  obtain ⟨b1, b2⟩ := abs_le.1 hb
  have hwe : 0 ≤ W * e := mul_nonneg hW.le he
  have hwe' : W * e ≤ W * (1 / 10) := mul_le_mul_of_nonneg_left he' hW.le
  have pa : W * (9 / 10) ≤ a := by linarith
  have pb : W * (9 / 10) ≤ b := by linarith
  have qa : 0 < a := lt_of_lt_of_le (by positivity) pa
  have qb : 0 < b := lt_of_lt_of_le (by positivity) pb
  have eq : 1 / a - 1 / b = (b - a) / (a * b) := by
    field_simp
  rw [eq, abs_div, abs_of_pos (mul_pos qa qb), div_le_div_iff₀ (mul_pos qa qb) hW]
  have h1 : |b - a| ≤ 2 * (W * e) := by
    rw [abs_le]
    constructor <;> linarith
  have h2 : W * (9 / 10) * (W * (9 / 10)) ≤ a * b := mul_le_mul pa pb (by positivity) qa.le
  calc |b - a| * W ≤ 2 * (W * e) * W := mul_le_mul_of_nonneg_right h1 hW.le
    _ ≤ 3 * e * (W * (9 / 10) * (W * (9 / 10))) := by nlinarith [mul_nonneg he (mul_nonneg hW.le hW.le)]
    _ ≤ 3 * e * (a * b) := mul_le_mul_of_nonneg_left h2 (by positivity)

/-- Change of the coupling function by rates that conserve carbon, hydrogen and oxygen with other literals for the weights. -/
theorem coupling_change {D : Package} (hD : D ∈ shipped) {w r : Nat → K} (hw : CloseWeights D w r) (x : Nat → K)
    (hx : ∀ el ∈ ["C", "H", "O"], ∑ s ∈ Finset.range D.nsp, (D.atomCount s (D.elements.idxOf el) : K) / w s * x s = 0) :
    |∑ s ∈ Finset.range D.nsp, couplingNumber D s / D.foamWeight s * x s| ≤
      3 / 10 ^ 15 * ∑ s ∈ Finset.range D.nsp,
        (2 * (D.foamCount "C" s : K) + 1 / 2 * (D.foamCount "H" s : K) + (D.foamCount "O" s : K)) / D.molWeight s * |x s| := by
  have hz : ∑ s ∈ Finset.range D.nsp, couplingNumber D s / w s * x s = 0 := by
    have e : ∀ s, couplingNumber D s / w s * x s = 2 * ((D.atomCount s (D.elements.idxOf "C") : K) / w s * x s) +
        1 / 2 * ((D.atomCount s (D.elements.idxOf "H") : K) / w s * x s) - (D.atomCount s (D.elements.idxOf "O") : K) / w s * x s := by
      intro s
      unfold couplingNumber
      rw [foamCount_eq hD, foamCount_eq hD, foamCount_eq hD]
      ring
    rw [Finset.sum_congr rfl fun s _ => e s, Finset.sum_sub_distrib, Finset.sum_add_distrib, ← Finset.mul_sum, ← Finset.mul_sum,
      hx "C" (by simp), hx "H" (by simp), hx "O" (by simp)]
    ring
  have hd : ∑ s ∈ Finset.range D.nsp, couplingNumber D s / D.foamWeight s * x s =
      ∑ s ∈ Finset.range D.nsp, couplingNumber D s * (1 / D.foamWeight s - 1 / w s) * x s := by
    rw [← sub_zero (∑ s ∈ Finset.range D.nsp, couplingNumber D s / D.foamWeight s * x s), ← hz, ← Finset.sum_sub_distrib]
    refine Finset.sum_congr rfl fun s _ => ?_
    ring
  rw [hd, Finset.mul_sum]
  refine (Finset.abs_sum_le_sum_abs _ _).trans (Finset.sum_le_sum fun s hs => ?_)
  have hs' := Finset.mem_range.1 hs
  have hs'' := List.mem_range.2 hs'
  have hW : (0 : K) < D.molWeight s := molWeight_pos (checked_of_shipped hD) s hs'
  have i1 := inverse_close (a := (D.foamWeight s : K)) (b := w s) (e := 1 / 10 ^ 15) hW (by
    have := List.all_eq_true.1 (checked_of_shipped hD).weights s hs''
    simp only [Bool.and_eq_true] at this
    have := (weightOk_sound (K := K) this.1.1.2).2
    rw [div_eq_mul_one_div _ ((10 : K) ^ 15)] at this
    exact this) (by
    have := (hw s hs').1
    rw [div_eq_mul_one_div] at this
    exact this) (by positivity) (by norm_num)
  have i2 : |(couplingNumber D s : K)| ≤ 2 * (D.foamCount "C" s : K) + 1 / 2 * (D.foamCount "H" s : K) + (D.foamCount "O" s : K) := by
    unfold couplingNumber
    rw [abs_le]
    have a1 : (0 : K) ≤ (D.foamCount "C" s : K) := Nat.cast_nonneg _
    have a2 : (0 : K) ≤ (D.foamCount "H" s : K) := Nat.cast_nonneg _
    have a3 : (0 : K) ≤ (D.foamCount "O" s : K) := Nat.cast_nonneg _
    constructor <;> linarith
  rw [abs_mul, abs_mul]
  calc |(couplingNumber D s : K)| * |1 / D.foamWeight s - 1 / w s| * |x s|
      ≤ (2 * (D.foamCount "C" s : K) + 1 / 2 * (D.foamCount "H" s : K) + (D.foamCount "O" s : K)) *
        (3 * (1 / 10 ^ 15) / D.molWeight s) * |x s| :=
        mul_le_mul_of_nonneg_right (mul_le_mul i2 i1 (abs_nonneg _) ((abs_nonneg _).trans i2)) (abs_nonneg _)
    _ = _ := by ring


section
variable [MathOps K] [CMath K] {m : Nat}

/-- C110. For every shipped mechanism, with the repository's integrator (positive relative tolerances, a Jacobian routine that conserves carbon,
hydrogen and oxygen, and a linear solver that satisfies the equations of their amounts): the reaction rates of every integrated cell in which no
mass fraction (but that of the last species) drops to zero change its mixture fraction by the rounding of the molecular weights in the files at most,
3 10^-15 of the turnover of the coupling function. -/
theorem C110_reactions_keep_mixture_fraction (hm : PowLaws K) (D : Package) (hD : D ∈ shipped) (hD1 : D.nsp = m + 1) :
    ∃ wt r : Nat → K, CloseWeights D wt r ∧
    ∀ (evalJacob : K → Vec K (m + 2) → Nat → K),
      (∀ el ∈ ["C", "H", "O"], JacobianConserves D wt (D.elements.idxOf el) evalJacob) →
    ∀ (linearSolve : (Nat → K) → Vec K (m + 2) → Vec K (m + 2)) (absTol relTol : Vec K (m + 2)), (∀ i, 0 < relTol i) →
    ∀ (fuel maxSteps : Nat),
      (∀ el ∈ ["C", "H", "O"], SolvesCombination (pyJacEnv (D.lib m evalJacob) linearSolve absTol relTol fuel)
        (elementVector D wt (D.elements.idxOf el))) →
    ∀ {n : Nat}, 0 < n → ∀ (base : ChemModel K), base.nSpecie = m + 1 → base.chemistry = true →
    ∀ (parRun : Bool), (parRun = true ∨ n = 1) →
    ∀ sort : List (ChemistryLoad K) → List (ChemistryLoad K), (∀ l, (sort l).Perm l) →
    ∀ (clk : Fin n → Nat → K) (flow : Fin n → Flow K),
    (∀ r i, i < (flow r).nCells → 1 / 10 ^ 15 < (flow r).deltaT i) → (∀ r i, i < (flow r).nCells → 0 < (flow r).rho i) →
    ∀ (w w' : Fin n → Scratch K (m + 1)) (F : Fin n → RankFields K), (∀ r i, i < (flow r).nCells → 0 < (F r).deltaTChem i) →
    ∀ res : Fin n → RankFields K × K,
    solveWorldW (pyJacModel base (D.lib m evalJacob) linearSolve absTol relTol fuel maxSteps) parRun sort clk flow w F
      = .ok (w', res) →
    ∀ r i, i < (flow r).nCells → ¬ Mapped base (flow r) i →
    ∀ x : Nat → K, (∀ s, x s = (res r).1.RR s i * (flow r).deltaT i / (flow r).rho i) →
      (∀ s, s < m → (flow r).Y s i + x s ≠ 0) →
    ∀ (ox fu : String → Option K) (mf : MixtureFraction K), mixFracInitialize (D.mixFracDict ox fu) = .ok mf →
      ∃ z z', massFractionToMixtureFraction mf ((List.range D.nsp).map fun s => (flow r).Y s i) = .ok z ∧
        massFractionToMixtureFraction mf ((List.range D.nsp).map fun s => (flow r).Y s i + x s) = .ok z' ∧
        |z' - z| ≤ 3 / 10 ^ 15 * (∑ s ∈ Finset.range D.nsp,
          (2 * (D.foamCount "C" s : K) + 1 / 2 * (D.foamCount "H" s : K) + (D.foamCount "O" s : K)) / D.molWeight s * |x s|) /
            |mf.beta1 - mf.beta0| := by
  obtain ⟨wt, rt, hwt, key⟩ := C72_rates_conserve_elements (m := m) hm D hD hD1
  refine ⟨wt, rt, hwt, ?_⟩
  intro jac hjac solve absTol relTol hrel fuel maxSteps hsolve n hn base hsp hchem parRun hpar sort hsort clk flow hdt hrho w w' F hsub
    res h r i hi hnm x hx hne ox fu mf hmf
  refine ⟨_, _, mixFracDict_spec hD hmf _, mixFracDict_spec hD hmf _, ?_⟩
  rw [← sub_div, abs_div]
  refine div_le_div_of_nonneg_right ?_ (abs_nonneg _)
  have e : (∑ s ∈ Finset.range D.nsp, couplingNumber D s / D.foamWeight s * ((flow r).Y s i + x s) - mf.beta0) -
      (∑ s ∈ Finset.range D.nsp, couplingNumber D s / D.foamWeight s * (flow r).Y s i - mf.beta0) =
      ∑ s ∈ Finset.range D.nsp, couplingNumber D s / D.foamWeight s * x s := by
    rw [sub_sub_sub_cancel_right, ← Finset.sum_sub_distrib]
    refine Finset.sum_congr rfl fun s _ => ?_
    ring
  rw [e]
  refine coupling_change hD hwt x fun el hel => ?_
  obtain ⟨c1, c2⟩ := cho_of_shipped hD el hel
  have := (key _ c1 c2 jac (hjac el hel) solve absTol relTol hrel fuel maxSteps (hsolve el hel) hn base hsp hchem parRun hpar sort hsort
    clk flow hdt hrho w w' F hsub res h r i hi).2 hnm (fun s hs => by rw [← hx]; exact hne s hs)
  have e2 : ∀ s, (D.atomCount s (D.elements.idxOf el) : K) / wt s * x s =
      (D.atomCount s (D.elements.idxOf el) : K) / wt s * (res r).1.RR s i * ((flow r).deltaT i / (flow r).rho i) := by
    intro s
    rw [hx]
    ring
  rw [Finset.sum_congr rfl fun s _ => e2 s, ← Finset.sum_mul, this, zero_mul]

end

/-! ### C111 -/

theorem sum_single {l : List String} (hl : l.Nodup) (f : String → K) {x : String} (hx : x ∈ l) (a : K) :
    (l.map fun s => f s * if s = x then a else 0).sum = f x * a := by
  induction l with
  | nil => simp at hx
  | cons y l ih =>
    obtain ⟨h1, h2⟩ := List.nodup_cons.1 hl
    rcases List.mem_cons.1 hx with rfl | hx
    · have hz : (l.map fun s => f s * if s = x then a else 0).sum = 0 := by
        refine List.sum_eq_zero ?_
        intro v hv
        obtain ⟨s, hs, rfl⟩ := List.mem_map.1 hv
        rw [if_neg (fun e : s = x => h1 (e ▸ hs)), mul_zero]
      rw [List.map_cons, List.sum_cons, hz, if_pos rfl, add_zero]
    · have : y ≠ x := fun e => h1 (e ▸ hx)
      rw [List.map_cons, List.sum_cons, ih h2 hx, if_neg this, mul_zero, zero_add]


/-- The dictionary of the tutorials. -/
def tutorialDict (K : Type) [Field K] : MixFracDict K :=
  yao.mixFracDict
    (fun s => if s = "N2" then some (77 / 100) else if s = "O2" then some (23 / 100) else none)
    (fun s => if s = "NC12H26" then some 1 else none)

theorem tutorial_oxidizer (s : String) :
    oxidizerStream (tutorialDict K) s = (if s = "N2" then 77 / 100 else 0) + if s = "O2" then 23 / 100 else 0 := by
  unfold oxidizerStream tutorialDict Package.mixFracDict
  by_cases h : s = "N2"
  · simp [h]
  · by_cases h' : s = "O2" <;> simp [h, h']

theorem tutorial_fuel (s : String) : fuelStream (tutorialDict K) s = if s = "NC12H26" then 1 else 0 := by
  unfold fuelStream tutorialDict Package.mixFracDict
  by_cases h : s = "NC12H26" <;> simp [h]

theorem tutorial_nodup : (tutorialDict K).species.Nodup := by
  show yao.foamNames.Nodup
  decide +kernel

theorem tutorial_mem (x : String) (hx : x ∈ ["N2", "O2", "NC12H26"]) : x ∈ (tutorialDict K).species := by
  have : ∀ x ∈ ["N2", "O2", "NC12H26"], x ∈ yao.foamNames := by decide +kernel
  exact this x hx

theorem sum_oxidizer (f : String → K) : ((tutorialDict K).species.map fun s => f s * oxidizerStream (tutorialDict K) s).sum =
    f "N2" * (77 / 100) + f "O2" * (23 / 100) := by
  rw [← sum_single (tutorial_nodup (K := K)) f (tutorial_mem (K := K) "N2" (by simp)), ← sum_single (tutorial_nodup (K := K)) f (tutorial_mem (K := K) "O2" (by simp)),
    ← List.sum_map_add]
  congr 1
  refine List.map_congr_left fun s _ => ?_
  rw [tutorial_oxidizer, mul_add]

theorem sum_fuel (f : String → K) : ((tutorialDict K).species.map fun s => f s * fuelStream (tutorialDict K) s).sum = f "NC12H26" := by
  have := sum_single (tutorial_nodup (K := K)) f (tutorial_mem (K := K) "NC12H26" (by simp)) 1
  rw [mul_one] at this
  rw [← this]
  congr 1

theorem tutorial_weight (x : String) (k c h o : Nat) (w : Nat × Nat) (hx : x ∈ yao.foamNames) (hk : yao.foamNames.idxOf x = k) (hc : yao.foamCount "C" k = c)
    (hh : yao.foamCount "H" k = h) (ho : yao.foamCount "O" k = o) (hw : yao.foamWeights.getD k (0, 0) = w) :
    weight (tutorialDict K) x = (2 * c + 1 / 2 * h - o : K) / (w.1 / 10 ^ w.2) := by
  unfold weight atoms tutorialDict Package.mixFracDict Package.foamWeight
  simp only [hx, if_true, Option.getD_some, hk, hc, hh, ho, hw]
  ring

theorem tutorial_betas : bilger 1 1 1 (tutorialDict K) (oxidizerStream (tutorialDict K)) = -(2 * (23 / 100) / (319988 / 10 ^ 4)) ∧
    bilger 1 1 1 (tutorialDict K) (fuelStream (tutorialDict K)) = 37 / (17033844 / 10 ^ 5) := by
  have h1 : (1 : K) ≠ 0 := one_ne_zero
  rw [bilger_eq h1 h1 h1, bilger_eq h1 h1 h1, sum_oxidizer, sum_fuel,
    tutorial_weight "N2" 53 0 0 0 (2801348, 5) (by decide +kernel) (by decide +kernel) (by decide +kernel) (by decide +kernel)
      (by decide +kernel) (by decide +kernel),
    tutorial_weight "O2" 8 0 0 2 (319988, 4) (by decide +kernel) (by decide +kernel) (by decide +kernel) (by decide +kernel)
      (by decide +kernel) (by decide +kernel),
    tutorial_weight "NC12H26" 44 12 26 0 (17033844, 5) (by decide +kernel) (by decide +kernel) (by decide +kernel) (by decide +kernel)
      (by decide +kernel) (by decide +kernel)]
  constructor <;> norm_num

/-- C111. The settings of the tutorials are accepted: mapping is active with tolerance 10^-4, and the streams have different mixture fractions. -/
theorem C111_settings_are_accepted : ∃ m : RefMapper K, refMapperConstruct tutorialRefmapping = .ok m ∧ m.active = true ∧
    m.Ztolerance = 1 / 10 ^ 4 ∧ mixFracInitialize (tutorialDict K) = .ok m.mixFrac ∧
    mixtureFractionOf m.mixFrac (tutorialDict K) (oxidizerStream (tutorialDict K)) = .ok 0 ∧
    mixtureFractionOf m.mixFrac (tutorialDict K) (fuelStream (tutorialDict K)) = .ok 1 := by
  have h1 : (1 : K) ≠ 0 := one_ne_zero
  obtain ⟨mf, hmf⟩ : ∃ mf, mixFracInitialize (tutorialDict K) = .ok mf := by
    refine (C35_setup_accepts_iff _).1.2 ⟨?_, ?_, ?_⟩
    · intro s hs
      have : s ∈ yao.foamNames := hs
      unfold tutorialDict Package.mixFracDict
      simp [this]
    · have := sum_oxidizer (fun _ => (1 : K))
      simp only [one_mul] at this
      rw [this]
      norm_num
    · have := sum_fuel (fun _ => (1 : K))
      simp only [one_mul] at this
      rw [this]
      norm_num
  have hne : bilger 1 1 1 (tutorialDict K) (fuelStream (tutorialDict K)) ≠ bilger 1 1 1 (tutorialDict K) (oxidizerStream (tutorialDict K)) := by
    rw [tutorial_betas.1, tutorial_betas.2]
    norm_num
  refine ⟨⟨true, 1 / 10 ^ 4, Consts.vGreat, mf⟩, ?_, rfl, rfl, hmf, (C32_zero_in_oxidizer_one_in_fuel _ mf hmf 1 1 1 h1 h1 h1).1 hne⟩
  have e : (tutorialRefmapping : RefMapDict K).mixFrac = some (tutorialDict K) := rfl
  unfold refMapperConstruct
  simp only [e, hmf, bind, Except.bind]
  rfl

/-- C111. In the tutorials every cell with the elements of a blend of the two streams, burnt or not, is a candidate for mapping exactly if less than 10^-4
of its mass is from the fuel stream. -/
theorem C111_blends (m : RefMapper K) (hm : refMapperConstruct tutorialRefmapping = .ok m) (z : K) (Y : String → K)
    (hY : SameElements (tutorialDict K) Y (blend (tutorialDict K) z)) :
    shouldMap m (yao.foamNames.map Y) = .ok true ↔ z < 1 / 10 ^ 4 := by
  obtain ⟨m', h1, h2, h3, h4, -⟩ := C111_settings_are_accepted (K := K)
  rw [hm, Except.ok.injEq] at h1
  subst h1
  rw [← h3]
  refine (C110_share_of_fuel m h2 _ h4 ?_ z Y hY).2
  rw [tutorial_betas.1, tutorial_betas.2]
  norm_num

/-- C111. In the tutorials every candidate for mapping, with any composition without negative mass fractions, consists of oxygen atoms to at least 22.96 %
(oxidiser: 23 %). -/
theorem C111_candidates_have_oxygen (m : RefMapper K) (hm : refMapperConstruct tutorialRefmapping = .ok m) (Y : String → K)
    (hY : ∀ s ∈ yao.foamNames, 0 ≤ Y s) (h : shouldMap m (yao.foamNames.map Y) = .ok true) :
    2296 / 10 ^ 4 < elementMassFraction Elements.O (159994 / 10 ^ 4) (tutorialDict K) Y := by
  obtain ⟨m', h1, h2, h3, h4, -⟩ := C111_settings_are_accepted (K := K)
  rw [hm, Except.ok.injEq] at h1
  subst h1
  have hO : (159994 / 10 ^ 4 : K) ≠ 0 := by norm_num
  have n1 : (1 : K) ≠ 0 := one_ne_zero
  have hz := (C34_bilger _ _ h4 1 1 (159994 / 10 ^ 4) n1 n1 hO Y).1
  have b1 : ∀ X : String → K, bilger 1 1 (159994 / 10 ^ 4) (tutorialDict K) X = bilger 1 1 1 (tutorialDict K) X := by
    intro X
    rw [bilger_eq n1 n1 hO, bilger_eq n1 n1 n1]
  have hs := shouldMap_iff h2 hz
  have hsp : (tutorialDict K).species = yao.foamNames := rfl
  rw [hsp, h] at hs
  simp only [Except.ok.injEq] at hs
  have hs := of_decide_eq_true hs.symm
  rw [b1 (oxidizerStream _), b1 (fuelStream _), tutorial_betas.1, tutorial_betas.2, h3] at hs
  have hC : ∀ el : Elements → Option Nat, 0 ≤ elementMassFraction el 1 (tutorialDict K) Y := by
    intro el
    unfold elementMassFraction
    refine List.sum_nonneg ?_
    intro v hv
    obtain ⟨s, hs, rfl⟩ := List.mem_map.1 hv
    refine mul_nonneg (div_nonneg (by positivity) ?_) (hY s hs)
    unfold tutorialDict Package.mixFracDict Package.foamWeight
    positivity
  have c1 := hC Elements.C
  have c2 := hC Elements.H
  have hb : 0 < (37 / (17033844 / 10 ^ 5) - -(2 * (23 / 100) / (319988 / 10 ^ 4)) : K) := by norm_num
  rw [div_lt_iff₀ hb] at hs
  unfold bilger at hs
  generalize elementMassFraction Elements.O (159994 / 10 ^ 4) (tutorialDict K) Y = o at *
  generalize elementMassFraction Elements.C 1 (tutorialDict K) Y = c at *
  generalize elementMassFraction Elements.H 1 (tutorialDict K) Y = hh at *
  norm_num at hs ⊢
  linarith

/-- C111. But candidates need not be free of fuel: a mixture of 7 % fuel in air enriched with oxygen, which can burn, is one (its mixture fraction is
negative), so a cell with it can get the rates of any other candidate, such as pure air. -/
theorem C111_a_reactive_mixture_is_mapped : ∃ (m : RefMapper ℚ) (Y : String → ℚ), refMapperConstruct tutorialRefmapping = .ok m ∧
    (∀ s, 0 ≤ Y s) ∧ (yao.foamNames.map Y).sum = 1 ∧ Y "NC12H26" = 7 / 100 ∧ Y "O2" = 1 / 2 ∧
    shouldMap m (yao.foamNames.map Y) = .ok true := by
  obtain ⟨m, h1, h2, h3, h4, -⟩ := C111_settings_are_accepted (K := ℚ)
  have hb : (refMapperConstruct (tutorialRefmapping : RefMapDict ℚ)).toOption.bind (fun m =>
      (shouldMap m (yao.foamNames.map fun s => if s = "O2" then 1 / 2 else if s = "NC12H26" then 7 / 100 else if s = "N2" then 43 / 100 else 0)).toOption)
      = some true := by decide +kernel
  refine ⟨m, fun s => if s = "O2" then 1 / 2 else if s = "NC12H26" then 7 / 100 else if s = "N2" then 43 / 100 else 0, h1, ?_,
    by decide +kernel, by decide +kernel, by decide +kernel, ?_⟩
  · intro s
    dsimp only
    split_ifs <;> norm_num
  · rw [h1] at hb
    simp only [Except.toOption, Option.bind_some] at hb
    split at hb
    · rename_i e
      simp only [Option.some.injEq] at hb
      rw [e, hb]
    · simp at hb

/-! ### Concrete cases -/

/-- 1/1000 of fuel and 999/1000 of oxidiser of the tutorials, completely burnt. -/
def burnt (s : String) : ℚ :=
  let nf : ℚ := 1 / 1000 / (tutorialDict ℚ).W "NC12H26"
  let no : ℚ := 999 / 1000 * (23 / 100) / (tutorialDict ℚ).W "O2"
  (if s = "CO2" then 12 * nf else if s = "H2O" then 13 * nf else if s = "O2" then no - 37 / 2 * nf else 0) * (tutorialDict ℚ).W s +
    if s = "N2" then 999 / 1000 * (77 / 100) else 0

/-- C110 and C111: the burnt mixture has no fuel, no negative mass fraction, and the elements of the blend, but is not a blend. -/
example : SameElements (tutorialDict ℚ) burnt (blend (tutorialDict ℚ) (1 / 1000)) ∧ (∀ s ∈ yao.foamNames, 0 ≤ burnt s) ∧ burnt "NC12H26" = 0 ∧
    blend (tutorialDict ℚ) (1 / 1000) "NC12H26" = 1 / 1000 :=
  ⟨⟨by decide +kernel, by decide +kernel, by decide +kernel⟩, by decide +kernel, by decide +kernel, by decide +kernel⟩

open Spec in
/-- C110, full stack: yao over the reals, the three elements, a solver that solves regular systems, and a Jacobian that is zero. -/
example (w : Nat → ℝ) :
    yao ∈ shipped ∧ yao.nsp = 53 + 1 ∧
    (∀ el ∈ ["C", "H", "O"], JacobianConserves (m := 53) yao w (yao.elements.idxOf el) (fun _ _ _ => 0)) ∧
    (letI := realMath
     ∀ el ∈ ["C", "H", "O"], SolvesCombination (pyJacEnv (yao.lib 53 (fun _ _ _ => 0)) (fun a b => (columnMajor 55 a)⁻¹.mulVec b) (fun _ => 1)
      (fun _ => 1 / 1000) 10) (elementVector yao w (yao.elements.idxOf el))) := by
  refine ⟨by simp [shipped], by decide +kernel, fun _ _ p y j _ => by simp, ?_⟩
  let := realMath
  intro el _
  refine solvesCombination_of_regular (lapackContract_inverse 55) (fun x z h hh => ?_) _
  have : Matrix.of ((pyJacEnv (yao.lib 53 (fun _ _ _ => (0 : ℝ))) (fun a b => (columnMajor 55 a)⁻¹.mulVec b) (fun _ => 1)
      (fun _ => 1 / 1000) 10).jacobian x z) = 0 := by
    ext i j
    simp [pyJacEnv, pyJacJacobian, Package.lib]
  unfold Regular
  rw [this, sub_zero, Matrix.det_smul, Matrix.det_one, mul_one]
  positivity

end DLB
