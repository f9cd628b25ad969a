import Verif.Model.RefMap
import Verif.Model.Exact
import Mathlib.Algebra.Order.Field.Basic
import Mathlib.Tactic.FieldSimp
import Mathlib.Tactic.Ring
import Mathlib.Tactic.Linarith
/-
C32-C35: the mixture fraction, in exact arithmetic.
-/
set_option autoImplicit false
set_option linter.unusedSectionVars false

namespace DLB

variable {K : Type} [Field K] [LinearOrder K] [IsStrictOrderedRing K]

/-! ### Specification -/

/-- Number of atoms of an element in a species, from the input dictionary. -/
def atoms (el : Elements → Option Nat) (d : MixFracDict K) (s : String) : Nat :=
  match d.elements s with
  | none => 0
  | some e => (el e).getD 0

/-- Mass fraction of an element with atomic weight `We` in the composition `Y`. -/
def elementMassFraction (el : Elements → Option Nat) (We : K) (d : MixFracDict K)
    (Y : String → K) : K :=
  (d.species.map (fun s => (atoms el d s : K) * We / d.W s * Y s)).sum

/-- Bilger's coupling function of the composition `Y`, with atomic weights `WC`, `WH`, `WO`. -/
def bilger (WC WH WO : K) (d : MixFracDict K) (Y : String → K) : K :=
  2 * (elementMassFraction Elements.C WC d Y / WC) +
    1 / 2 * (elementMassFraction Elements.H WH d Y / WH) -
    elementMassFraction Elements.O WO d Y / WO

/-- The compositions of the two streams: species that are not named count as zero. -/
def oxidizerStream (d : MixFracDict K) (s : String) : K := (d.oxidizer s).getD 0
def fuelStream (d : MixFracDict K) (s : String) : K := (d.fuel s).getD 0

/-- The mixture fraction computed for composition `Y`. -/
def mixtureFractionOf (m : MixtureFraction K) (d : MixFracDict K) (Y : String → K) :
    Except Fault K :=
  massFractionToMixtureFraction m (d.species.map Y)

/-! ### Lemmas -/

/-- The weight of a species in the coupling function. -/
def weight (d : MixFracDict K) (s : String) : K :=
  2 * (atoms Elements.C d s : K) / d.W s + 1 / 2 * (atoms Elements.H d s : K) / d.W s +
    -1 * (atoms Elements.O d s : K) / d.W s

theorem mixFracAlpha_ok {d : MixFracDict K} {s : String} {a : K} :
    mixFracAlpha d s = .ok a ↔ (d.elements s).isSome ∧ a = weight d s := by
  unfold mixFracAlpha weight atoms
  cases h : d.elements s with
  | none => simp
  | some e =>
    simp only [Except.ok.injEq, Consts.two, Consts.half, Consts.one, Option.isSome_some, true_and]
    exact eq_comm

theorem mapM_alpha (d : MixFracDict K) : ∀ (l : List String) (as : List K),
    l.mapM (mixFracAlpha d) = .ok as ↔
      (∀ s ∈ l, (d.elements s).isSome) ∧ as = l.map (weight d)
  | [], as => by
    simp only [List.mapM_nil, pure, Except.pure, Except.ok.injEq, List.map_nil]
    constructor
    · rintro rfl; exact ⟨by simp, rfl⟩
    · rintro ⟨_, rfl⟩; rfl
  | s :: l, as => by
    rw [List.mapM_cons]
    simp only [bind, Except.bind, pure, Except.pure]
    cases h1 : mixFracAlpha d s with
    | error e =>
      simp only [reduceCtorEq, List.mem_cons, forall_eq_or_imp, false_iff, not_and]
      intro h _
      have := (mixFracAlpha_ok (d := d) (s := s) (a := weight d s)).2 ⟨h.1, rfl⟩
      rw [h1] at this; cases this
    | ok a =>
      obtain ⟨h2, rfl⟩ := mixFracAlpha_ok.1 h1
      cases h3 : l.mapM (mixFracAlpha d) with
      | error e =>
        simp only [reduceCtorEq, List.mem_cons, forall_eq_or_imp, false_iff, not_and]
        intro h _
        have := (mapM_alpha d l (l.map (weight d))).2 ⟨h.2, rfl⟩
        rw [h3] at this; cases this
      | ok as' =>
        obtain ⟨h4, rfl⟩ := (mapM_alpha d l as').1 h3
        simp only [Except.ok.injEq, List.mem_cons, forall_eq_or_imp, List.map_cons]
        constructor
        · rintro rfl; exact ⟨⟨h2, h4⟩, rfl⟩
        · rintro ⟨_, rfl⟩; rfl

theorem dotAcc_map (f Y : String → K) : ∀ (l : List String) (acc : K),
    dotAcc acc (l.map f) (l.map Y) = .ok (acc + (l.map (fun s => f s * Y s)).sum)
  | [], acc => by simp [dotAcc]
  | s :: l, acc => by
    simp only [List.map_cons, dotAcc, dotAcc_map f Y l, List.sum_cons, add_assoc]

theorem foldl_sum (l : List K) : ∀ acc : K, l.foldl (· + ·) acc = acc + l.sum := by
  induction l with
  | nil => simp
  | cons a l ih => intro acc; simp [ih, add_assoc]

theorem bilger_eq {WC WH WO : K} (hC : WC ≠ 0) (hH : WH ≠ 0) (hO : WO ≠ 0) (d : MixFracDict K)
    (Y : String → K) :
    bilger WC WH WO d Y = (d.species.map (fun s => weight d s * Y s)).sum := by
  unfold bilger elementMassFraction
  induction d.species with
  | nil => simp
  | cons s l ih =>
    simp only [List.map_cons, List.sum_cons]
    rw [← ih]
    have e1 : ∀ (n W w y t : K), w ≠ 0 → (n * w / W * y + t) / w = n / W * y + t / w := by
      intro n W w y t hw
      rw [add_div]
      congr 1
      rw [show n * w / W * y = n / W * y * w by ring, mul_div_assoc, div_self hw, mul_one]
    rw [e1 _ _ _ _ _ hC, e1 _ _ _ _ _ hH, e1 _ _ _ _ _ hO]
    unfold weight
    ring

theorem absS_le_iff (x t : K) : ¬ t < absS x ↔ |x| ≤ t := by
  have h : absS x = |x| := by
    unfold absS
    split
    · next h => rw [abs_of_neg h]
    · next h => rw [abs_of_nonneg (not_lt.1 h)]
  rw [h, not_lt]

/-! ### Properties -/

/-- C35: setup succeeds exactly if every species has an entry with its elements and both streams
sum to one up to the tolerance `SMALL` = 1e-15; otherwise it is a fatal error. -/
theorem C35_setup_accepts_iff (d : MixFracDict K) :
    ((∃ m, mixFracInitialize d = .ok m) ↔
      (∀ s ∈ d.species, (d.elements s).isSome) ∧
      |1 - (d.species.map (oxidizerStream d)).sum| ≤ 1 / 10 ^ 15 ∧
      |1 - (d.species.map (fuelStream d)).sum| ≤ 1 / 10 ^ 15) ∧
    ((¬ ∃ m, mixFracInitialize d = .ok m) → mixFracInitialize d = .error .fatal) := by
  have hmap : ∀ e, d.species.mapM (mixFracAlpha d) = .error e → e = .fatal := by
    intro e
    generalize d.species = l
    induction l with
    | nil => simp [pure, Except.pure]
    | cons s l ih =>
      rw [List.mapM_cons]
      simp only [bind, Except.bind, pure, Except.pure]
      cases h1 : mixFracAlpha d s with
      | error e' =>
        intro h
        simp only [Except.error.injEq] at h
        subst h
        unfold mixFracAlpha at h1
        split at h1
        · simpa using h1.symm
        · simp at h1
      | ok a =>
        cases h3 : l.mapM (mixFracAlpha d) with
        | error e' =>
          intro h
          simp only [Except.error.injEq] at h
          subst h
          exact ih h3
        | ok as => intro h; simp at h
  unfold mixFracInitialize
  simp only [bind, Except.bind]
  cases hm : d.species.mapM (mixFracAlpha d) with
  | error e =>
    obtain rfl := hmap e hm
    refine ⟨⟨(by rintro ⟨m, h⟩; cases h), ?_⟩, fun _ => rfl⟩
    rintro ⟨h, -⟩
    exfalso
    have := (mapM_alpha d d.species (d.species.map (weight d))).2 ⟨h, rfl⟩
    rw [hm] at this; cases this
  | ok al =>
    obtain ⟨h1, rfl⟩ := (mapM_alpha d d.species al).1 hm
    simp only [dotAcc_map, foldl_sum, zero_add]
    have hx : ∀ p q : Prop, ¬ (p ∨ q) ↔ ¬ p ∧ ¬ q := fun p q => not_or
    split
    · next hbad =>
      refine ⟨⟨?_, ?_⟩, fun _ => rfl⟩
      · rintro ⟨m, hm⟩; cases hm
      · rintro ⟨_, h2, h3⟩
        exfalso
        rcases hbad with hb | hb
        · exact (absS_le_iff _ _).2 h2 hb
        · exact (absS_le_iff _ _).2 h3 hb
    · next hgood =>
      rw [hx, absS_le_iff, absS_le_iff] at hgood
      refine ⟨⟨fun _ => ⟨h1, hgood.1, hgood.2⟩, fun _ => ⟨_, rfl⟩⟩, ?_⟩
      intro hne
      exact absurd ⟨_, rfl⟩ hne

theorem mixFrac_spec {d : MixFracDict K} {m : MixtureFraction K} (h : mixFracInitialize d = .ok m)
    {WC WH WO : K} (hC : WC ≠ 0) (hH : WH ≠ 0) (hO : WO ≠ 0) :
    m.alpha = d.species.map (weight d) ∧ m.beta0 = bilger WC WH WO d (oxidizerStream d) ∧
      m.beta1 = bilger WC WH WO d (fuelStream d) := by
  unfold mixFracInitialize at h
  simp only [bind, Except.bind] at h
  cases hm : d.species.mapM (mixFracAlpha d) with
  | error e => simp [hm] at h
  | ok al =>
    obtain ⟨h1, rfl⟩ := (mapM_alpha d d.species al).1 hm
    simp only [hm, dotAcc_map, zero_add] at h
    split at h
    · simp at h
    · simp only [Except.ok.injEq] at h
      subst h
      rw [bilger_eq hC hH hO, bilger_eq hC hH hO]
      exact ⟨rfl, rfl, rfl⟩

/-- C34: for all species, weights, element counts, streams and compositions the value computed is
`(β - β_ox)/(β_fuel - β_ox)` with Bilger's coupling function, whatever non-zero atomic weights are
used in that definition; a composition with `β = 0` has the stoichiometric value. -/
theorem C34_bilger (d : MixFracDict K) (m : MixtureFraction K) (h : mixFracInitialize d = .ok m)
    (WC WH WO : K) (hC : WC ≠ 0) (hH : WH ≠ 0) (hO : WO ≠ 0) (Y : String → K) :
    mixtureFractionOf m d Y = .ok
      ((bilger WC WH WO d Y - bilger WC WH WO d (oxidizerStream d)) /
        (bilger WC WH WO d (fuelStream d) - bilger WC WH WO d (oxidizerStream d))) ∧
    (bilger WC WH WO d Y = 0 → mixtureFractionOf m d Y = .ok (stoichMixtureFraction m)) ∧
    (bilger WC WH WO d (fuelStream d) ≠ bilger WC WH WO d (oxidizerStream d) →
      mixtureFractionOf m d Y = .ok (stoichMixtureFraction m) → bilger WC WH WO d Y = 0) := by
  obtain ⟨h1, h2, h3⟩ := mixFrac_spec h hC hH hO
  have key : mixtureFractionOf m d Y = .ok
      ((bilger WC WH WO d Y - bilger WC WH WO d (oxidizerStream d)) /
        (bilger WC WH WO d (fuelStream d) - bilger WC WH WO d (oxidizerStream d))) := by
    unfold mixtureFractionOf massFractionToMixtureFraction
    simp only [bind, Except.bind, h1, dotAcc_map, zero_add, ← bilger_eq hC hH hO, h2, h3]
  refine ⟨key, ?_, ?_⟩
  · intro hb
    rw [key, hb, stoichMixtureFraction, h2, h3]
  · intro hne hb
    rw [key, stoichMixtureFraction, h2, h3, Except.ok.injEq] at hb
    have hD := sub_ne_zero.2 hne
    rw [div_left_inj' hD] at hb
    simpa using hb

/-- C32: 0 for the oxidiser and 1 for the fuel, if their coupling functions differ. -/
theorem C32_zero_in_oxidizer_one_in_fuel (d : MixFracDict K) (m : MixtureFraction K)
    (h : mixFracInitialize d = .ok m) (WC WH WO : K) (hC : WC ≠ 0) (hH : WH ≠ 0) (hO : WO ≠ 0) :
    (bilger WC WH WO d (fuelStream d) ≠ bilger WC WH WO d (oxidizerStream d) →
      mixtureFractionOf m d (oxidizerStream d) = .ok 0 ∧
      mixtureFractionOf m d (fuelStream d) = .ok 1) ∧
    -- otherwise the code divides by zero
    (bilger WC WH WO d (fuelStream d) = bilger WC WH WO d (oxidizerStream d) →
      m.beta1 - m.beta0 = 0) := by
  refine ⟨fun hne => ⟨?_, ?_⟩, ?_⟩
  · rw [(C34_bilger d m h WC WH WO hC hH hO _).1, sub_self, zero_div]
  · rw [(C34_bilger d m h WC WH WO hC hH hO _).1, div_self (sub_ne_zero.2 hne)]
  · intro heq
    obtain ⟨_, h2, h3⟩ := mixFrac_spec h hC hH hO
    rw [h2, h3, heq, sub_self]

/-- C33, affine combinations. -/
theorem C33_affine (d : MixFracDict K) (m : MixtureFraction K) (h : mixFracInitialize d = .ok m)
    (a b : K) (hab : a + b = 1) (Y Y' : String → K) (z z' : K)
    (hz : mixtureFractionOf m d Y = .ok z) (hz' : mixtureFractionOf m d Y' = .ok z') :
    mixtureFractionOf m d (fun s => a * Y s + b * Y' s) = .ok (a * z + b * z') := by
  have h1 : (1 : K) ≠ 0 := one_ne_zero
  rw [(C34_bilger d m h 1 1 1 h1 h1 h1 _).1, Except.ok.injEq] at hz hz'
  rw [(C34_bilger d m h 1 1 1 h1 h1 h1 _).1, Except.ok.injEq, ← hz, ← hz']
  have hlin : bilger 1 1 1 d (fun s => a * Y s + b * Y' s) =
      a * bilger 1 1 1 d Y + b * bilger 1 1 1 d Y' := by
    rw [bilger_eq h1 h1 h1, bilger_eq h1 h1 h1, bilger_eq h1 h1 h1]
    induction d.species with
    | nil => simp
    | cons s l ih =>
      simp only [List.map_cons, List.sum_cons, ih]
      ring
  rw [hlin, ← mul_div_assoc, ← mul_div_assoc, ← add_div]
  congr 1
  have : b = 1 - a := by rw [← hab]; ring
  rw [this]; ring

/-- C33, mixing fuel and oxidiser with weights `z` and `1 - z` gives `z`. -/
theorem C33_mixing (d : MixFracDict K) (m : MixtureFraction K) (h : mixFracInitialize d = .ok m)
    (hne : bilger 1 1 1 d (fuelStream d) ≠ bilger 1 1 1 d (oxidizerStream d)) (z : K) :
    mixtureFractionOf m d (fun s => z * fuelStream d s + (1 - z) * oxidizerStream d s) =
      .ok z := by
  have h1 : (1 : K) ≠ 0 := one_ne_zero
  obtain ⟨hox, hfu⟩ := (C32_zero_in_oxidizer_one_in_fuel d m h 1 1 1 h1 h1 h1).1 hne
  have := C33_affine d m h z (1 - z) (by ring) _ _ 1 0 hfu hox
  simpa using this

/-- C33, inert species: compositions that differ only in species without C, H and O have the same
mixture fraction. -/
theorem C33_inert_species (d : MixFracDict K) (m : MixtureFraction K)
    (h : mixFracInitialize d = .ok m) (Y Y' : String → K)
    (hY : ∀ s ∈ d.species, Y s = Y' s ∨
      (atoms Elements.C d s = 0 ∧ atoms Elements.H d s = 0 ∧ atoms Elements.O d s = 0)) :
    mixtureFractionOf m d Y = mixtureFractionOf m d Y' := by
  have h1 : (1 : K) ≠ 0 := one_ne_zero
  rw [(C34_bilger d m h 1 1 1 h1 h1 h1 _).1, (C34_bilger d m h 1 1 1 h1 h1 h1 _).1]
  have : bilger 1 1 1 d Y = bilger 1 1 1 d Y' := by
    rw [bilger_eq h1 h1 h1, bilger_eq h1 h1 h1]
    congr 1
    refine List.map_congr_left fun s hs => ?_
    rcases hY s hs with h | ⟨hc, hh, ho⟩
    · rw [h]
    · simp [weight, hc, hh, ho]
  rw [this]

/-- C35, the reference mapper: without `active` (or with `active` off) construction succeeds
whatever the other entries are and no cell is a candidate; with `active` on it succeeds exactly if
there is a mixture fraction dictionary that is accepted, and the mapper is then on, with that mixture
fraction and the tolerances given or their defaults. -/
theorem C35_mapper_construction (d : RefMapDict K) :
    (d.active.getD false = false → ∃ m, refMapperConstruct d = .ok m ∧
      ∀ y, shouldMap m y = .ok false) ∧
    (d.active.getD false = true → ∀ m, refMapperConstruct d = .ok m ↔
      m.active = true ∧ m.Ztolerance = d.tolerance.getD (1 / 10 ^ 4) ∧
      m.Ttolerance = d.deltaT.getD Consts.vGreat ∧
      ∃ md, d.mixFrac = some md ∧ mixFracInitialize md = .ok m.mixFrac) ∧
    (∀ m, refMapperConstruct d = .ok m → d.tolerance = none → m.Ztolerance = 1 / 10 ^ 4) ∧
    (∀ m, refMapperConstruct d = .ok m → d.deltaT = none → ∀ T T' : K, |T - T'| < 10 ^ 300 →
      temperatureWithinRange m T T' = true) := by
  have habs : ∀ x : K, absS x = |x| := by
    intro x
    unfold absS
    split
    · next h => rw [abs_of_neg h]
    · next h => rw [abs_of_nonneg (not_lt.1 h)]
  have htol : ∀ m, refMapperConstruct d = .ok m →
      m.Ztolerance = d.tolerance.getD Consts.Ztol ∧ m.Ttolerance = d.deltaT.getD Consts.vGreat := by
    intro m hm
    unfold refMapperConstruct at hm
    split at hm
    · split at hm
      · simp at hm
      · next md _ =>
        cases h : mixFracInitialize md with
        | error e => simp [h, bind, Except.bind] at hm
        | ok mf =>
          simp only [h, bind, Except.bind, Except.ok.injEq] at hm
          subst hm; exact ⟨rfl, rfl⟩
    · simp only [Except.ok.injEq] at hm
      subst hm; exact ⟨rfl, rfl⟩
  refine ⟨?_, ?_, ?_, ?_⟩
  · intro ha
    unfold refMapperConstruct
    simp [ha, shouldMap]
  · intro ha
    unfold refMapperConstruct
    intro m
    simp only [ha, if_true]
    cases hmd : d.mixFrac with
    | none => simp
    | some md =>
      simp only [bind, Except.bind, Option.some.injEq]
      cases h : mixFracInitialize md with
      | error e => simp [h]
      | ok mf =>
        obtain ⟨a, b, c, e⟩ := m
        simp only [Except.ok.injEq, RefMapper.mk.injEq, exists_eq_left', h]
        exact ⟨fun ⟨h1, h2, h3, h4⟩ => ⟨h1.symm, h2.symm, h3.symm, h4⟩,
          fun ⟨h1, h2, h3, h4⟩ => ⟨h1.symm, h2.symm, h3.symm, h4⟩⟩
  · intro m hm ht
    rw [(htol m hm).1, ht]; rfl
  · intro m hm ht T T' hT
    unfold temperatureWithinRange
    rw [(htol m hm).2, ht, habs]
    exact decide_eq_true hT

/-! ### Concrete case: methane and air with four species -/

namespace Example

/-- Methane/air: species O2, N2, CH4, CO2. -/
def methane : MixFracDict ℚ where
  species := ["O2", "N2", "CH4", "CO2"]
  W s := if s = "O2" then 32 else if s = "N2" then 28 else if s = "CH4" then 16 else 44
  elements s :=
    if s = "O2" then some ⟨none, none, some 2⟩
    else if s = "N2" then some ⟨none, none, none⟩
    else if s = "CH4" then some ⟨some 1, some 4, none⟩
    else some ⟨some 1, none, some 2⟩
  oxidizer s := if s = "O2" then some (23 / 100) else if s = "N2" then some (77 / 100) else none
  fuel s := if s = "CH4" then some 1 else none

/-- The same with fuel and oxidiser both air. -/
def airInAir : MixFracDict ℚ := { methane with fuel := methane.oxidizer }

end Example

/-- C35, C34, C32, C33: setup succeeds; the stoichiometric value is the textbook one (0.0544); a
lean mixture has mixture fraction 1/100. -/
example : ((mixFracInitialize Example.methane).toOption.map (fun m =>
      (stoichMixtureFraction m,
       (mixtureFractionOf m Example.methane (fuelStream Example.methane)).toOption,
       (mixtureFractionOf m Example.methane (oxidizerStream Example.methane)).toOption,
       (mixtureFractionOf m Example.methane (fun s => 1 / 100 * fuelStream Example.methane s +
          (1 - 1 / 100) * oxidizerStream Example.methane s)).toOption))) =
    some (23 / 423, some 1, some 0, some (1 / 100)) := by decide +kernel

/-- C32: equal streams are accepted by the setup, and lead to a division by zero. -/
theorem C32_equal_streams_are_accepted :
    ∃ m, mixFracInitialize Example.airInAir = .ok m ∧ m.beta1 - m.beta0 = 0 := by
  have h : (mixFracInitialize Example.airInAir).toOption.map (fun m => m.beta1 - m.beta0) =
      some 0 := by decide +kernel
  cases hm : mixFracInitialize Example.airInAir with
  | error e => rw [hm] at h; simp [Except.toOption] at h
  | ok m => rw [hm] at h; exact ⟨m, rfl, by simpa [Except.toOption] using h⟩

/-- C35: a fuel stream that sums to 1 - 1e-14 is rejected. -/
example : (mixFracInitialize { Example.methane with
      fuel := fun s => if s = "CH4" then some (1 - 1 / 10 ^ 14) else none }).toOption.isNone =
    true := by decide +kernel

end DLB
