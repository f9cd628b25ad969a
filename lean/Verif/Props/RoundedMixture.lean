import Verif.Props.RoundedChemistry
import Verif.Model.RefMap
/-
C103, C104: the mixture fraction in arithmetic with rounding.
-/
set_option autoImplicit false
set_option linter.unusedSectionVars false

namespace DLB

variable {K : Type} [Field K] [LinearOrder K] [IsStrictOrderedRing K] {F : FloatFormat K}

/-! ### C103 -/

theorem fl_mixFracInitialize_ok {d : MixFracDict (Fl F)} {m : MixtureFraction (Fl F)}
    (h : mixFracInitialize d = .ok m) :
    d.species.mapM (mixFracAlpha d) = .ok m.alpha ∧
    dotAcc 0 m.alpha (d.species.map (fun s => (d.oxidizer s).getD 0)) = .ok m.beta0 ∧
    dotAcc 0 m.alpha (d.species.map (fun s => (d.fuel s).getD 0)) = .ok m.beta1 := by
  unfold mixFracInitialize at h
  cases hm : d.species.mapM (mixFracAlpha d) with
  | error e => simp [hm, bind, Except.bind] at h
  | ok al =>
    simp only [hm, bind, Except.bind] at h
    split at h
    · simp at h
    · cases h0 : dotAcc 0 al (d.species.map (fun s => (d.oxidizer s).getD 0)) with
      | error e => simp [h0] at h
      | ok b0 =>
        cases h1 : dotAcc 0 al (d.species.map (fun s => (d.fuel s).getD 0)) with
        | error e => simp [h0, h1] at h
        | ok b1 =>
          simp only [h0, h1, Except.ok.injEq] at h
          subst h
          exact ⟨rfl, h0, h1⟩

/-- The difference of different numbers is not zero (gradual underflow). -/
theorem Fl.sub_ne_zero (hF : F.Usual) {a b : Fl F} (h : a ≠ b) : (a - b).val ≠ 0 := by
  intro h0
  have h1 := F.near_sub a.ok b.ok
  rw [← Fl.val_sub, h0, zero_sub, abs_neg] at h1
  have hu := hF.u_le
  have h2 : 0 < |a.val - b.val| := abs_pos.2 (_root_.sub_ne_zero.2 fun e => h (Fl.ext e))
  have h3 : F.u * |a.val - b.val| ≤ 1 / 10 * |a.val - b.val| := mul_le_mul_of_nonneg_right hu h2.le
  linarith

/-- **C103.** With rounding: if the coupling functions computed for the two streams differ, the mixture
fraction is exactly zero in the oxidiser and exactly one in the fuel. -/
theorem C103_zero_in_oxidizer_one_in_fuel_with_rounding (hF : F.Usual) (d : MixFracDict (Fl F))
    (m : MixtureFraction (Fl F)) (h : mixFracInitialize d = .ok m) (hne : m.beta1 ≠ m.beta0) :
    (massFractionToMixtureFraction m (d.species.map (fun s => (d.oxidizer s).getD 0))).map Fl.val
      = .ok 0 ∧
    (massFractionToMixtureFraction m (d.species.map (fun s => (d.fuel s).getD 0))).map Fl.val
      = .ok 1 := by
  obtain ⟨-, h0, h1⟩ := fl_mixFracInitialize_ok h
  constructor
  · simp only [massFractionToMixtureFraction, h0, bind, Except.bind, Except.map, Fl.sub_self]
    rw [Fl.val_div, Fl.val_zero, zero_div, F.rnd_zero]
  · simp only [massFractionToMixtureFraction, h1, bind, Except.bind, Except.map]
    rw [Fl.val_div, div_self (Fl.sub_ne_zero hF hne), hF.one]

/-- A species without C, H and O has weight zero. -/
theorem fl_alpha_zero {d : MixFracDict (Fl F)} {s : String} {e : Elements}
    (he : d.elements s = some e) (hC : e.C.getD 0 = 0) (hH : e.H.getD 0 = 0) (hO : e.O.getD 0 = 0)
    {a : Fl F} (h : mixFracAlpha d s = .ok a) : a.val = 0 := by
  unfold mixFracAlpha at h
  rw [he] at h
  simp only [hC, hH, hO, Except.ok.injEq] at h
  subst h
  have hz : ((0 : ℕ) : Fl F).val = 0 := by rw [Fl.val_cast, Nat.cast_zero, F.rnd_zero]
  simp only [Fl.val_add, Fl.val_div, Fl.val_mul, hz, mul_zero, F.rnd_zero, zero_div, add_zero]

theorem fl_dotAcc_inert {d : MixFracDict (Fl F)} (Y Y' : String → Fl F) :
    ∀ (l : List String) (al : List (Fl F)) (acc : Fl F), l.mapM (mixFracAlpha d) = .ok al →
    (∀ s ∈ l, Y s = Y' s ∨ ∃ e, d.elements s = some e ∧ e.C.getD 0 = 0 ∧ e.H.getD 0 = 0 ∧
      e.O.getD 0 = 0) → dotAcc acc al (l.map Y) = dotAcc acc al (l.map Y')
  | [], al, acc, _, _ => rfl
  | s :: l, al, acc, h, hY => by
    rw [List.mapM_cons] at h
    simp only [bind, Except.bind, pure, Except.pure] at h
    cases h1 : mixFracAlpha d s with
    | error e => simp [h1] at h
    | ok a =>
      cases h2 : l.mapM (mixFracAlpha d) with
      | error e => simp [h1, h2] at h
      | ok al' =>
        simp only [h1, h2, Except.ok.injEq] at h
        subst h
        simp only [List.map_cons, dotAcc]
        have e1 : acc + a * Y s = acc + a * Y' s := by
          rcases hY s (by simp) with e | ⟨e, he, hC, hH, hO⟩
          · rw [e]
          · have ha := fl_alpha_zero he hC hH hO h1
            apply Fl.ext
            simp only [Fl.val_add, Fl.val_mul, ha, zero_mul]
        rw [e1]
        exact fl_dotAcc_inert Y Y' l al' _ h2 fun t ht => hY t (by simp [ht])

/-- **C103, inert species.** With rounding, compositions that differ only in species without C, H and O
have exactly the same mixture fraction. -/
theorem C103_inert_species_with_rounding (d : MixFracDict (Fl F)) (m : MixtureFraction (Fl F))
    (h : mixFracInitialize d = .ok m) (Y Y' : String → Fl F)
    (hY : ∀ s ∈ d.species, Y s = Y' s ∨ ∃ e, d.elements s = some e ∧ e.C.getD 0 = 0 ∧
      e.H.getD 0 = 0 ∧ e.O.getD 0 = 0) :
    massFractionToMixtureFraction m (d.species.map Y) =
      massFractionToMixtureFraction m (d.species.map Y') := by
  obtain ⟨ha, -, -⟩ := fl_mixFracInitialize_ok h
  unfold massFractionToMixtureFraction
  rw [fl_dotAcc_inert Y Y' d.species m.alpha 0 ha hY]

/-! ### C104 -/

/-- The mass fractions written in the dictionary are rounded when they are read. -/
def readStream (F : FloatFormat K) (written : String → Option K) : String → Option (Fl F) :=
  fun s => (written s).map (Fl.of F)

/-- The written mass fractions are not negative and sum to one, and at most `k` species are named. -/
structure WrittenStream (species : List String) (written : String → Option K) (k : Nat) : Prop where
  nonneg : ∀ s x, written s = some x → 0 ≤ x
  one : (species.map (fun s => (written s).getD 0)).sum = 1
  few : species.countP (fun s => (written s).isSome) ≤ k

theorem stream_sum_fl (hu : F.u ≤ 1 / 2 ^ 53) (hη : F.eta ≤ 1 / 10 ^ 30) (written : String → Option K)
    (hnn : ∀ s x, written s = some x → 0 ≤ x) (e : K) (he : e = F.u * (1 + 1 / 10 ^ 6) + 2 * F.eta) :
    ∀ (l : List String) (acc : Fl F) (A : K) (k : Nat), 0 ≤ A →
    A + (l.map (fun s => (written s).getD 0)).sum ≤ 1 →
    k + l.countP (fun s => (written s).isSome) ≤ 8 → |acc.val - A| ≤ k * e + F.u * A →
    |((l.map (fun s => (readStream F written s).getD 0)).foldl (· + ·) acc).val -
        (A + (l.map (fun s => (written s).getD 0)).sum)| ≤
      ((k + l.countP (fun s => (written s).isSome) : Nat) : K) * e +
        F.u * (A + (l.map (fun s => (written s).getD 0)).sum)
  | [], acc, A, k, _, _, _, h => by simpa using h
  | s :: l, acc, A, k, hA, hs, hk, h => by
    have hu0 := F.u_nonneg
    have hη0 := F.eta_nonneg
    have htail : 0 ≤ (l.map (fun s => (written s).getD 0)).sum := by
      refine List.sum_nonneg ?_
      intro x hx
      rw [List.mem_map] at hx
      obtain ⟨t, -, rfl⟩ := hx
      cases ht : written t with
      | none => simp
      | some y => simpa using hnn t y ht
    cases hw : written s with
    | none =>
      have e1 : (readStream F written s).getD 0 = 0 := by simp [readStream, hw]
      have e2 : acc + 0 = acc := by
        apply Fl.ext
        rw [Fl.val_add, Fl.val_zero, add_zero, acc.ok]
      simp only [List.map_cons, List.foldl_cons, List.sum_cons, e1, e2, hw, Option.getD_none, zero_add,
        List.countP_cons, Option.isSome_none, Bool.false_eq_true, if_false, add_zero] at hs hk ⊢
      exact stream_sum_fl hu hη written hnn e he l acc A k hA hs hk h
    | some q =>
      have hq := hnn s q hw
      have e1 : (readStream F written s).getD 0 = Fl.of F q := by simp [readStream, hw]
      simp only [List.map_cons, List.foldl_cons, List.sum_cons, e1, hw, Option.getD_some,
        List.countP_cons, Option.isSome_some, if_true] at hs hk ⊢
      have hk8 : (k : K) ≤ 8 := by
        have : k ≤ 8 := by omega
        exact_mod_cast this
      have hk0 : (0 : K) ≤ k := Nat.cast_nonneg k
      have he0 : 0 ≤ e := by rw [he]; positivity
      have heu : e ≤ 3 / 2 ^ 53 := by
        rw [he]
        have : F.u * (1 + 1 / 10 ^ 6) ≤ 1 / 2 ^ 53 * (1 + 1 / 10 ^ 6) :=
          mul_le_mul_of_nonneg_right hu (by positivity)
        norm_num at this hη ⊢
        linarith
      have h1 := F.near q
      rw [abs_of_nonneg hq] at h1
      have h2 := F.near_add acc.val (Fl.of F q).val acc.ok (Fl.of F q).ok
      have hv : (Fl.of F q).val = F.rnd q := rfl
      rw [← Fl.val_add, hv] at h2
      have hAq : A + q ≤ 1 := by linarith
      have huA : F.u * A ≤ F.u := by
        have := mul_le_mul_of_nonneg_left (show A ≤ 1 by linarith) hu0; linarith
      have huq : F.u * q ≤ F.u := by
        have := mul_le_mul_of_nonneg_left (show q ≤ 1 by linarith) hu0; linarith
      have hke : (k : K) * e ≤ 8 * e := mul_le_mul_of_nonneg_right hk8 he0
      obtain ⟨a1, a2⟩ := abs_le.1 h
      obtain ⟨b1, b2⟩ := abs_le.1 h1
      have hbig : |acc.val + F.rnd q| ≤ 1 + 1 / 10 ^ 6 := by
        norm_num at hu hη heu ⊢
        rw [abs_le]
        constructor <;> linarith
      have hstep : F.u * |acc.val + F.rnd q| ≤ F.u * (1 + 1 / 10 ^ 6) :=
        mul_le_mul_of_nonneg_left hbig hu0
      obtain ⟨c1, c2⟩ := abs_le.1 h2
      have hnew : |(acc + Fl.of F q).val - (A + q)| ≤ ((k + 1 : Nat) : K) * e + F.u * (A + q) := by
        have e3 : ((k + 1 : Nat) : K) * e + F.u * (A + q) =
            k * e + F.u * A + (F.u * q + F.eta) + F.u * (1 + 1 / 10 ^ 6) + F.eta := by
          push_cast
          rw [add_mul, one_mul]
          nth_rewrite 2 [he]
          ring
        rw [e3, abs_le]
        constructor <;> linarith
      have := stream_sum_fl hu hη written hnn e he l (acc + Fl.of F q) (A + q) (k + 1) (by linarith)
        (by linarith) (by omega) hnew
      have e4 : k + (l.countP (fun s => (written s).isSome) + 1) =
          k + 1 + l.countP (fun s => (written s).isSome) := by omega
      rw [e4, ← add_assoc]
      exact this

theorem stream_accepted_fl (hu : F.u ≤ 1 / 2 ^ 53) (hη : F.eta ≤ 1 / 10 ^ 30) (h1 : F.rnd 1 = 1)
    (species : List String) (written : String → Option K) (h : WrittenStream species written 8) :
    ¬ (Consts.SMALL : Fl F) < absS ((Consts.one : Fl F) -
      (species.map (fun s => (readStream F written s).getD 0)).foldl (· + ·) 0) := by
  have hsum := stream_sum_fl hu hη written h.nonneg _ rfl species 0 0 0 (le_refl 0)
    (by rw [h.one, zero_add]) (by simpa using h.few) (by rw [Fl.val_zero]; simp)
  have hu0 := F.u_nonneg
  have hη0 := F.eta_nonneg
  rw [h.one, zero_add, zero_add, mul_one] at hsum
  set tot := (species.map (fun s => (readStream F written s).getD 0)).foldl (· + ·) (0 : Fl F)
  have hone : (Consts.one : Fl F).val = 1 := h1
  have hc : ((species.countP (fun s => (written s).isSome) : Nat) : K) ≤ 8 := by exact_mod_cast h.few
  set e := F.u * (1 + 1 / 10 ^ 6) + 2 * F.eta with he
  have he0 : 0 ≤ e := by positivity
  have hce := mul_le_mul_of_nonneg_right hc he0
  have hlow : (1 : K) / 10 ^ 15 - 1 / 10 ^ 20 ≤ (Consts.SMALL : Fl F).val := by
    show (1 : K) / 10 ^ 15 - 1 / 10 ^ 20 ≤ F.rnd (1 / 10 ^ 15)
    have h2 := (abs_le.1 (F.near (1 / 10 ^ 15))).1
    rw [abs_of_pos (by positivity : (0 : K) < 1 / 10 ^ 15)] at h2
    have h3 : F.u * (1 / 10 ^ 15) ≤ 1 / 2 ^ 53 * (1 / 10 ^ 15) :=
      mul_le_mul_of_nonneg_right hu (by positivity)
    norm_num at h2 h3 hη ⊢
    linarith
  have hb : |tot.val - 1| ≤ (Consts.SMALL : Fl F).val := by
    refine (hsum.trans ?_).trans hlow
    refine (add_le_add_left hce F.u).trans ?_
    rw [he]
    norm_num at hu hη ⊢
    linarith
  obtain ⟨b1, b2⟩ := abs_le.1 hb
  rw [Fl.lt_iff, Fl.val_absS, Fl.val_sub, hone, not_lt, abs_le]
  constructor
  · exact F.le_rnd (F.neg_fixed _ (Consts.SMALL : Fl F).ok) (by linarith)
  · exact F.rnd_le (Consts.SMALL : Fl F).ok (by linarith)

theorem fl_mapM_alpha_ok (d : MixFracDict (Fl F)) : ∀ l : List String,
    (∀ s ∈ l, (d.elements s).isSome) → ∃ al, l.mapM (mixFracAlpha d) = .ok al ∧ al.length = l.length
  | [], _ => ⟨[], rfl, rfl⟩
  | s :: l, h => by
    obtain ⟨al, hal, hlen⟩ := fl_mapM_alpha_ok d l fun t ht => h t (by simp [ht])
    obtain ⟨e, he⟩ := Option.isSome_iff_exists.1 (h s (by simp))
    obtain ⟨a, ha⟩ : ∃ a, mixFracAlpha d s = .ok a := by
      unfold mixFracAlpha
      rw [he]
      exact ⟨_, rfl⟩
    refine ⟨a :: al, ?_, by simp [hlen]⟩
    rw [List.mapM_cons, ha]
    simp only [bind, Except.bind, pure, Except.pure, hal]

theorem fl_dotAcc_ok : ∀ (al ys : List (Fl F)) (acc : Fl F), al.length = ys.length →
    ∃ b, dotAcc acc al ys = .ok b
  | al, [], acc, _ => by cases al <;> exact ⟨acc, rfl⟩
  | [], y :: ys, acc, h => by simp at h
  | a :: al, y :: ys, acc, h => fl_dotAcc_ok al ys _ (by simpa using h)

/-- **C104.** In any format at least as fine as doubles: if all species have an entry for their
elements, and the mass fractions written for the two streams sum to exactly one and name at most eight
species each, the setup accepts them although neither the numbers nor their sum are exact. -/
theorem C104_written_streams_are_accepted (hu : F.u ≤ 1 / 2 ^ 53) (hη : F.eta ≤ 1 / 10 ^ 30)
    (h1 : F.rnd 1 = 1) (d : MixFracDict (Fl F)) (he : ∀ s ∈ d.species, (d.elements s).isSome)
    (ox fu : String → Option K) (hox : WrittenStream d.species ox 8)
    (hfu : WrittenStream d.species fu 8) (h2 : d.oxidizer = readStream F ox)
    (h3 : d.fuel = readStream F fu) : ∃ m, mixFracInitialize d = .ok m := by
  obtain ⟨al, hal, hlen⟩ := fl_mapM_alpha_ok d d.species he
  obtain ⟨b0, hb0⟩ := fl_dotAcc_ok al (d.species.map (fun s => (d.oxidizer s).getD 0)) 0 (by simp [hlen])
  obtain ⟨b1, hb1⟩ := fl_dotAcc_ok al (d.species.map (fun s => (d.fuel s).getD 0)) 0 (by simp [hlen])
  refine ⟨⟨al, b0, b1⟩, ?_⟩
  unfold mixFracInitialize
  simp only [hal, bind, Except.bind]
  rw [if_neg]
  · simp only [hb0, hb1]
  · rw [h2, h3]
    rintro (h | h)
    · exact stream_accepted_fl hu hη h1 d.species ox hox h
    · exact stream_accepted_fl hu hη h1 d.species fu hfu h

/-- **C104 for doubles.** -/
theorem C104_written_streams_are_accepted_in_doubles (d : MixFracDict (Fl binary64))
    (he : ∀ s ∈ d.species, (d.elements s).isSome) (ox fu : String → Option ℚ)
    (hox : WrittenStream d.species ox 8) (hfu : WrittenStream d.species fu 8)
    (h2 : d.oxidizer = readStream binary64 ox) (h3 : d.fuel = readStream binary64 fu) :
    ∃ m, mixFracInitialize d = .ok m :=
  C104_written_streams_are_accepted (le_refl _) binary64_usual.eta_le binary64_usual.one d he ox fu
    hox hfu h2 h3

namespace Example

/-- Methane and humid air, as written: ten species, seven of them named in the oxidiser. -/
def airWritten (s : String) : Option ℚ :=
  if s = "O2" then some (2305 / 10000) else if s = "N2" then some (7499 / 10000)
  else if s = "AR" then some (127 / 10000) else if s = "CO2" then some (6 / 10000)
  else if s = "H2O" then some (61 / 10000) else if s = "NO" then some (1 / 10000)
  else if s = "NO2" then some (1 / 10000) else none

def fuelWritten (s : String) : Option ℚ :=
  if s = "CH4" then some (9 / 10) else if s = "N2" then some (1 / 10) else none

def humid : MixFracDict (Fl binary64) where
  species := ["O2", "N2", "AR", "CO2", "H2O", "NO", "NO2", "CH4", "CO", "H2"]
  W s := d64 (if s = "O2" then 31998 / 1000 else if s = "N2" then 28014 / 1000 else if s = "CH4" then 16043 / 1000
    else 30)
  elements s :=
    if s = "O2" then some ⟨none, none, some 2⟩
    else if s = "CH4" then some ⟨some 1, some 4, none⟩
    else if s = "CO2" then some ⟨some 1, none, some 2⟩
    else some ⟨none, none, none⟩
  oxidizer := readStream binary64 airWritten
  fuel := readStream binary64 fuelWritten

/-- A stream of 23 species, with mass fractions 0.7, 0.0136 (21 times) and 0.0144. -/
def many : List String := (List.range 23).map (fun i => "S" ++ toString i)

def manyWritten (s : String) : Option ℚ :=
  if s = "S0" then some (7 / 10) else if s = "S22" then some (144 / 10000)
  else if s ∈ many then some (136 / 10000) else none

def manyDict : MixFracDict (Fl binary64) where
  species := many
  W _ := d64 30
  elements _ := some ⟨none, none, none⟩
  oxidizer := readStream binary64 manyWritten
  fuel := readStream binary64 manyWritten

end Example

/-- The assumptions of C104 are met. -/
example : WrittenStream Example.humid.species Example.airWritten 8 ∧
    WrittenStream Example.humid.species Example.fuelWritten 8 := by
  have h : ∀ w : String → Option ℚ, (∀ s x, w s = some x → 0 ≤ x) →
      (Example.humid.species.map (fun s => (w s).getD 0)).sum = 1 →
      Example.humid.species.countP (fun s => (w s).isSome) ≤ 8 → WrittenStream Example.humid.species w 8 :=
    fun _ a b c => ⟨a, b, c⟩
  refine ⟨h _ ?_ (by decide +kernel) (by decide +kernel), h _ ?_ (by decide +kernel) (by decide +kernel)⟩
  · intro s x hx
    unfold Example.airWritten at hx
    repeat' split at hx
    all_goals first | (simp only [Option.some.injEq] at hx; subst hx; norm_num) | simp at hx
  · intro s x hx
    unfold Example.fuelWritten at hx
    repeat' split at hx
    all_goals first | (simp only [Option.some.injEq] at hx; subst hx; norm_num) | simp at hx

/-- The setup succeeds, although the oxidiser sums to `1 + 2^-52` as computed; 0 and 1 in the streams
are exact, and nitrogen does not matter. -/
example : ((Example.humid.species.map (fun s => (Example.humid.oxidizer s).getD 0)).foldl (· + ·) 0).val
      = 1 + 1 / 2 ^ 52 ∧
    (mixFracInitialize Example.humid).toOption.map (fun m => (decide (m.beta1 = m.beta0),
      [fun s => (Example.humid.oxidizer s).getD 0, fun s => (Example.humid.fuel s).getD 0,
        fun s => if s = "N2" then Example.d64 (1 / 3) else (Example.humid.oxidizer s).getD 0].map (fun Y =>
        ((massFractionToMixtureFraction m (Example.humid.species.map Y)).toOption.map Fl.val)))) =
    some (false, [some 0, some 1, some 0]) := by
  constructor <;> decide +kernel

/-- **C104 does not extend to any number of species.** The 23 mass fractions as written sum to exactly
one; in doubles the sum is off by more than the tolerance, and the setup ends with a fatal error. -/
theorem C104_exact_stream_of_many_species_is_refused :
    (Example.many.map (fun s => (Example.manyWritten s).getD 0)).sum = 1 ∧
    mixFracInitialize Example.manyDict = .error .fatal := by
  constructor
  · decide +kernel
  · have h : (match mixFracInitialize Example.manyDict with
      | .error .fatal => true
      | _ => false) = true := by decide +kernel
    revert h
    cases mixFracInitialize Example.manyDict with
    | ok m => simp
    | error e => cases e <;> simp

end DLB
