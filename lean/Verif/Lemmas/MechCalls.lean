import Verif.Lemmas.MechSafe
/-
What the functions of a mechanism return, for a mechanism that passes the checks.
-/
set_option autoImplicit false
set_option linter.unusedSectionVars false

namespace DLB

section calls
variable {S : Type} [Add S] [Sub S] [Mul S] [Div S] [Neg S] [OfScientific S] [CMath S] [LE S] [DecidableLE S]

/-- Total memory with temperature, pressure and one array. -/
def inT (T pres : S) (a : Nat → S) : CLoc → S
  | .var .pres => pres
  | .arr _ i => a i
  | _ => T

/-- Total memory with the inputs of eval_spec_rates. -/
def inSpec (d : S) (fwd rev pm : Nat → S) : CLoc → S
  | .arr .fwd i => fwd i
  | .arr .rev i => rev i
  | .arr .presMod i => pm i
  | _ => d

/-- Total memory with the inputs of the rest of dydt. -/
def inDydt (d : S) (y : Nat → S) (yN rho dyN : S) (ω cp h : Nat → S) : CLoc → S
  | .arr .y i => y i
  | .var .yN => yN
  | .var .rho => rho
  | .var .dyN => dyN
  | .arr .dy (i + 1) => ω i
  | .arr .cp i => cp i
  | .arr .h i => h i
  | _ => d

variable {M : Mech} {rs : List Reaction}

theorem target_written {p : List CStmt} {l : CLoc} (h : (p.map CStmt.target).contains l = true) (W : List CLoc) :
    l ∈ written p W := by
  simp only [List.contains_iff_mem, List.mem_map] at h
  exact (mem_written p W _).2 (Or.inr h)

theorem evalConc_call (h : checkThermoSafe M = true) (T pres : S) (y : Nat → Option S) (Y : Nat → S)
    (hy : ∀ i, i < M.nsp - 1 → y i = some (Y i)) :
    ∃ σ, M.callEvalConc T pres y = some σ ∧
      (∀ i, i < M.nsp → σ (.arr .C i) = some (execT M.evalConc (inT T pres Y) (.arr .C i))) ∧
      σ (.var .yN) = some (execT M.evalConc (inT T pres Y) (.var .yN)) ∧
      σ (.var .rho) = some (execT M.evalConc (inT T pres Y) (.var .rho)) := by
  simp only [checkThermoSafe, Bool.and_eq_true] at h
  obtain ⟨⟨⟨⟨⟨⟨⟨⟨⟨⟨⟨⟨⟨⟨⟨⟨⟨⟨⟨⟨h1, h2⟩, h3⟩, h4⟩, -⟩, -⟩, -⟩, -⟩, -⟩, -⟩, -⟩, -⟩, -⟩, -⟩, -⟩, -⟩, -⟩, -⟩, -⟩, -⟩, -⟩ := h
  obtain ⟨σ', e, hag⟩ := exec_agree M.evalConc [] (fun
    | .var .T => some T
    | .var .pres => some pres
    | .arr .y i => y i
    | _ => none) (inT T pres Y) h1 (by
      intro l hl
      rcases hl with hl | hl
      · unfold inpConc at hl
        split at hl
        · rfl
        · rfl
        · exact hy _ (by simpa using hl)
        · exact absurd hl (by simp)
      · exact absurd hl (by simp))
  exact ⟨σ', e, fun i hi => hag _ (Or.inr (assigns_written h2 i hi _)), hag _ (Or.inr (target_written h3 _)),
    hag _ (Or.inr (target_written h4 _))⟩

theorem rates_start (h : checkRates M rs = true) : M.rateStart = [.set (.var .logT) (.log (.rd (.var .T)))] := by
  simp only [checkRates, Bool.and_eq_true, decide_eq_true_eq] at h
  exact h.1

theorem rxnRates_call (h : checkRates M rs = true) (hs : checkRatesSafe M = true) (T pres : S)
    (conc : Nat → Option S) (C : Nat → S) (hc : ∀ i, i < M.nsp → conc i = some (C i)) :
    ∃ σ, M.callRxnRates T pres conc = some σ ∧
      ∀ n ∈ number rs,
        σ (.arr .fwd n.k) = some (execT (M.rateStart ++ M.rateBlocks.flatten) (inT T pres C) (.arr .fwd n.k)) ∧
        (n.r.reversible = true →
          σ (.arr .rev n.j) = some (execT (M.rateStart ++ M.rateBlocks.flatten) (inT T pres C) (.arr .rev n.j))) := by
  have hstart := rates_start h
  have hsafe : safe M.szS (inpRates M.nsp) (M.rateStart ++ M.rateBlocks.flatten) [] = true := by
    refine safe_append _ _ _ ?_ (safe_flatten M.rateBlocks _ ?_ hs)
    · rw [hstart]; rfl
    · intro l hl
      unfold inpBlockR at hl
      split at hl
      · exact Or.inr ((mem_written _ _ _).2 (Or.inr ⟨_, by rw [hstart]; exact List.mem_cons_self, rfl⟩))
      · exact Or.inl hl
  obtain ⟨σ', e, hag⟩ := exec_agree _ [] (fun
    | .var .T => some T
    | .var .pres => some pres
    | .arr .C i => conc i
    | _ => none) (inT T pres C) hsafe (by
      intro l hl
      rcases hl with hl | hl
      · unfold inpRates at hl
        split at hl
        · rfl
        · rfl
        · exact hc _ (by simpa using hl)
        · exact absurd hl (by simp)
      · exact absurd hl (by simp))
  refine ⟨σ', e, fun n hn => ?_⟩
  simp only [checkRates, Bool.and_eq_true] at h
  obtain ⟨b, hb, hok⟩ := ratesOk_mem _ _ h.2 n hn
  obtain ⟨w1, w2⟩ := rateBlock_writes hok
  constructor
  · obtain ⟨s, hs1, hs2⟩ := w1
    exact hag _ (Or.inr ((mem_written _ _ _).2 (Or.inr ⟨s, List.mem_append_right _ (List.mem_flatten.2 ⟨b, hb, hs1⟩), hs2⟩)))
  · intro hr
    obtain ⟨s, hs1, hs2⟩ := w2 hr
    exact hag _ (Or.inr ((mem_written _ _ _).2 (Or.inr ⟨s, List.mem_append_right _ (List.mem_flatten.2 ⟨b, hb, hs1⟩), hs2⟩)))

theorem pres_start (h : checkPresMod M rs = true) : M.presModStart = [.set (.var .logT) (.log (.rd (.var .T))),
    .set (.var .m) (.div (.rd (.var .pres)) (.mul gasConstant (.rd (.var .T))))] := by
  simp only [checkPresMod, Bool.and_eq_true, decide_eq_true_eq] at h
  exact h.1

theorem presMod_call (h : checkPresMod M rs = true) (hs : checkPresSafe M = true) (T pres : S)
    (conc : Nat → Option S) (C : Nat → S) (hc : ∀ i, i < M.nsp → conc i = some (C i)) :
    ∃ σ, M.callPresMod T pres conc = some σ ∧
      ∀ n ∈ number rs, n.r.modified = true →
        σ (.arr .presMod n.p) =
          some (execT (M.presModStart ++ M.presModBlocks.flatten) (inT T pres C) (.arr .presMod n.p)) := by
  have hstart := pres_start h
  have hsafe : safe M.szS (inpRates M.nsp) (M.presModStart ++ M.presModBlocks.flatten) [] = true := by
    refine safe_append _ _ _ ?_ (safe_flatten M.presModBlocks _ ?_ hs)
    · rw [hstart]; rfl
    · intro l hl
      unfold inpBlock at hl
      split at hl
      · exact Or.inr ((mem_written _ _ _).2 (Or.inr ⟨_, by rw [hstart]; exact List.mem_cons_self, rfl⟩))
      · exact Or.inr ((mem_written _ _ _).2 (Or.inr ⟨_, by
          rw [hstart]; exact List.mem_cons_of_mem _ List.mem_cons_self, rfl⟩))
      · exact Or.inl hl
  obtain ⟨σ', e, hag⟩ := exec_agree _ [] (fun
    | .var .T => some T
    | .var .pres => some pres
    | .arr .C i => conc i
    | _ => none) (inT T pres C) hsafe (by
      intro l hl
      rcases hl with hl | hl
      · unfold inpRates at hl
        split at hl
        · rfl
        · rfl
        · exact hc _ (by simpa using hl)
        · exact absurd hl (by simp)
      · exact absurd hl (by simp))
  refine ⟨σ', e, fun n hn hm => ?_⟩
  simp only [checkPresMod, Bool.and_eq_true] at h
  obtain ⟨b, hb, hok⟩ := presOk_mem _ _ _ h.2 n hn hm
  obtain ⟨s, hs1, hs2⟩ := presBlock_writes hok
  exact hag _ (Or.inr ((mem_written _ _ _).2 (Or.inr ⟨s, List.mem_append_right _ (List.mem_flatten.2 ⟨b, hb, hs1⟩), hs2⟩)))

/-- The memory locations of the species rates are written. -/
theorem spec_written (h : checkSpec M rs = true) (s : Nat) (hs : s < M.nsp) (W : List CLoc) :
    specLoc M.nsp s ∈ written (M.specStart ++ M.specBlocks.flatten ++ M.specRest) W := by
  have entries_targets : ∀ (p : List CStmt) (W : List CLoc) (es : List Entry) (W' : List CLoc),
      entries p W = some (es, W') → ∀ l ∈ W', l ∈ W ∨ ∃ s ∈ p, s.target = l := by
    intro p
    induction p with
    | nil =>
      intro W es W' h l hl
      simp only [entries, Option.some.injEq, Prod.mk.injEq] at h
      exact Or.inl (h.2 ▸ hl)
    | cons s p ih =>
      intro W es W' h l hl
      unfold entries at h
      split at h
      · exact absurd h (by simp)
      · rename_i en hen
        split at h
        · obtain ⟨⟨es1, W1⟩, h1, h2⟩ := Option.map_eq_some_iff.1 h
          simp only [Prod.mk.injEq] at h2
          obtain ⟨rfl, rfl⟩ := h2
          have htar : s.target = en.l := by
            unfold CStmt.entry at hen
            split at hen
            · split at hen
              · obtain ⟨x, _, rfl⟩ := Option.map_eq_some_iff.1 hen; rfl
              · exact absurd hen (by simp)
            · split at hen
              · obtain ⟨x, _, rfl⟩ := Option.map_eq_some_iff.1 hen; rfl
              · obtain ⟨x, _, rfl⟩ := Option.map_eq_some_iff.1 hen; rfl
            · obtain ⟨x, _, rfl⟩ := Option.map_eq_some_iff.1 hen; rfl
            · exact absurd hen (by simp)
          rcases ih _ _ _ h1 l hl with h' | ⟨s', hs', e⟩
          · rcases mem_insertLoc.1 h' with h' | h'
            · exact Or.inr ⟨s, List.mem_cons_self, htar.trans h'.symm⟩
            · exact Or.inl h'
          · exact Or.inr ⟨s', List.mem_cons_of_mem _ hs', e⟩
        · exact absurd h (by simp)
  have spec_targets : ∀ (bs : List (List CStmt)) (ns : List Numbered) (W W' : List CLoc),
      specMatches M.nsp bs ns W = some W' → ∀ l ∈ W', l ∈ W ∨ ∃ s ∈ bs.flatten, s.target = l := by
    intro bs
    induction bs with
    | nil =>
      intro ns W W' h l hl
      cases ns with
      | nil => obtain rfl := Option.some.inj h; exact Or.inl hl
      | cons => exact absurd h (by simp [specMatches])
    | cons b bs ih =>
      intro ns W W' h l hl
      cases ns with
      | nil => exact absurd h (by simp [specMatches])
      | cons n ns =>
        unfold specMatches at h
        split at h
        · rename_i es W1 he
          split at h
          · rcases ih ns W1 W' h l hl with h' | ⟨s', hs', e⟩
            · rcases entries_targets b W es W1 he l h' with h' | ⟨s', hs', e⟩
              · exact Or.inl h'
              · exact Or.inr ⟨s', by rw [List.flatten_cons]; exact List.mem_append_left _ hs', e⟩
            · exact Or.inr ⟨s', by rw [List.flatten_cons]; exact List.mem_append_right _ hs', e⟩
          · exact absurd h (by simp)
        · exact absurd h (by simp)
  have rest_targets : ∀ (p : List CStmt) (W W' : List CLoc),
      zeroRest p W = some W' → ∀ l ∈ W', l ∈ W ∨ ∃ s ∈ p, s.target = l := by
    intro p
    induction p with
    | nil => intro W W' h l hl; obtain rfl := Option.some.inj h; exact Or.inl hl
    | cons s p ih =>
      intro W W' h l hl
      unfold zeroRest at h
      split at h
      · rename_i h'; cases h'
      · rename_i W _ _ l' p' h'
        simp only [List.cons.injEq] at h'
        obtain ⟨rfl, rfl⟩ := h'
        split at h
        · rcases ih _ _ h l hl with h' | ⟨s', hs', e⟩
          · rcases List.mem_cons.1 h' with h' | h'
            · exact Or.inr ⟨_, List.mem_cons_self, h'.symm⟩
            · exact Or.inl h'
          · exact Or.inr ⟨s', List.mem_cons_of_mem _ hs', e⟩
        · exact absurd h (by simp)
      · exact absurd h (by simp)
  unfold checkSpec at h
  simp only [Bool.and_eq_true, decide_eq_true_eq] at h
  obtain ⟨h0, h⟩ := h
  split at h
  · exact absurd h (by simp)
  · rename_i W1 hW
    split at h
    · exact absurd h (by simp)
    · rename_i W' hW'
      have hmem := List.all_eq_true.1 h s (List.mem_range.2 hs)
      simp only [List.contains_iff_mem] at hmem
      refine (mem_written _ _ _).2 (Or.inr ?_)
      rcases rest_targets _ _ _ hW' _ hmem with h' | ⟨s', hs', e⟩
      · rcases spec_targets _ _ _ _ hW _ h' with h' | ⟨s', hs', e⟩
        · exact absurd h' (by simp)
        · exact ⟨s', by simp only [List.mem_append]; exact Or.inl (Or.inr hs'), e⟩
      · exact ⟨s', by simp only [List.mem_append]; exact Or.inr hs', e⟩

theorem specRates_call (h : checkSpec M rs = true) (hs : checkSpecSafe M = true) (d : S)
    (fwd rev pm : Nat → Option S) (F R P : Nat → S) (hF : ∀ i, i < M.nFwd → fwd i = some (F i))
    (hR : ∀ i, i < M.nRev → rev i = some (R i)) (hP : ∀ i, i < M.nPresMod → pm i = some (P i)) :
    ∃ σ, M.callSpecRates fwd rev pm = some σ ∧
      ∀ s, s < M.nsp → σ (specLoc M.nsp s) =
        some (execT (M.specStart ++ M.specBlocks.flatten ++ M.specRest) (inSpec d F R P) (specLoc M.nsp s)) := by
  obtain ⟨σ', e, hag⟩ := exec_agree _ [] (fun
    | .arr .fwd i => fwd i
    | .arr .rev i => rev i
    | .arr .presMod i => pm i
    | _ => none) (inSpec d F R P) hs (by
      intro l hl
      rcases hl with hl | hl
      · unfold inpSpec at hl
        split at hl
        · exact hF _ (by simpa using hl)
        · exact hR _ (by simpa using hl)
        · exact hP _ (by simpa using hl)
        · exact absurd hl (by simp)
      · exact absurd hl (by simp))
  exact ⟨σ', e, fun s hs => hag _ (Or.inr (spec_written h s hs _))⟩

theorem cp_call (h : checkThermoSafe M = true) (T : S) :
    ∃ σ, M.callCp T = some σ ∧
      ∀ i, i < M.nsp → σ (.arr .cp i) = some (execT M.evalCp (inT T T fun _ => T) (.arr .cp i)) := by
  simp only [checkThermoSafe, Bool.and_eq_true] at h
  obtain ⟨⟨⟨⟨⟨⟨⟨⟨⟨⟨⟨⟨⟨⟨⟨⟨⟨⟨⟨⟨-, -⟩, -⟩, -⟩, h1⟩, h2⟩, -⟩, -⟩, -⟩, -⟩, -⟩, -⟩, -⟩, -⟩, -⟩, -⟩, -⟩, -⟩, -⟩, -⟩, -⟩ := h
  obtain ⟨σ', e, hag⟩ := exec_agree M.evalCp [] (fun
    | .var .T => some T
    | _ => none) (inT T T fun _ => T) h1 (by
      intro l hl
      rcases hl with hl | hl
      · unfold inpT at hl
        split at hl
        · rfl
        · exact absurd hl (by simp)
      · exact absurd hl (by simp))
  exact ⟨σ', e, fun i hi => hag _ (Or.inr (assigns_written h2 i hi _))⟩

theorem h_call (h : checkThermoSafe M = true) (T : S) :
    ∃ σ, M.callH T = some σ ∧
      ∀ i, i < M.nsp → σ (.arr .h i) = some (execT M.evalH (inT T T fun _ => T) (.arr .h i)) := by
  simp only [checkThermoSafe, Bool.and_eq_true] at h
  obtain ⟨⟨⟨⟨⟨⟨⟨⟨⟨⟨⟨⟨⟨⟨⟨⟨⟨⟨⟨⟨-, -⟩, -⟩, -⟩, -⟩, -⟩, h1⟩, h2⟩, -⟩, -⟩, -⟩, -⟩, -⟩, -⟩, -⟩, -⟩, -⟩, -⟩, -⟩, -⟩, -⟩ := h
  obtain ⟨σ', e, hag⟩ := exec_agree M.evalH [] (fun
    | .var .T => some T
    | _ => none) (inT T T fun _ => T) h1 (by
      intro l hl
      rcases hl with hl | hl
      · unfold inpT at hl
        split at hl
        · rfl
        · exact absurd hl (by simp)
      · exact absurd hl (by simp))
  exact ⟨σ', e, fun i hi => hag _ (Or.inr (assigns_written h2 i hi _))⟩

theorem mole2mass_call (h : checkThermoSafe M = true) (d : S) (X : Nat → S) :
    ∃ σ, M.callMole2mass X = some σ ∧
      ∀ i, i < M.nsp - 1 → σ (.arr .Y i) = some (execT M.mole2mass (inT d d X) (.arr .Y i)) := by
  simp only [checkThermoSafe, Bool.and_eq_true] at h
  obtain ⟨⟨⟨⟨⟨⟨⟨⟨⟨⟨⟨⟨⟨⟨⟨⟨⟨⟨⟨⟨-, -⟩, -⟩, -⟩, -⟩, -⟩, -⟩, -⟩, -⟩, -⟩, h1⟩, h2⟩, -⟩, -⟩, -⟩, -⟩, -⟩, -⟩, -⟩, -⟩, -⟩ := h
  obtain ⟨σ', e, hag⟩ := exec_agree M.mole2mass [] (fun
    | .arr .X i => some (X i)
    | _ => none) (inT d d X) h1 (by
      intro l hl
      rcases hl with hl | hl
      · unfold inpFrac at hl
        split at hl
        · simp only [Bool.and_eq_true, decide_eq_true_eq] at hl
          obtain ⟨rfl, _⟩ := hl
          rfl
        · exact absurd hl (by simp)
      · exact absurd hl (by simp))
  exact ⟨σ', e, fun i hi => hag _ (Or.inr (assigns_written h2 i hi _))⟩

theorem mass2mole_call (h : checkThermoSafe M = true) (d : S) (Y : Nat → S) :
    ∃ σ, M.callMass2mole Y = some σ ∧
      ∀ i, i < M.nsp - 1 → σ (.arr .X i) = some (execT M.mass2mole (inT d d Y) (.arr .X i)) := by
  simp only [checkThermoSafe, Bool.and_eq_true] at h
  obtain ⟨⟨⟨⟨⟨⟨⟨⟨⟨⟨⟨⟨⟨⟨⟨⟨⟨⟨⟨⟨-, -⟩, -⟩, -⟩, -⟩, -⟩, -⟩, -⟩, -⟩, -⟩, -⟩, -⟩, h1⟩, h2⟩, -⟩, -⟩, -⟩, -⟩, -⟩, -⟩, -⟩ := h
  obtain ⟨σ', e, hag⟩ := exec_agree M.mass2mole [] (fun
    | .arr .Y i => some (Y i)
    | _ => none) (inT d d Y) h1 (by
      intro l hl
      rcases hl with hl | hl
      · unfold inpFrac at hl
        split at hl
        · simp only [Bool.and_eq_true, decide_eq_true_eq] at hl
          obtain ⟨rfl, _⟩ := hl
          rfl
        · exact absurd hl (by simp)
      · exact absurd hl (by simp))
  exact ⟨σ', e, fun i hi => hag _ (Or.inr (assigns_written h2 i hi _))⟩

theorem getDensity_call (h : checkThermoSafe M = true) (T pres : S) (X : Nat → S) :
    M.callGetDensity T pres X = some (getDensityResultT.evalT (execT M.getDensity (inT T pres X))) := by
  simp only [checkThermoSafe, Bool.and_eq_true, decide_eq_true_eq] at h
  obtain ⟨⟨⟨⟨⟨⟨⟨⟨⟨⟨⟨⟨⟨⟨⟨⟨⟨⟨⟨⟨-, -⟩, -⟩, -⟩, -⟩, -⟩, -⟩, -⟩, -⟩, -⟩, -⟩, -⟩, -⟩, -⟩, h1⟩, h2⟩, h3⟩, -⟩, -⟩, -⟩, -⟩ := h
  obtain ⟨σ', e, hag⟩ := exec_agree M.getDensity [] (fun
    | .var .T => some T
    | .var .pres => some pres
    | .arr .X i => some (X i)
    | _ => none) (inT T pres X) h1 (by
      intro l hl
      rcases hl with hl | hl
      · unfold inpDens at hl
        split at hl
        · rfl
        · rfl
        · rfl
        · exact absurd hl (by simp)
      · exact absurd hl (by simp))
  refine (congrArg (fun o => Option.bind o fun σ => M.getDensityResult.eval M.szS σ) e).trans ?_
  rw [h3]
  refine eval_agree (d := fun l => decide (l = .var .T) || decide (l = .var .pres) || decide (l = .var .mwAvg)) ?_ _ rfl
  intro l hl
  simp only [Bool.or_eq_true, decide_eq_true_eq] at hl
  rcases hl with (rfl | rfl) | rfl
  · exact ⟨rfl, hag _ (Or.inl rfl)⟩
  · exact ⟨rfl, hag _ (Or.inl rfl)⟩
  · exact ⟨rfl, hag _ (Or.inr (target_written h2 _))⟩

theorem mask_call (h : checkThermoSafe M = true) (y : Nat → S) (d : S) :
    ∃ σ, M.callMask y = some σ ∧
      ∀ i, i < M.nsp → σ (.arr .y i) = some (execT M.applyMask (inT d d y) (.arr .y i)) := by
  simp only [checkThermoSafe, Bool.and_eq_true] at h
  obtain ⟨⟨⟨⟨⟨⟨⟨⟨⟨⟨⟨⟨⟨⟨⟨⟨⟨⟨⟨⟨-, -⟩, -⟩, -⟩, -⟩, -⟩, -⟩, -⟩, -⟩, -⟩, -⟩, -⟩, -⟩, -⟩, -⟩, -⟩, -⟩, h1⟩, h2⟩, -⟩, -⟩ := h
  obtain ⟨σ', e, hag⟩ := exec_agree M.applyMask [] (fun
    | .arr .y i => some (y i)
    | .arr .temp i => some (y i)
    | _ => none) (inT d d y) h1 (by
      intro l hl
      rcases hl with hl | hl
      · unfold inpMask at hl
        split at hl
        · rfl
        · rfl
        · exact absurd hl (by simp)
      · exact absurd hl (by simp))
  exact ⟨σ', e, fun i hi => hag _ (Or.inr (assigns_written h2 i hi _))⟩

theorem reverseMask_call (h : checkThermoSafe M = true) (y : Nat → S) (d : S) :
    ∃ σ, M.callReverseMask y = some σ ∧
      ∀ i, i < M.nsp → σ (.arr .y i) = some (execT M.applyReverseMask (inT d d y) (.arr .y i)) := by
  simp only [checkThermoSafe, Bool.and_eq_true] at h
  obtain ⟨⟨⟨⟨⟨⟨⟨⟨⟨⟨⟨⟨⟨⟨⟨⟨⟨⟨⟨⟨-, -⟩, -⟩, -⟩, -⟩, -⟩, -⟩, -⟩, -⟩, -⟩, -⟩, -⟩, -⟩, -⟩, -⟩, -⟩, -⟩, -⟩, -⟩, h1⟩, h2⟩ := h
  obtain ⟨σ', e, hag⟩ := exec_agree M.applyReverseMask [] (fun
    | .arr .y i => some (y i)
    | .arr .temp i => some (y i)
    | _ => none) (inT d d y) h1 (by
      intro l hl
      rcases hl with hl | hl
      · unfold inpMask at hl
        split at hl
        · rfl
        · rfl
        · exact absurd hl (by simp)
      · exact absurd hl (by simp))
  exact ⟨σ', e, fun i hi => hag _ (Or.inr (assigns_written h2 i hi _))⟩

/-- The values computed on the way to `dydt`. -/
structure DydtParts (M : Mech) (rs : List Reaction) (pres : S) (y : Nat → S) (σ : CMem S) : Prop where
  intro ::
  parts : ∃ (σc σr σp σs σcp σh : CMem S) (C F R P ω cp h : Nat → S) (yN rho : S),
    M.callEvalConc (y 0) pres (fun i => some (y (i + 1))) = some σc ∧
    M.callRxnRates (y 0) pres (fun i => σc (.arr .C i)) = some σr ∧
    M.callPresMod (y 0) pres (fun i => σc (.arr .C i)) = some σp ∧
    M.callSpecRates (fun i => σr (.arr .fwd i)) (fun i => σr (.arr .rev i)) (fun i => σp (.arr .presMod i)) = some σs ∧
    M.callCp (y 0) = some σcp ∧ M.callH (y 0) = some σh ∧
    (∀ i, i < M.nsp → σc (.arr .C i) = some (C i)) ∧
    σc (.var .yN) = some yN ∧ σc (.var .rho) = some rho ∧
    (∀ i, i < M.nFwd → σr (.arr .fwd i) = some (F i)) ∧
    (∀ i, i < M.nRev → σr (.arr .rev i) = some (R i)) ∧
    (∀ i, i < M.nPresMod → σp (.arr .presMod i) = some (P i)) ∧
    (∀ s, s < M.nsp → σs (specLoc M.nsp s) = some (ω s)) ∧
    (∀ i, i < M.nsp → σcp (.arr .cp i) = some (cp i)) ∧
    (∀ i, i < M.nsp → σh (.arr .h i) = some (h i)) ∧
    ∀ i, i < M.nsp → σ (.arr .dy i) = some (execT (M.dydtCpAvg ++ M.dydtRest)
      (inDydt (y 0) y yN rho (ω (M.nsp - 1)) ω cp h) (.arr .dy i))

theorem option_fun {S : Type} (d : S) (f : Nat → Option S) (P : Nat → Prop) (h : ∀ i, P i → ∃ v, f i = some v) :
    ∃ g : Nat → S, ∀ i, P i → f i = some (g i) :=
  ⟨fun i => (f i).getD d, fun i hi => by obtain ⟨v, e⟩ := h i hi; simp [e]⟩

theorem dydt_call (hsz : checkSizes M rs = true) (hr : checkRates M rs = true) (hrs : checkRatesSafe M = true)
    (hp : checkPresMod M rs = true) (hps : checkPresSafe M = true) (hsp : checkSpec M rs = true)
    (hss : checkSpecSafe M = true) (ht : checkThermoSafe M = true) (pres : S) (y : Nat → S) :
    ∃ σ, M.callDydt pres y = some σ ∧ DydtParts M rs pres y σ := by
  simp only [checkSizes, Bool.and_eq_true, decide_eq_true_eq] at hsz
  obtain ⟨⟨⟨z0, z1⟩, z2⟩, z3⟩ := hsz
  obtain ⟨σc, ec, c1, c2, c3⟩ := evalConc_call ht (y 0) pres (fun i => some (y (i + 1))) (fun i => y (i + 1))
    (fun i _ => rfl)
  obtain ⟨σr, er, r1⟩ := rxnRates_call hr hrs (y 0) pres (fun i => σc (.arr .C i)) _ c1
  obtain ⟨σp, ep, p1⟩ := presMod_call hp hps (y 0) pres (fun i => σc (.arr .C i)) _ c1
  obtain ⟨F, hF⟩ := option_fun (y 0) (fun i => σr (.arr .fwd i)) (fun i => i < M.nFwd) (by
    intro i hi
    obtain ⟨n, hn, rfl⟩ := cover_k rs 0 0 0 i (by omega) (by omega)
    exact ⟨_, (r1 n hn).1⟩)
  obtain ⟨R, hR⟩ := option_fun (y 0) (fun i => σr (.arr .rev i)) (fun i => i < M.nRev) (by
    intro i hi
    obtain ⟨n, hn, h, rfl⟩ := cover_j rs 0 0 0 i (by omega) (by omega)
    exact ⟨_, (r1 n hn).2 h⟩)
  obtain ⟨P, hP⟩ := option_fun (y 0) (fun i => σp (.arr .presMod i)) (fun i => i < M.nPresMod) (by
    intro i hi
    obtain ⟨n, hn, h, rfl⟩ := cover_p rs 0 0 0 i (by omega) (by omega)
    exact ⟨_, p1 n hn h⟩)
  obtain ⟨σs, es, s1⟩ := specRates_call hsp hss (y 0) _ _ _ F R P hF hR hP
  obtain ⟨σcp, ecp, cp1⟩ := cp_call ht (y 0)
  obtain ⟨σh, eh, h1⟩ := h_call ht (y 0)
  obtain ⟨ω, hω⟩ := option_fun (y 0) (fun s => σs (specLoc M.nsp s)) (fun s => s < M.nsp)
    (fun s hs => ⟨_, s1 s hs⟩)
  have ht' := ht
  simp only [checkThermoSafe, Bool.and_eq_true] at ht
  obtain ⟨⟨⟨⟨⟨⟨⟨⟨⟨⟨⟨⟨⟨⟨⟨⟨⟨⟨⟨⟨-, -⟩, -⟩, -⟩, -⟩, -⟩, -⟩, -⟩, d1⟩, d2⟩, -⟩, -⟩, -⟩, -⟩, -⟩, -⟩, -⟩, -⟩, -⟩, -⟩, -⟩ := ht
  obtain ⟨σ', e, hag⟩ := exec_agree (M.dydtCpAvg ++ M.dydtRest) [] (fun
    | .arr .y i => some (y i)
    | .var .yN => σc (.var .yN)
    | .var .rho => σc (.var .rho)
    | .var .dyN => σs (.var .dyN)
    | .arr .dy 0 => none
    | .arr .dy (i + 1) => σs (.arr .spRates i)
    | .arr .cp i => σcp (.arr .cp i)
    | .arr .h i => σh (.arr .h i)
    | _ => none) (inDydt (y 0) y _ _ (ω (M.nsp - 1)) ω _ _) d1 (by
      intro l hl
      rcases hl with hl | hl
      · unfold inpDydt at hl
        split at hl
        · exact c2
        · exact c3
        · have := hω (M.nsp - 1) (by omega)
          rwa [specLoc, if_pos (by omega)] at this
        · rfl
        · rename_i i
          simp only [decide_eq_true_eq] at hl
          cases i with
          | zero => omega
          | succ i =>
            have := hω i (by omega)
            rwa [specLoc, if_neg (by omega)] at this
        · exact cp1 _ (by simpa using hl)
        · exact h1 _ (by simpa using hl)
        · exact absurd hl (by simp)
      · exact absurd hl (by simp))
  refine ⟨σ', ?_, ⟨σc, σr, σp, σs, σcp, σh, _, F, R, P, ω, _, _, _, _, ec, er, ep, es, ecp, eh, c1, c2, c3, hF, hR, hP,
    hω, cp1, h1, fun i hi => hag _ (Or.inr (assigns_written d2 i hi _))⟩⟩
  unfold Mech.callDydt
  simp only [ec, er, ep, es, ecp, eh, bind, Option.bind_some]
  exact e

end calls
end DLB
