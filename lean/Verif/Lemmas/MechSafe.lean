import Verif.Lemmas.Convert
/-
Absence of undefined behaviour in the functions of a mechanism, checked block by block, and what they compute.
-/
set_option autoImplicit false
set_option linter.unusedSectionVars false

namespace DLB

theorem CExpr.reads_mono {d d' : CLoc → Bool} (h : ∀ l, d l = true → d' l = true) (e : CExpr)
    (he : e.reads d = true) : e.reads d' = true := by
  induction e with
  | num m e => rfl
  | rd l => exact h l he
  | neg a iha | exp a iha | log a iha | log10 a iha => exact iha he
  | add a b iha ihb | sub a b iha ihb | mul a b iha ihb | div a b iha ihb | pow a b iha ihb | fmax a b iha ihb =>
    simp only [CExpr.reads, Bool.and_eq_true] at he ⊢
    exact ⟨iha he.1, ihb he.2⟩

theorem CStmt.reads_mono {d d' : CLoc → Bool} (h : ∀ l, d l = true → d' l = true) (s : CStmt)
    (hs : s.reads d = true) : s.reads d' = true := by
  cases s with
  | set l e => exact CExpr.reads_mono h e hs
  | ite a b l e1 e2 =>
    simp only [CStmt.reads, Bool.and_eq_true] at hs ⊢
    exact ⟨⟨⟨a.reads_mono h hs.1.1.1, b.reads_mono h hs.1.1.2⟩, e1.reads_mono h hs.1.2⟩, e2.reads_mono h hs.2⟩

theorem safe_mono {sz : CSizes} {inp inp' : CLoc → Bool} (p : List CStmt) (W W' : List CLoc)
    (h : ∀ l, inp l = true ∨ l ∈ W → inp' l = true ∨ l ∈ W') (hs : safe sz inp p W = true) :
    safe sz inp' p W' = true := by
  induction p generalizing W W' with
  | nil => rfl
  | cons s p ih =>
    simp only [safe, Bool.and_eq_true] at hs ⊢
    obtain ⟨⟨h1, h2⟩, h3⟩ := hs
    refine ⟨⟨s.reads_mono ?_ h1, h2⟩, ih _ _ ?_ h3⟩
    · intro l hl
      simp only [Bool.and_eq_true, Bool.or_eq_true, List.contains_iff_mem] at hl ⊢
      exact ⟨hl.1, h l hl.2⟩
    · intro l hl
      simp only [mem_insertLoc] at hl ⊢
      rcases hl with hl | hl | hl
      · rcases h l (Or.inl hl) with h' | h'
        · exact Or.inl h'
        · exact Or.inr (Or.inr h')
      · exact Or.inr (Or.inl hl)
      · rcases h l (Or.inr hl) with h' | h'
        · exact Or.inl h'
        · exact Or.inr (Or.inr h')

theorem safe_append {sz : CSizes} {inp : CLoc → Bool} (p q : List CStmt) (W : List CLoc)
    (hp : safe sz inp p W = true) (hq : safe sz inp q (written p W) = true) :
    safe sz inp (p ++ q) W = true := by
  induction p generalizing W with
  | nil => exact hq
  | cons s p ih =>
    simp only [safe, Bool.and_eq_true, List.cons_append] at hp ⊢
    exact ⟨hp.1, ih _ hp.2 hq⟩

theorem mem_written (p : List CStmt) (W : List CLoc) (l : CLoc) :
    l ∈ written p W ↔ l ∈ W ∨ ∃ s ∈ p, s.target = l := by
  induction p generalizing W with
  | nil => simp [written]
  | cons s p ih =>
    rw [written, ih, mem_insertLoc]
    simp only [List.mem_cons, exists_eq_or_imp]
    constructor
    · rintro ((h | h) | h)
      · exact Or.inr (Or.inl h.symm)
      · exact Or.inl h
      · exact Or.inr (Or.inr h)
    · rintro (h | h | h)
      · exact Or.inl (Or.inr h)
      · exact Or.inl (Or.inl h.symm)
      · exact Or.inr h

/-- Blocks that are safe on their own are safe one after another. -/
theorem safe_flatten {sz : CSizes} {inp inp' : CLoc → Bool} (bs : List (List CStmt)) (W : List CLoc)
    (h : ∀ l, inp l = true → inp' l = true ∨ l ∈ W)
    (hb : (bs.all fun b => safe sz inp b []) = true) : safe sz inp' bs.flatten W = true := by
  induction bs generalizing W with
  | nil => rfl
  | cons b bs ih =>
    simp only [List.all_cons, Bool.and_eq_true] at hb
    rw [List.flatten_cons]
    refine safe_append _ _ _ (safe_mono b [] W ?_ hb.1) (ih _ ?_ hb.2)
    · intro l hl
      rcases hl with hl | hl
      · exact h l hl
      · exact absurd hl (by simp)
    · intro l hl
      rcases h l hl with h' | h'
      · exact Or.inl h'
      · exact Or.inr (written_sub b W l h')

/-! ### All rates are written -/

theorem cover_k (rs : List Reaction) (k j p i : Nat) (h1 : k ≤ i) (h2 : i < k + rs.length) :
    ∃ n ∈ numberFrom rs k j p, n.k = i := by
  induction rs generalizing k j p with
  | nil => simp only [List.length_nil] at h2; omega
  | cons r rs ih =>
    rw [List.length_cons] at h2
    by_cases h : k = i
    · exact ⟨_, List.mem_cons_self, h⟩
    · obtain ⟨n, hn, e⟩ := ih (k + 1) (if r.reversible then j + 1 else j) (if r.modified then p + 1 else p)
        (by omega) (by omega)
      exact ⟨n, List.mem_cons_of_mem _ hn, e⟩

theorem cover_j (rs : List Reaction) (k j p i : Nat) (h1 : j ≤ i) (h2 : i < j + rs.countP (·.reversible)) :
    ∃ n ∈ numberFrom rs k j p, n.r.reversible = true ∧ n.j = i := by
  induction rs generalizing k j p with
  | nil => simp only [List.countP_nil] at h2; omega
  | cons r rs ih =>
    rw [List.countP_cons] at h2
    by_cases hr : r.reversible = true
    · simp only [hr, if_true] at h2
      by_cases h : j = i
      · exact ⟨_, List.mem_cons_self, hr, h⟩
      · obtain ⟨n, hn, e⟩ := ih (k + 1) (if r.reversible then j + 1 else j) (if r.modified then p + 1 else p)
          (by simp only [hr, if_true]; omega) (by simp only [hr, if_true]; omega)
        exact ⟨n, List.mem_cons_of_mem _ hn, e⟩
    · simp only [hr] at h2
      obtain ⟨n, hn, e⟩ := ih (k + 1) (if r.reversible then j + 1 else j) (if r.modified then p + 1 else p)
        (by simp only [hr]; exact h1) (by simpa [hr] using h2)
      exact ⟨n, List.mem_cons_of_mem _ hn, e⟩

theorem cover_p (rs : List Reaction) (k j p i : Nat) (h1 : p ≤ i) (h2 : i < p + rs.countP (·.modified)) :
    ∃ n ∈ numberFrom rs k j p, n.r.modified = true ∧ n.p = i := by
  induction rs generalizing k j p with
  | nil => simp only [List.countP_nil] at h2; omega
  | cons r rs ih =>
    rw [List.countP_cons] at h2
    by_cases hr : r.modified = true
    · simp only [hr, if_true] at h2
      by_cases h : p = i
      · exact ⟨_, List.mem_cons_self, hr, h⟩
      · obtain ⟨n, hn, e⟩ := ih (k + 1) (if r.reversible then j + 1 else j) (if r.modified then p + 1 else p)
          (by simp only [hr, if_true]; omega) (by simp only [hr, if_true]; omega)
        exact ⟨n, List.mem_cons_of_mem _ hn, e⟩
    · simp only [hr] at h2
      obtain ⟨n, hn, e⟩ := ih (k + 1) (if r.reversible then j + 1 else j) (if r.modified then p + 1 else p)
        (by simp only [hr]; exact h1) (by simpa [hr] using h2)
      exact ⟨n, List.mem_cons_of_mem _ hn, e⟩

theorem get_of_not_target (b : List CStmt) (ρ : AMem) (l : CLoc) (h : ∀ s ∈ b, s.target ≠ l) :
    AMem.get (aexecAll b ρ) l = AMem.get ρ l := by
  induction b generalizing ρ with
  | nil => rfl
  | cons s b ih =>
    rw [aexecAll, ih _ fun s hs => h s (List.mem_cons_of_mem _ hs)]
    have hne := h s List.mem_cons_self
    cases s with
    | set k e => rw [CStmt.aexec, AMem.get_cons, if_neg fun e => hne e.symm]
    | ite a b k e1 e2 => rw [CStmt.aexec, AMem.get_cons, if_neg fun e => hne e.symm]

theorem target_of_get {b : List CStmt} {l : CLoc} (h : AMem.get (aexecAll b []) l ≠ baseAV l) :
    ∃ s ∈ b, s.target = l := by
  by_contra hc
  push Not at hc
  exact h (get_of_not_target b [] l hc)

theorem rateBlock_writes {n : Numbered} {b : List CStmt} (h : rateBlockOk n b = true) :
    (∃ s ∈ b, s.target = .arr .fwd n.k) ∧ (n.r.reversible = true → ∃ s ∈ b, s.target = .arr .rev n.j) := by
  simp only [rateBlockOk, Bool.and_eq_true, Bool.or_eq_true, Bool.not_eq_true'] at h
  obtain ⟨⟨_, hf⟩, hv⟩ := h
  constructor
  · refine target_of_get fun e => ?_
    rw [e] at hf
    simp [baseAV] at hf
  · intro hr
    rcases hv with hv | hv
    · rw [hr] at hv; exact absurd hv (by simp)
    · refine target_of_get fun e => ?_
      rw [e] at hv
      simp [baseAV] at hv

theorem ratesOk_mem (bs : List (List CStmt)) (ns : List Numbered) (h : ratesOk bs ns = true) :
    ∀ n ∈ ns, ∃ b ∈ bs, rateBlockOk n b = true := by
  induction bs generalizing ns with
  | nil =>
    cases ns with
    | nil => intro n hn; exact absurd hn (by simp)
    | cons => exact absurd h (by simp [ratesOk])
  | cons b bs ih =>
    cases ns with
    | nil => exact absurd h (by simp [ratesOk])
    | cons m ns =>
      simp only [ratesOk, Bool.and_eq_true] at h
      intro n hn
      rcases List.mem_cons.1 hn with rfl | hn
      · exact ⟨b, List.mem_cons_self, h.1⟩
      · obtain ⟨b', hb, h'⟩ := ih ns h.2 n hn
        exact ⟨b', List.mem_cons_of_mem _ hb, h'⟩

theorem presBlock_writes {nsp : Nat} {n : Numbered} {b : List CStmt} (h : presBlockOk nsp n b = true) :
    ∃ s ∈ b, s.target = .arr .presMod n.p := by
  simp only [presBlockOk, Bool.and_eq_true] at h
  refine target_of_get fun e => ?_
  have h2 := h.2
  rw [e] at h2
  simp [baseAV] at h2

theorem presOk_mem (nsp : Nat) (bs : List (List CStmt)) (ns : List Numbered) (h : presOk nsp bs ns = true) :
    ∀ n ∈ ns, n.r.modified = true → ∃ b ∈ bs, presBlockOk nsp n b = true := by
  induction ns generalizing bs with
  | nil => intro n hn; exact absurd hn (by simp)
  | cons m ns ih =>
    unfold presOk at h
    intro n hn hmod
    split at h
    · rename_i hm
      split at h
      · exact absurd h (by simp)
      · rename_i b bs
        simp only [Bool.and_eq_true] at h
        rcases List.mem_cons.1 hn with rfl | hn
        · exact ⟨b, List.mem_cons_self, h.1⟩
        · obtain ⟨b', hb, h'⟩ := ih bs h.2 n hn hmod
          exact ⟨b', List.mem_cons_of_mem _ hb, h'⟩
    · rename_i hm
      rcases List.mem_cons.1 hn with rfl | hn
      · exact absurd hmod hm
      · exact ih bs h n hn hmod

/-! ### The checks -/

/-- Inputs of eval_rxn_rates and get_rxn_pres_mod. -/
def inpRates (nsp : Nat) : CLoc → Bool
  | .var .T => true
  | .var .pres => true
  | .arr .C i => decide (i < nsp)
  | _ => false

/-- Inputs of a block. -/
def inpBlock (nsp : Nat) : CLoc → Bool
  | .var .logT => true
  | .var .m => true
  | l => inpRates nsp l

/-- Inputs of a block without the total concentration. -/
def inpBlockR (nsp : Nat) : CLoc → Bool
  | .var .logT => true
  | l => inpRates nsp l

/-- Inputs of eval_spec_rates. -/
def inpSpec (M : Mech) : CLoc → Bool
  | .arr .fwd i => decide (i < M.nFwd)
  | .arr .rev i => decide (i < M.nRev)
  | .arr .presMod i => decide (i < M.nPresMod)
  | _ => false

/-- Inputs of eval_conc. -/
def inpConc (nsp : Nat) : CLoc → Bool
  | .var .T => true
  | .var .pres => true
  | .arr .y i => decide (i < nsp - 1)
  | _ => false

/-- Inputs of eval_cp and eval_h. -/
def inpT : CLoc → Bool
  | .var .T => true
  | _ => false

/-- Inputs of the rest of dydt. -/
def inpDydt (nsp : Nat) : CLoc → Bool
  | .var .yN => true
  | .var .rho => true
  | .var .dyN => true
  | .arr .y i => decide (i < nsp)
  | .arr .dy i => decide (0 < i ∧ i < nsp)
  | .arr .cp i => decide (i < nsp)
  | .arr .h i => decide (i < nsp)
  | _ => false

/-- Inputs of a conversion. -/
def inpFrac (a : CArr) (nsp : Nat) : CLoc → Bool
  | .arr b i => decide (b = a) && decide (i < nsp - 1)
  | _ => false

/-- Inputs of getDensity. -/
def inpDens (nsp : Nat) : CLoc → Bool
  | .var .T => true
  | .var .pres => true
  | .arr .X i => decide (i < nsp - 1)
  | _ => false

/-- Inputs of a mask. -/
def inpMask (nsp : Nat) : CLoc → Bool
  | .arr .y i => decide (i < nsp)
  | .arr .temp i => decide (i < nsp)
  | _ => false

/-- All of `a[0], ..., a[n-1]` are assigned. -/
def assigns (p : List CStmt) (a : CArr) (n : Nat) : Bool :=
  (List.range n).all fun i => (p.map CStmt.target).contains (.arr a i)

theorem assigns_written {p : List CStmt} {a : CArr} {n : Nat} (h : assigns p a n = true) (i : Nat) (hi : i < n)
    (W : List CLoc) : .arr a i ∈ written p W := by
  have := List.all_eq_true.1 h i (List.mem_range.2 hi)
  simp only [List.contains_iff_mem, List.mem_map] at this
  exact (mem_written p W _).2 (Or.inr this)

/-- The arrays have the sizes the reactions need. -/
def checkSizes (M : Mech) (rs : List Reaction) : Bool :=
  decide (0 < M.nsp) && decide (M.nFwd = rs.length) && decide (M.nRev = rs.countP (·.reversible)) &&
  decide (M.nPresMod = rs.countP (·.modified))

/-- No undefined behaviour in eval_rxn_rates. -/
def checkRatesSafe (M : Mech) : Bool := M.rateBlocks.all fun b => safe M.szS (inpBlockR M.nsp) b []
/-- No undefined behaviour in get_rxn_pres_mod. -/
def checkPresSafe (M : Mech) : Bool := M.presModBlocks.all fun b => safe M.szS (inpBlock M.nsp) b []
/-- No undefined behaviour in eval_spec_rates. -/
def checkSpecSafe (M : Mech) : Bool :=
  safe M.szS (inpSpec M) (M.specStart ++ M.specBlocks.flatten ++ M.specRest) []
/-- No undefined behaviour in the remaining functions. -/
def checkThermoSafe (M : Mech) : Bool :=
  safe M.szS (inpConc M.nsp) M.evalConc [] && assigns M.evalConc .C M.nsp &&
  (M.evalConc.map CStmt.target).contains (.var .yN) && (M.evalConc.map CStmt.target).contains (.var .rho) &&
  safe M.szS inpT M.evalCp [] && assigns M.evalCp .cp M.nsp &&
  safe M.szS inpT M.evalH [] && assigns M.evalH .h M.nsp &&
  safe M.szF (inpDydt M.nsp) (M.dydtCpAvg ++ M.dydtRest) [] && assigns (M.dydtCpAvg ++ M.dydtRest) .dy M.nsp &&
  safe M.szS (inpFrac .X M.nsp) M.mole2mass [] && assigns M.mole2mass .Y (M.nsp - 1) &&
  safe M.szS (inpFrac .Y M.nsp) M.mass2mole [] && assigns M.mass2mole .X (M.nsp - 1) &&
  safe M.szS (inpDens M.nsp) M.getDensity [] &&
  (M.getDensity.map CStmt.target).contains (.var .mwAvg) &&
  decide (M.getDensityResult = getDensityResultT) &&
  safe M.szF (inpMask M.nsp) M.applyMask [] && assigns M.applyMask .y M.nsp &&
  safe M.szF (inpMask M.nsp) M.applyReverseMask [] && assigns M.applyReverseMask .y M.nsp

end DLB
