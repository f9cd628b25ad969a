import Verif.Lemmas.SpecRates
import Mathlib.Algebra.Order.Field.Basic
import Mathlib.Algebra.BigOperators.Group.List.Lemmas
import Mathlib.Tactic.Positivity
import Mathlib.Algebra.BigOperators.Group.Finset.Basic
import Mathlib.Algebra.BigOperators.Ring.Finset
/-
Abstract interpretation of eval_rxn_rates and get_rxn_pres_mod: how the values depend on the concentrations.

A memory is considered as a family of memories indexed by the concentrations `C : Nat → K`, all other inputs being
fixed.
-/
set_option autoImplicit false
set_option linter.unusedSectionVars false

namespace DLB

/-- A term `± m * 10^(-e) * C[i]`. -/
structure CTerm where
  neg : Bool
  m : Nat
  e : Nat
  i : Nat
  deriving DecidableEq

/-- Abstract values: how a value depends on the concentrations. -/
inductive AV where
  /-- nothing is known -/
  | any
  /-- it does not -/
  | const
  /-- a positive constant times a product of concentrations -/
  | mono (l : List Nat)
  /-- always positive -/
  | posV
  /-- the total concentration `m` plus the terms -/
  | lin (cs : List CTerm)
  /-- a positive constant times that -/
  | slin (cs : List CTerm)
  /-- `F * x / (1 + x)` with `x` a positive constant times that, `F` always positive -/
  | fall (cs : List CTerm)
  deriving DecidableEq

/-- Is the value constant? -/
def AV.isConst : AV → Bool
  | .const => true
  | .mono [] => true
  | _ => false

/-- Is the value positive? -/
def AV.isPos : AV → Bool
  | .posV => true
  | .mono [] => true
  | _ => false

/-- Abstract memory: an association list on top of the inputs. -/
abbrev AMem := List (CLoc × AV)

/-- Abstract value of the inputs: `T`, `pres` and `logT` are constants, `C[i]` is itself, `m` the total concentration. -/
def baseAV : CLoc → AV
  | .var .T => .const
  | .var .pres => .const
  | .var .logT => .const
  | .var .m => .lin []
  | .arr .C i => .mono [i]
  | _ => .any

/-- Lookup. -/
def AMem.get (ρ : AMem) (l : CLoc) : AV :=
  match ρ.find? (fun x => decide (x.1 = l)) with
  | some x => x.2
  | none => baseAV l

/-- Recognise `c * C[i]`. -/
def CExpr.term? : CExpr → Option (Nat × Nat × Nat)
  | .mul (.num m e) (.rd (.arr .C i)) => some (m, e, i)
  | _ => none

/-- Abstract sum (`neg` for a difference). -/
def AV.addTerm (neg : Bool) (x y : AV) (t : Option (Nat × Nat × Nat)) : AV :=
  match x, t with
  | .lin cs, some (m, e, i) => .lin (cs ++ [⟨neg, m, e, i⟩])
  | _, _ => if x.isConst && y.isConst then .const else .any

/-- Abstract product. -/
def AV.mul : AV → AV → AV
  | .mono l, .mono l' => .mono (l ++ l')
  | .mono [], .lin cs => .slin cs
  | .mono [], .slin cs => .slin cs
  | .const, .const => .const
  | .const, .mono [] => .const
  | .mono [], .const => .const
  | _, _ => .any

/-- Abstract quotient. -/
def AV.div : AV → AV → AV
  | .mono l, .mono [] => .mono l
  | .slin cs, .mono [] => .slin cs
  | .const, .const => .const
  | .const, .mono [] => .const
  | .mono [], .const => .const
  | _, _ => .any

/-- Recognise `F * x / (1.0 + x)` and `x / (1.0 + x)` for a variable `x`; the factor `F` is optional. -/
def CExpr.saturation? : CExpr → CExpr → Option (Option CExpr × CLoc)
  | .mul f (.rd l), .add (.num 1 0) (.rd l') => if l = l' then some (some f, l) else none
  | .rd l, .add (.num 1 0) (.rd l') => if l = l' then some (none, l) else none
  | _, _ => none

/-- Is it `pow(c, e)` with a positive literal `c`? -/
def CExpr.posPow : CExpr → Bool
  | .pow (.num m _) _ => decide (0 < m)
  | _ => false

/-- Abstract value of a saturation. -/
def AV.saturate : AV → Option CExpr → AV
  | .slin cs, none => .fall cs
  | .slin cs, some f => if f.posPow then .fall cs else .any
  | _, _ => .any

/-- Abstract evaluation. -/
def CExpr.aeval (ρ : AMem) : CExpr → AV
  | .num m _ => if 0 < m then .mono [] else .const
  | .rd l => ρ.get l
  | .neg a => if (a.aeval ρ).isConst then .const else .any
  | .add a b => AV.addTerm false (a.aeval ρ) (b.aeval ρ) b.term?
  | .sub a b => AV.addTerm true (a.aeval ρ) (b.aeval ρ) b.term?
  | .mul a b => AV.mul (a.aeval ρ) (b.aeval ρ)
  | .div a b => match CExpr.saturation? a b with
    | some (f, l) => AV.saturate (ρ.get l) f
    | none => AV.div (a.aeval ρ) (b.aeval ρ)
  | .exp a => if (a.aeval ρ).isConst then .mono [] else .posV
  | .log a => if (a.aeval ρ).isConst then .const else .any
  | .log10 a => if (a.aeval ρ).isConst then .const else .any
  | .pow _ _ => .any
  | .fmax a b => if (a.aeval ρ).isConst && (b.aeval ρ).isConst then .const else .any

/-- Abstract execution of a statement. -/
def CStmt.aexec (ρ : AMem) : CStmt → AMem
  | .set l e => (l, e.aeval ρ) :: ρ
  | .ite a b l e1 e2 =>
    (l, if (a.aeval ρ).isConst && (b.aeval ρ).isConst && (e1.aeval ρ).isConst && (e2.aeval ρ).isConst then .const
        else .any) :: ρ

/-- Abstract execution of a block. -/
def aexecAll : List CStmt → AMem → AMem
  | [], ρ => ρ
  | s :: p, ρ => aexecAll p (s.aexec ρ)

section sound
variable {K : Type} [Field K] [LinearOrder K] [IsStrictOrderedRing K] [CMath K]

/-- What is used about `exp` and `pow`. -/
structure CMathLaws (K : Type) [Field K] [LinearOrder K] [CMath K] : Prop where
  exp_pos : ∀ x : K, 0 < CMath.exp x
  pow_pos : ∀ a x : K, 0 < a → 0 < CMath.pow a x

/-- Value of a term. -/
def CTerm.val (t : CTerm) (C : Nat → K) : K :=
  (if t.neg then -((t.m : K) / 10 ^ t.e) else (t.m : K) / 10 ^ t.e) * C t.i

/-- Total concentration plus terms. -/
def linVal (mtot : K) (cs : List CTerm) (C : Nat → K) : K := mtot + (cs.map fun t => t.val C).sum

/-- Meaning of the abstract values for a family of values. -/
def AV.holds (mtot : K) : AV → ((Nat → K) → K) → Prop
  | .any, _ => True
  | .const, f => ∃ c, ∀ C, f C = c
  | .mono l, f => ∃ κ, 0 < κ ∧ ∀ C, f C = κ * (l.map C).prod
  | .posV, f => ∀ C, 0 < f C
  | .lin cs, f => ∀ C, f C = linVal mtot cs C
  | .slin cs, f => ∃ κ, 0 < κ ∧ ∀ C, f C = κ * linVal mtot cs C
  | .fall cs, f => ∃ κ, 0 < κ ∧ ∃ F : (Nat → K) → K, (∀ C, 0 < F C) ∧
      ∀ C, f C = F C * (κ * linVal mtot cs C) / (1 + κ * linVal mtot cs C)

variable {mtot : K}

theorem AV.const_of {a : AV} {f : (Nat → K) → K} (h : a.holds mtot f) (hc : a.isConst = true) :
    ∃ c, ∀ C, f C = c := by
  cases a with
  | const => exact h
  | mono l =>
    cases l with
    | nil => obtain ⟨κ, _, h⟩ := h; exact ⟨κ, fun C => by simpa using h C⟩
    | cons a l => simp [AV.isConst] at hc
  | _ => simp [AV.isConst] at hc

theorem AV.addTerm_sound {neg : Bool} {x y : AV} {f g : (Nat → K) → K} {b : CExpr}
    {t : CLoc → (Nat → K) → K} (ht : ∀ i C, t (.arr .C i) C = C i)
    (hx : x.holds mtot f) (hy : y.holds mtot g) (hg : ∀ C, g C = b.evalT (fun l => t l C)) :
    (AV.addTerm neg x y b.term?).holds mtot (fun C => if neg then f C - g C else f C + g C) := by
  have gen : (if x.isConst && y.isConst then AV.const else .any).holds mtot
      (fun C => if neg then f C - g C else f C + g C) := by
    split
    · rename_i h
      simp only [Bool.and_eq_true] at h
      obtain ⟨c, hc⟩ := AV.const_of hx h.1
      obtain ⟨d, hd⟩ := AV.const_of hy h.2
      exact ⟨if neg then c - d else c + d, fun C => by simp [hc, hd]⟩
    · trivial
  unfold AV.addTerm
  split
  · rename_i cs m e i htm
    have hb : b = .mul (.num m e) (.rd (.arr .C i)) := by
      unfold CExpr.term? at htm
      split at htm
      · simp only [Option.some.injEq, Prod.mk.injEq] at htm
        obtain ⟨rfl, rfl, rfl⟩ := htm
        rfl
      · exact absurd htm (by simp)
    intro C
    subst hb
    have := hx C
    simp only [hg C, CExpr.evalT, ht, sci_eq, this, linVal, List.map_append, List.map_cons, List.map_nil,
      List.sum_append, List.sum_cons, List.sum_nil, CTerm.val]
    cases neg <;> simp <;> ring
  · exact gen

theorem AV.mul_sound {x y : AV} {f g : (Nat → K) → K} (hx : x.holds mtot f) (hy : y.holds mtot g) :
    (AV.mul x y).holds mtot (fun C => f C * g C) := by
  unfold AV.mul
  split
  · obtain ⟨κ, h1, h2⟩ := hx
    obtain ⟨κ', h1', h2'⟩ := hy
    exact ⟨κ * κ', mul_pos h1 h1', fun C => by dsimp only; rw [h2, h2']; simp; ring⟩
  · obtain ⟨κ, h1, h2⟩ := hx
    exact ⟨κ, h1, fun C => by dsimp only; rw [h2, hy C]; simp⟩
  · obtain ⟨κ, h1, h2⟩ := hx
    obtain ⟨κ', h1', h2'⟩ := hy
    exact ⟨κ * κ', mul_pos h1 h1', fun C => by dsimp only; rw [h2, h2']; simp; ring⟩
  · obtain ⟨c, h⟩ := hx
    obtain ⟨d, h'⟩ := hy
    exact ⟨c * d, fun C => by dsimp only; rw [h, h']⟩
  · obtain ⟨c, h⟩ := hx
    obtain ⟨d, _, h'⟩ := hy
    exact ⟨c * d, fun C => by dsimp only; rw [h, h']; simp⟩
  · obtain ⟨c, _, h⟩ := hx
    obtain ⟨d, h'⟩ := hy
    exact ⟨c * d, fun C => by dsimp only; rw [h, h']; simp⟩
  · trivial

theorem AV.div_sound {x y : AV} {f g : (Nat → K) → K} (hx : x.holds mtot f) (hy : y.holds mtot g) :
    (AV.div x y).holds mtot (fun C => f C / g C) := by
  unfold AV.div
  split
  · obtain ⟨κ, h1, h2⟩ := hx
    obtain ⟨κ', h1', h2'⟩ := hy
    exact ⟨κ / κ', div_pos h1 h1', fun C => by dsimp only; rw [h2, h2']; simp; ring⟩
  · obtain ⟨κ, h1, h2⟩ := hx
    obtain ⟨κ', h1', h2'⟩ := hy
    exact ⟨κ / κ', div_pos h1 h1', fun C => by dsimp only; rw [h2, h2']; simp; ring⟩
  · obtain ⟨c, h⟩ := hx
    obtain ⟨d, h'⟩ := hy
    exact ⟨c / d, fun C => by dsimp only; rw [h, h']⟩
  · obtain ⟨c, h⟩ := hx
    obtain ⟨d, _, h'⟩ := hy
    exact ⟨c / d, fun C => by dsimp only; rw [h, h']; simp⟩
  · obtain ⟨c, _, h⟩ := hx
    obtain ⟨d, h'⟩ := hy
    exact ⟨c / d, fun C => by dsimp only; rw [h, h']; simp⟩
  · trivial

/-- The abstract memory describes the family of memories. -/
def AMem.Sound (mtot : K) (ρ : AMem) (μ : CLoc → (Nat → K) → K) : Prop :=
  ∀ l, (ρ.get l).holds mtot (μ l)

theorem aeval_sound (L : CMathLaws K) {ρ : AMem} {μ : CLoc → (Nat → K) → K} (hρ : ρ.Sound mtot μ)
    (hC : ∀ i C, μ (.arr .C i) C = C i) (e : CExpr) :
    (e.aeval ρ).holds mtot (fun C => e.evalT (fun l => μ l C)) := by
  induction e with
  | num m e =>
    simp only [CExpr.aeval, CExpr.evalT]
    split
    · rename_i hm
      refine ⟨(m : K) / 10 ^ e, ?_, fun C => by simp [sci_eq]⟩
      have : (0 : K) < m := by exact_mod_cast hm
      positivity
    · exact ⟨_, fun C => rfl⟩
  | rd l => exact hρ l
  | neg a iha =>
    simp only [CExpr.aeval, CExpr.evalT]
    split
    · rename_i h
      obtain ⟨c, hc⟩ := AV.const_of iha h
      exact ⟨-c, fun C => by dsimp only; rw [hc]⟩
    · trivial
  | add a b iha ihb =>
    exact AV.addTerm_sound (neg := false) (t := μ) hC iha ihb (fun C => rfl)
  | sub a b iha ihb =>
    exact AV.addTerm_sound (neg := true) (t := μ) hC iha ihb (fun C => rfl)
  | mul a b iha ihb => exact AV.mul_sound iha ihb
  | div a b iha ihb =>
    simp only [CExpr.aeval]
    split
    · rename_i f l hs
      unfold AV.saturate
      split
      · rename_i cs hl
        have h := hρ l
        rw [hl] at h
        obtain ⟨κ, h1, h2⟩ := h
        unfold CExpr.saturation? at hs
        split at hs
        · split at hs <;> simp at hs
        · split at hs
          · rename_i l1 l2 he
            simp only [Option.some.injEq, Prod.mk.injEq, true_and] at hs
            subst hs he
            refine ⟨κ, h1, fun _ => 1, fun _ => one_pos, fun C => ?_⟩
            simp [CExpr.evalT, sci_eq, h2]
          · exact absurd hs (by simp)
        · exact absurd hs (by simp)
      · rename_i cs f' hl
        split
        · rename_i hf
          have h := hρ l
          rw [hl] at h
          obtain ⟨κ, h1, h2⟩ := h
          unfold CExpr.saturation? at hs
          split at hs
          · split at hs
            · rename_i f0 l1 l2 he
              simp only [Option.some.injEq, Prod.mk.injEq] at hs
              obtain ⟨rfl, rfl⟩ := hs
              subst he
              unfold CExpr.posPow at hf
              split at hf
              · rename_i m e x
                have hm : 0 < m := by simpa using hf
                refine ⟨κ, h1, fun C => CMath.pow (OfScientific.ofScientific m true e) (x.evalT fun l => μ l C),
                  fun C => L.pow_pos _ _ ?_, fun C => ?_⟩
                · rw [sci_eq]
                  have : (0 : K) < m := by exact_mod_cast hm
                  positivity
                · simp [CExpr.evalT, sci_eq, h2]
              · exact absurd hf (by simp)
            · exact absurd hs (by simp)
          · split at hs <;> simp at hs
          · exact absurd hs (by simp)
        · trivial
      · trivial
    · exact AV.div_sound iha ihb
  | exp a iha =>
    simp only [CExpr.aeval, CExpr.evalT]
    split
    · rename_i h
      obtain ⟨c, hc⟩ := AV.const_of iha h
      exact ⟨CMath.exp c, L.exp_pos c, fun C => by dsimp only; rw [hc]; simp⟩
    · exact fun C => L.exp_pos _
  | log a iha | log10 a iha =>
    simp only [CExpr.aeval, CExpr.evalT]
    split
    · rename_i h
      obtain ⟨c, hc⟩ := AV.const_of iha h
      exact ⟨_, fun C => by dsimp only; rw [hc]⟩
    · trivial
  | pow a b => trivial
  | fmax a b iha ihb =>
    simp only [CExpr.aeval, CExpr.evalT]
    split
    · rename_i h
      simp only [Bool.and_eq_true] at h
      obtain ⟨c, hc⟩ := AV.const_of iha h.1
      obtain ⟨d, hd⟩ := AV.const_of ihb h.2
      exact ⟨CMath.fmax c d, fun C => by dsimp only; rw [hc, hd]⟩
    · trivial

/-- Execution of a family of memories. -/
def execF (p : List CStmt) (μ : CLoc → (Nat → K) → K) : CLoc → (Nat → K) → K :=
  fun l C => execT p (fun l => μ l C) l

theorem execF_cons (s : CStmt) (p : List CStmt) (μ : CLoc → (Nat → K) → K) :
    execF (s :: p) μ = execF p (execF [s] μ) := rfl

theorem execF_append (p q : List CStmt) (μ : CLoc → (Nat → K) → K) :
    execF (p ++ q) μ = execF q (execF p μ) := by
  funext l C
  simp only [execF, execT_append]

theorem AMem.get_cons (ρ : AMem) (l k : CLoc) (a : AV) :
    AMem.get ((l, a) :: ρ) k = if k = l then a else ρ.get k := by
  unfold AMem.get
  by_cases h : k = l
  · subst h; simp
  · have h' : ¬ l = k := fun e => h e.symm
    simp [h, h']

theorem execF_set (l : CLoc) (e : CExpr) (μ : CLoc → (Nat → K) → K) (k : CLoc) :
    execF [.set l e] μ k = if k = l then (fun C => e.evalT fun l => μ l C) else μ k := by
  funext C
  by_cases h : k = l <;> simp [execF, execT, CStmt.execT, setT, h]

theorem execF_ite (a b : CExpr) (l : CLoc) (e1 e2 : CExpr) (μ : CLoc → (Nat → K) → K) (k : CLoc) :
    execF [.ite a b l e1 e2] μ k = if k = l then (fun C => if (a.evalT fun l => μ l C) ≤ (b.evalT fun l => μ l C)
      then (e1.evalT fun l => μ l C) else (e2.evalT fun l => μ l C)) else μ k := by
  funext C
  by_cases h : k = l <;> simp [execF, execT, CStmt.execT, setT, h]

theorem aexec_sound (L : CMathLaws K) {ρ : AMem} {μ : CLoc → (Nat → K) → K} (hρ : ρ.Sound mtot μ)
    (hC : ∀ i C, μ (.arr .C i) C = C i) (s : CStmt) :
    (s.aexec ρ).Sound mtot (execF [s] μ) := by
  intro k
  cases s with
  | set l e =>
    rw [CStmt.aexec, AMem.get_cons, execF_set]
    by_cases h : k = l
    · subst h
      rw [if_pos rfl, if_pos rfl]
      exact aeval_sound L hρ hC e
    · rw [if_neg h, if_neg h]
      exact hρ k
  | ite a b l e1 e2 =>
    rw [CStmt.aexec, AMem.get_cons, execF_ite]
    by_cases h : k = l
    · subst h
      rw [if_pos rfl, if_pos rfl]
      split
      · rename_i hc
        simp only [Bool.and_eq_true] at hc
        obtain ⟨ca, ha⟩ := AV.const_of (aeval_sound L hρ hC a) hc.1.1.1
        obtain ⟨cb, hb⟩ := AV.const_of (aeval_sound L hρ hC b) hc.1.1.2
        obtain ⟨c1, h1⟩ := AV.const_of (aeval_sound L hρ hC e1) hc.1.2
        obtain ⟨c2, h2⟩ := AV.const_of (aeval_sound L hρ hC e2) hc.2
        exact ⟨if ca ≤ cb then c1 else c2, fun C => by simp [ha, hb, h1, h2]⟩
      · trivial
    · rw [if_neg h, if_neg h]
      exact hρ k

/-- Locations that no statement of the program writes keep their values. -/
theorem execF_of_not_target (p : List CStmt) (μ : CLoc → (Nat → K) → K) (l : CLoc)
    (h : ∀ s ∈ p, s.target ≠ l) : execF p μ l = μ l := by
  induction p generalizing μ with
  | nil => rfl
  | cons s p ih =>
    rw [execF_cons, ih _ fun s hs => h s (List.mem_cons_of_mem _ hs)]
    have hne := h s List.mem_cons_self
    funext C
    cases s with
    | set k e =>
      have : ¬ l = k := fun e => hne e.symm
      simp [execF, execT, CStmt.execT, setT, this]
    | ite a b k e1 e2 =>
      have : ¬ l = k := fun e => hne e.symm
      simp [execF, execT, CStmt.execT, setT, this]

theorem aexecAll_sound (L : CMathLaws K) (p : List CStmt) {ρ : AMem} {μ : CLoc → (Nat → K) → K}
    (hρ : ρ.Sound mtot μ) (hC : ∀ i C, μ (.arr .C i) C = C i)
    (hp : ∀ s ∈ p, ∀ i, s.target ≠ .arr .C i) :
    (aexecAll p ρ).Sound mtot (execF p μ) := by
  induction p generalizing ρ μ with
  | nil => exact hρ
  | cons s p ih =>
    rw [execF_cons, aexecAll]
    refine ih (aexec_sound L hρ hC s) ?_ fun s hs => hp s (List.mem_cons_of_mem _ hs)
    intro i C
    rw [execF_of_not_target [s] μ (.arr .C i) (by simpa using hp s List.mem_cons_self i)]
    exact hC i C

end sound

/-- The block of reaction `n` in eval_rxn_rates obeys the law of mass action and writes nothing else of interest. -/
def rateBlockOk (n : Numbered) (b : List CStmt) : Bool :=
  b.all (fun s => s.target == .var .kf || s.target == .var .Kc || s.target == .arr .fwd n.k ||
    (n.r.reversible && s.target == .arr .rev n.j)) &&
  (match AMem.get (aexecAll b []) (.arr .fwd n.k) with
    | .mono l => l.isPerm n.r.reactants
    | _ => false) &&
  (!n.r.reversible || match AMem.get (aexecAll b []) (.arr .rev n.j) with
    | .mono l => l.isPerm n.r.products
    | _ => false)

/-- All blocks of eval_rxn_rates. -/
def ratesOk : List (List CStmt) → List Numbered → Bool
  | [], [] => true
  | b :: bs, n :: ns => rateBlockOk n b && ratesOk bs ns
  | _, _ => false

/-- eval_rxn_rates obeys the law of mass action for the reactions `rs`. -/
def checkRates (M : Mech) (rs : List Reaction) : Bool :=
  decide (M.rateStart = [.set (.var .logT) (.log (.rd (.var .T)))]) && ratesOk M.rateBlocks (number rs)

/-- The terms are those of the efficiencies `eff`. -/
def effMatches (nsp : Nat) (cs : List CTerm) (eff : List (Nat × Nat × Nat)) : Bool :=
  decide (cs.map (·.i)).Nodup &&
  cs.all (fun t => decide (t.i < nsp) &&
    decide ((if t.neg then -(t.m : Int) else t.m) * 10 ^ (effDec eff t.i).2 =
      (((effDec eff t.i).1 : Int) - 10 ^ (effDec eff t.i).2) * 10 ^ t.e)) &&
  eff.all (fun x => (cs.map (·.i)).contains x.1 || decide ((effDec eff x.1).1 = 10 ^ (effDec eff x.1).2))

/-- The block of reaction `n` in get_rxn_pres_mod. -/
def presBlockOk (nsp : Nat) (n : Numbered) (b : List CStmt) : Bool :=
  b.all (fun s => s.target == .var .thd || s.target == .var .k0 || s.target == .var .kinf || s.target == .var .Pr ||
    s.target == .var .logFcent || s.target == .var .A || s.target == .var .B || s.target == .arr .presMod n.p) &&
  match n.r.kind, AMem.get (aexecAll b []) (.arr .presMod n.p) with
    | .thirdBody eff, .lin cs => effMatches nsp cs eff
    | .falloff eff, .fall cs => effMatches nsp cs eff
    | _, _ => false

/-- All blocks of get_rxn_pres_mod. -/
def presOk (nsp : Nat) : List (List CStmt) → List Numbered → Bool
  | bs, [] => decide (bs = [])
  | bs, n :: ns => if n.r.modified then
      match bs with
      | [] => false
      | b :: bs => presBlockOk nsp n b && presOk nsp bs ns
    else presOk nsp bs ns

/-- The universal gas constant of the sources, 8.31446210e+03. -/
def gasConstant : CExpr := .num 83144621 4

/-- get_rxn_pres_mod computes third body concentrations and falloff factors of the reactions `rs`. -/
def checkPresMod (M : Mech) (rs : List Reaction) : Bool :=
  decide (M.presModStart = [.set (.var .logT) (.log (.rd (.var .T))),
    .set (.var .m) (.div (.rd (.var .pres)) (.mul gasConstant (.rd (.var .T))))]) &&
  presOk M.nsp M.presModBlocks (number rs)

theorem numberFrom_ge (rs : List Reaction) (k j p : Nat) :
    ∀ n ∈ numberFrom rs k j p, k ≤ n.k ∧ j ≤ n.j ∧ p ≤ n.p := by
  induction rs generalizing k j p with
  | nil => intro n hn; exact absurd hn (by simp [numberFrom])
  | cons r rs ih =>
    intro n hn
    rw [numberFrom, List.mem_cons] at hn
    rcases hn with rfl | hn
    · exact ⟨le_refl _, le_refl _, le_refl _⟩
    · obtain ⟨h1, h2, h3⟩ := ih _ _ _ n hn
      refine ⟨by omega, ?_, ?_⟩
      · split at h2 <;> omega
      · split at h3 <;> omega

section blocks
variable {K : Type} [Field K] [LinearOrder K] [IsStrictOrderedRing K] [CMath K] {mtot : K}

theorem base_sound_of {μ ν : CLoc → (Nat → K) → K} (h : AMem.Sound mtot [] μ)
    (hb : ∀ l, baseAV l ≠ .any → ν l = μ l) : AMem.Sound mtot [] ν := by
  intro l
  by_cases hl : baseAV l = .any
  · have : AMem.get [] l = .any := hl
    rw [this]
    trivial
  · rw [hb l hl]
    exact h l

theorem rateBlock_targets {n : Numbered} {b : List CStmt} (h : rateBlockOk n b = true) :
    ∀ s ∈ b, s.target = .var .kf ∨ s.target = .var .Kc ∨ s.target = .arr .fwd n.k ∨
      (n.r.reversible = true ∧ s.target = .arr .rev n.j) := by
  intro s hs
  simp only [rateBlockOk, Bool.and_eq_true, List.all_eq_true] at h
  have := h.1.1 s hs
  simp only [Bool.or_eq_true, beq_iff_eq, Bool.and_eq_true] at this
  tauto

theorem ratesOk_targets (bs : List (List CStmt)) (ns : List Numbered) (h : ratesOk bs ns = true) :
    ∀ s ∈ bs.flatten, s.target = .var .kf ∨ s.target = .var .Kc ∨
      ∃ n ∈ ns, s.target = .arr .fwd n.k ∨ (n.r.reversible = true ∧ s.target = .arr .rev n.j) := by
  induction bs generalizing ns with
  | nil => intro s hs; exact absurd hs (by simp)
  | cons b bs ih =>
    cases ns with
    | nil => exact absurd h (by simp [ratesOk])
    | cons n ns =>
      simp only [ratesOk, Bool.and_eq_true] at h
      intro s hs
      rw [List.flatten_cons, List.mem_append] at hs
      rcases hs with hs | hs
      · rcases rateBlock_targets h.1 s hs with h' | h' | h' | h'
        · exact Or.inl h'
        · exact Or.inr (Or.inl h')
        · exact Or.inr (Or.inr ⟨n, List.mem_cons_self, Or.inl h'⟩)
        · exact Or.inr (Or.inr ⟨n, List.mem_cons_self, Or.inr h'⟩)
      · rcases ih ns h.2 s hs with h' | h' | ⟨n', h', h''⟩
        · exact Or.inl h'
        · exact Or.inr (Or.inl h')
        · exact Or.inr (Or.inr ⟨n', List.mem_cons_of_mem _ h', h''⟩)

theorem mono_perm {l l' : List Nat} {f : (Nat → K) → K} (hp : l.Perm l') (h : (AV.mono l).holds mtot f) :
    (AV.mono l').holds mtot f := by
  obtain ⟨κ, h1, h2⟩ := h
  exact ⟨κ, h1, fun C => by rw [h2, (hp.map C).prod_eq]⟩

/-- Rates of all reactions. -/
theorem rates_sound (L : CMathLaws K) (bs : List (List CStmt)) (rs : List Reaction) (k j p : Nat)
    (h : ratesOk bs (numberFrom rs k j p) = true) {μ : CLoc → (Nat → K) → K} (hμ : AMem.Sound mtot [] μ)
    (hC : ∀ i C, μ (.arr .C i) C = C i) :
    ∀ n ∈ numberFrom rs k j p,
      (AV.mono n.r.reactants).holds mtot (execF bs.flatten μ (.arr .fwd n.k)) ∧
      (n.r.reversible = true → (AV.mono n.r.products).holds mtot (execF bs.flatten μ (.arr .rev n.j))) := by
  induction rs generalizing k j p bs μ with
  | nil => intro n hn; exact absurd hn (by simp [numberFrom])
  | cons r rs ih =>
    rw [numberFrom] at h ⊢
    cases bs with
    | nil => exact absurd h (by simp [ratesOk])
    | cons b bs =>
      simp only [ratesOk, Bool.and_eq_true] at h
      obtain ⟨hb, hbs⟩ := h
      have ht := rateBlock_targets hb
      have hnb : ∀ l, (l ≠ .var .kf ∧ l ≠ .var .Kc ∧ (∀ i, l ≠ .arr .fwd i) ∧ (∀ i, l ≠ .arr .rev i)) →
          execF b μ l = μ l := by
        intro l hl
        refine execF_of_not_target b μ l fun s hs e => ?_
        rcases ht s hs with h' | h' | h' | ⟨_, h'⟩ <;> rw [h'] at e
        · exact hl.1 e.symm
        · exact hl.2.1 e.symm
        · exact hl.2.2.1 _ e.symm
        · exact hl.2.2.2 _ e.symm
      have hμ' : AMem.Sound mtot [] (execF b μ) := by
        refine base_sound_of hμ fun l hl => hnb l ⟨?_, ?_, ?_, ?_⟩
        · rintro rfl; exact hl rfl
        · rintro rfl; exact hl rfl
        · rintro i rfl; exact hl rfl
        · rintro i rfl; exact hl rfl
      have hC' : ∀ i C, execF b μ (.arr .C i) C = C i := by
        intro i C
        rw [hnb (.arr .C i) (by simp)]
        exact hC i C
      have hab : AMem.Sound mtot (aexecAll b []) (execF b μ) := by
        refine aexecAll_sound L b hμ hC fun s hs i e => ?_
        rcases ht s hs with h' | h' | h' | ⟨_, h'⟩ <;> rw [h'] at e <;> simp at e
      intro n hn
      rw [List.mem_cons] at hn
      rw [List.flatten_cons, execF_append]
      rcases hn with rfl | hn
      · have hge := numberFrom_ge rs (k + 1) (if r.reversible then j + 1 else j) (if r.modified then p + 1 else p)
        have hk1 : execF bs.flatten (execF b μ) (.arr .fwd k) = execF b μ (.arr .fwd k) := by
          refine execF_of_not_target _ _ _ fun s hs e => ?_
          rcases ratesOk_targets bs _ hbs s hs with h' | h' | ⟨n', hn', h' | ⟨_, h'⟩⟩ <;> rw [h'] at e
          · simp at e
          · simp at e
          · have := (hge n' hn').1
            simp only [CLoc.arr.injEq, true_and] at e
            omega
          · simp at e
        have hk2 : r.reversible = true →
            execF bs.flatten (execF b μ) (.arr .rev j) = execF b μ (.arr .rev j) := by
          intro hr
          refine execF_of_not_target _ _ _ fun s hs e => ?_
          rcases ratesOk_targets bs _ hbs s hs with h' | h' | ⟨n', hn', h' | ⟨_, h'⟩⟩ <;> rw [h'] at e
          · simp at e
          · simp at e
          · simp at e
          · have := (hge n' hn').2.1
            simp only [CLoc.arr.injEq, true_and] at e
            simp only [hr, if_true] at this
            omega
        simp only [rateBlockOk, Bool.and_eq_true, Bool.or_eq_true, Bool.not_eq_true'] at hb
        obtain ⟨⟨_, hf⟩, hv⟩ := hb
        constructor
        · dsimp only
          rw [hk1]
          have := hab (.arr .fwd k)
          split at hf
          · rename_i l hl
            rw [hl] at this
            exact mono_perm (List.isPerm_iff.1 hf) this
          · exact absurd hf (by simp)
        · intro hr
          dsimp only at hr ⊢
          rw [hk2 hr]
          have := hab (.arr .rev j)
          rcases hv with hv | hv
          · rw [hr] at hv; exact absurd hv (by simp)
          · split at hv
            · rename_i l hl
              rw [hl] at this
              exact mono_perm (List.isPerm_iff.1 hv) this
            · exact absurd hv (by simp)
      · exact ih bs _ _ _ hbs hμ' hC' n hn

theorem effMatches_sound {nsp : Nat} {cs : List CTerm} {eff : List (Nat × Nat × Nat)}
    (h : effMatches nsp cs eff = true) (C : Nat → K) (hm : mtot = ∑ i ∈ Finset.range nsp, C i) :
    linVal mtot cs C = thirdBody nsp eff C := by
  simp only [effMatches, Bool.and_eq_true, decide_eq_true_eq, List.all_eq_true, Bool.or_eq_true,
    List.contains_iff_mem] at h
  obtain ⟨⟨hn, hc⟩, he⟩ := h
  have hterm : ∀ t ∈ cs, t.val C = ((efficiency eff t.i : K) - 1) * C t.i := by
    intro t ht
    have h1 := (hc t ht).2
    have h2 : ((if t.neg then -(t.m : K) else t.m) * 10 ^ (effDec eff t.i).2 : K) =
        (((effDec eff t.i).1 : K) - 10 ^ (effDec eff t.i).2) * 10 ^ t.e := by
      have := congrArg (Int.cast : Int → K) h1
      push_cast at this
      exact this
    have p1 : (10 : K) ^ (effDec eff t.i).2 ≠ 0 := pow_ne_zero _ (by norm_num)
    have p2 : (10 : K) ^ t.e ≠ 0 := pow_ne_zero _ (by norm_num)
    have h3 : (if t.neg then -((t.m : K) / 10 ^ t.e) else (t.m : K) / 10 ^ t.e) =
        ((effDec eff t.i).1 : K) / 10 ^ (effDec eff t.i).2 - 1 := by
      have h4 : (if t.neg then -((t.m : K) / 10 ^ t.e) else (t.m : K) / 10 ^ t.e) =
          (if t.neg then -(t.m : K) else t.m) / 10 ^ t.e := by
        split
        · rw [neg_div]
        · rfl
      rw [h4, div_eq_iff p2]
      field_simp
      linarith
    simp only [CTerm.val, h3, efficiency]
  have hsum : (cs.map fun t => t.val C).sum =
      ∑ i ∈ Finset.range nsp, ((efficiency eff i : K) - 1) * C i := by
    have e1 : (cs.map fun t => t.val C) = (cs.map (·.i)).map fun i => ((efficiency eff i : K) - 1) * C i := by
      rw [List.map_map]
      exact List.map_congr_left hterm
    rw [e1, ← List.sum_toFinset _ hn]
    refine Finset.sum_subset ?_ ?_
    · intro i hi
      simp only [List.mem_toFinset, List.mem_map] at hi
      obtain ⟨t, ht, rfl⟩ := hi
      exact Finset.mem_range.2 (hc t ht).1
    · intro i _ hi
      have : (efficiency eff i : K) = 1 := by
        unfold efficiency
        cases hfind : eff.find? (fun x => decide (x.1 = i)) with
        | none => simp [effDec, hfind]
        | some x =>
          have hx := List.find?_some hfind
          have hxm := List.mem_of_find?_eq_some hfind
          have hxi : x.1 = i := by simpa using hx
          rcases he x hxm with h | h
          · rw [hxi] at h
            exact absurd (List.mem_toFinset.2 h) hi
          · rw [hxi] at h
            rw [h]
            push_cast
            exact div_self (pow_ne_zero _ (by norm_num))
      rw [this]
      ring
  rw [linVal, hsum, thirdBody, hm, ← Finset.sum_add_distrib]
  exact Finset.sum_congr rfl fun i _ => by ring

theorem presBlock_targets {nsp : Nat} {n : Numbered} {b : List CStmt} (h : presBlockOk nsp n b = true) :
    ∀ s ∈ b, (∃ v ∈ [CVar.thd, .k0, .kinf, .Pr, .logFcent, .A, .B], s.target = .var v) ∨
      s.target = .arr .presMod n.p := by
  intro s hs
  simp only [presBlockOk, Bool.and_eq_true, List.all_eq_true] at h
  have := h.1 s hs
  simp only [Bool.or_eq_true, beq_iff_eq] at this
  simp only [List.mem_cons, List.not_mem_nil, or_false]
  rcases this with ((((((h | h) | h) | h) | h) | h) | h) | h
  · exact Or.inl ⟨_, Or.inl rfl, h⟩
  · exact Or.inl ⟨_, Or.inr (Or.inl rfl), h⟩
  · exact Or.inl ⟨_, Or.inr (Or.inr (Or.inl rfl)), h⟩
  · exact Or.inl ⟨_, Or.inr (Or.inr (Or.inr (Or.inl rfl))), h⟩
  · exact Or.inl ⟨_, Or.inr (Or.inr (Or.inr (Or.inr (Or.inl rfl)))), h⟩
  · exact Or.inl ⟨_, Or.inr (Or.inr (Or.inr (Or.inr (Or.inr (Or.inl rfl))))), h⟩
  · exact Or.inl ⟨_, Or.inr (Or.inr (Or.inr (Or.inr (Or.inr (Or.inr rfl))))), h⟩
  · exact Or.inr h

theorem presOk_targets (nsp : Nat) (bs : List (List CStmt)) (ns : List Numbered) (h : presOk nsp bs ns = true) :
    ∀ s ∈ bs.flatten, (∃ v ∈ [CVar.thd, .k0, .kinf, .Pr, .logFcent, .A, .B], s.target = .var v) ∨
      ∃ n ∈ ns, n.r.modified = true ∧ s.target = .arr .presMod n.p := by
  induction ns generalizing bs with
  | nil =>
    simp only [presOk, decide_eq_true_eq] at h
    subst h
    intro s hs
    exact absurd hs (by simp)
  | cons n ns ih =>
    unfold presOk at h
    split at h
    · rename_i hm
      split at h
      · exact absurd h (by simp)
      · rename_i b bs
        simp only [Bool.and_eq_true] at h
        intro s hs
        rw [List.flatten_cons, List.mem_append] at hs
        rcases hs with hs | hs
        · rcases presBlock_targets h.1 s hs with h' | h'
          · exact Or.inl h'
          · exact Or.inr ⟨n, List.mem_cons_self, hm, h'⟩
        · rcases ih bs h.2 s hs with h' | ⟨n', h', h''⟩
          · exact Or.inl h'
          · exact Or.inr ⟨n', List.mem_cons_of_mem _ h', h''⟩
    · intro s hs
      rcases ih bs h s hs with h' | ⟨n', h', h''⟩
      · exact Or.inl h'
      · exact Or.inr ⟨n', List.mem_cons_of_mem _ h', h''⟩

/-- Meaning of a pressure modification for a family of values. -/
def presSpec (nsp : Nat) (mtot : K) : ReactionKind → ((Nat → K) → K) → Prop
  | .elementary, _ => True
  | .thirdBody eff, f => ∃ cs, effMatches nsp cs eff = true ∧ (AV.lin cs).holds mtot f
  | .falloff eff, f => ∃ cs, effMatches nsp cs eff = true ∧ (AV.fall cs).holds mtot f

/-- Pressure modifications of all reactions. -/
theorem pres_sound (L : CMathLaws K) (nsp : Nat) (bs : List (List CStmt)) (rs : List Reaction) (k j p : Nat)
    (h : presOk nsp bs (numberFrom rs k j p) = true) {μ : CLoc → (Nat → K) → K} (hμ : AMem.Sound mtot [] μ)
    (hC : ∀ i C, μ (.arr .C i) C = C i) :
    ∀ n ∈ numberFrom rs k j p, presSpec nsp mtot n.r.kind (execF bs.flatten μ (.arr .presMod n.p)) := by
  induction rs generalizing k j p bs μ with
  | nil => intro n hn; exact absurd hn (by simp [numberFrom])
  | cons r rs ih =>
    rw [numberFrom] at h ⊢
    unfold presOk at h
    split at h
    · rename_i hm
      have hm2 : r.modified = true := hm
      simp only [hm2, if_true] at h ⊢
      cases bs with
      | nil => exact absurd h (by simp)
      | cons b bs =>
        simp only [Bool.and_eq_true] at h
        obtain ⟨hb, hbs⟩ := h
        have ht := presBlock_targets hb
        have hnb : ∀ l, ((∀ v ∈ [CVar.thd, .k0, .kinf, .Pr, .logFcent, .A, .B], l ≠ .var v) ∧
            (∀ i, l ≠ .arr .presMod i)) → execF b μ l = μ l := by
          intro l hl
          refine execF_of_not_target b μ l fun s hs e => ?_
          rcases ht s hs with ⟨v, hv, h'⟩ | h' <;> rw [h'] at e
          · exact hl.1 v hv e.symm
          · exact hl.2 _ e.symm
        have hμ' : AMem.Sound mtot [] (execF b μ) := by
          refine base_sound_of hμ fun l hl => hnb l ⟨?_, ?_⟩
          · rintro v hv rfl
            simp only [List.mem_cons, List.not_mem_nil, or_false] at hv
            rcases hv with rfl | rfl | rfl | rfl | rfl | rfl | rfl <;> exact hl rfl
          · rintro i rfl; exact hl rfl
        have hC' : ∀ i C, execF b μ (.arr .C i) C = C i := by
          intro i C
          rw [hnb (.arr .C i) (by simp)]
          exact hC i C
        have hab : AMem.Sound mtot (aexecAll b []) (execF b μ) := by
          refine aexecAll_sound L b hμ hC fun s hs i e => ?_
          rcases ht s hs with ⟨v, _, h'⟩ | h' <;> rw [h'] at e <;> simp at e
        intro n hn
        rw [List.mem_cons] at hn
        rw [List.flatten_cons, execF_append]
        rcases hn with rfl | hn
        · have hge := numberFrom_ge rs (k + 1) (if r.reversible then j + 1 else j) (p + 1)
          have hk1 : execF bs.flatten (execF b μ) (.arr .presMod p) = execF b μ (.arr .presMod p) := by
            refine execF_of_not_target _ _ _ fun s hs e => ?_
            rcases presOk_targets nsp bs _ hbs s hs with ⟨v, _, h'⟩ | ⟨n', hn', hm', h'⟩ <;> rw [h'] at e
            · simp at e
            · have := (hge n' hn').2.2
              simp only [CLoc.arr.injEq, true_and] at e
              omega
          dsimp only
          rw [hk1]
          simp only [presBlockOk, Bool.and_eq_true] at hb
          have hv := hb.2
          have := hab (.arr .presMod p)
          split at hv
          · rename_i eff cs hk hl
            rw [hl] at this
            rw [hk]
            exact ⟨cs, hv, this⟩
          · rename_i eff cs hk hl
            rw [hl] at this
            rw [hk]
            exact ⟨cs, hv, this⟩
          · exact absurd hv (by simp)
        · exact ih bs _ _ _ hbs hμ' hC' n hn
    · rename_i hm
      have hm2 : ¬ r.modified = true := hm
      simp only [hm2] at h ⊢
      intro n hn
      rw [List.mem_cons] at hn
      rcases hn with rfl | hn
      · have : r.kind = .elementary := by
          by_contra hne
          exact hm (by simpa [Reaction.modified] using hne)
        dsimp only
        rw [this]
        trivial
      · exact ih bs _ _ _ h hμ hC n hn

end blocks
end DLB
