import Verif.Lemmas.JacobGroups
/-
The variable `J_nplusone` of `eval_jacob`: every assignment to it replaces the value, so that it holds the contribution of the last reaction
that assigns it.
-/
set_option autoImplicit false
set_option linter.unusedSectionVars false

namespace DLB

/-- The factor of `j_temp` that a block assigns to `J_nplusone`, if it assigns it. -/
def blockN (b : List CStmt × List CStmt) : Option (Option SDec) := match b.2 with
  | [] => if unassigned b.1 (.var .jN) then some none else none
  | [.set (.var .jN) e] => match e.coefs [([(CLoc.var .jTemp).code], [])] with
    | some [c] => some (some c)
    | _ => none
  | _ => none

/-- The last of the reactions whose block assigns `J_nplusone`, with the factor. -/
def lastN : List (List CStmt × List CStmt) → List Numbered → Option (Numbered × SDec) → Option (Option (Numbered × SDec))
  | [], _, a => some a
  | b :: bs, n :: ns, a => match blockN b with
    | none => none
    | some none => lastN bs ns a
    | some (some c) => lastN bs ns (some (n, c))
  | _ :: _, [], _ => none

/-- The same for all parts. -/
def partsLastN : List JacobPart → List Numbered → Option (Numbered × SDec) → Option (Option (Numbered × SDec))
  | [], _, a => some a
  | P :: Ps, ns, a => match lastN P.blocks ns none with
    | none => none
    | some none => if unassigned P.stmts (.var .jN) then partsLastN Ps (ns.drop P.blocks.length) a else none
    | some (some r) => partsLastN Ps (ns.drop P.blocks.length) (some r)

/-- What `J_nplusone` is; `x0` before the first assignment. -/
def NState (D : Package) (v : JacobVals ℝ) (x0 : ℝ) (a : Option (Numbered × SDec)) (z : ℝ) : Prop := match a with
  | none => z = x0
  | some (n, c) => ∃ x, TVal D n v x ∧ z = SDec.val c * x

theorem block_jTemp {D : Package} {ws : List Nat} {n : Numbered} {cst cst' : Option CExpr} {mask mask' : Nat} {b : List CStmt × List CStmt}
    (h : blockOk D ws n cst mask b = some (cst', mask')) {v : JacobVals ℝ} {τ : CLoc → ℝ} (hb : Base v τ) (hc : Conc cst τ)
    (hz : ZeroOutside mask τ) (hm : v.m = ∑ i ∈ Finset.range D.nsp, v.C i) (hT : 0 < v.T) :
    TVal D n v (execT b.1 τ (.var .jTemp)) := by
  unfold blockOk at h
  split at h
  · exact absurd h (by simp)
  rename_i cst1 h1
  split at h
  · exact absurd h (by simp)
  rename_i rs hrs
  split at h
  · rename_i h2
    split at h
    · exact absurd h (by simp)
    rename_i mask1 hm1
    obtain ⟨-, -, t3, t4, -⟩ := tLocals_sound h1 hb hc hm hT
    obtain ⟨-, r2, -⟩ := rows_exec hrs hm1 _ (fun l hl => (t3 l).trans (hz l hl))
    rw [← splitJac_append b.1, execT_append, r2 _ rfl]
    exact t4
  · exact absurd h (by simp)

theorem blockN_sound {D : Package} {ws : List Nat} {n : Numbered} {cst cst' : Option CExpr} {mask mask' : Nat} {b : List CStmt × List CStmt}
    (h : blockOk D ws n cst mask b = some (cst', mask')) {v : JacobVals ℝ} {τ : CLoc → ℝ} (hb : Base v τ) (hc : Conc cst τ)
    (hz : ZeroOutside mask τ) (hm : v.m = ∑ i ∈ Finset.range D.nsp, v.C i) (hT : 0 < v.T) {r : Option SDec} (hr : blockN b = some r) :
    match r with
    | none => execT (b.1 ++ b.2) τ (.var .jN) = τ (.var .jN)
    | some c => ∃ x, TVal D n v x ∧ execT (b.1 ++ b.2) τ (.var .jN) = SDec.val c * x := by
  have ht := block_jTemp h hb hc hz hm hT
  unfold blockN at hr
  split at hr
  · rename_i hb2
    split at hr
    · rename_i hu
      obtain rfl := Option.some.inj hr
      rw [hb2, List.append_nil]
      exact execT_frame _ _ _ hu
    · exact absurd hr (by simp)
  · rename_i e hb2
    split at hr
    · rename_i c hcf
      obtain rfl := Option.some.inj hr
      refine ⟨_, ht, ?_⟩
      rw [hb2, execT_append]
      simp only [execT, CStmt.execT, setT, if_true]
      rw [coefs_sound _ hcf]
      simp [pairVal, keyVal, codesVal_cons, codesVal_nil]
    · exact absurd hr (by simp)
  · exact absurd hr (by simp)

theorem lastN_sound {D : Package} {ws : List Nat} (bs : List (List CStmt × List CStmt)) {ns ns' : List Numbered} {cst : Option CExpr}
    {mask mask' : Nat} (h : blocksOk D ws bs ns cst mask = some (ns', mask')) {v : JacobVals ℝ} {τ : CLoc → ℝ} (hb : Base v τ)
    (hc : Conc cst τ) (hz : ZeroOutside mask τ) (hm : v.m = ∑ i ∈ Finset.range D.nsp, v.C i) (hT : 0 < v.T) {x0 : ℝ}
    {a a' : Option (Numbered × SDec)} (hl : lastN bs ns a = some a') (ha : NState D v x0 a (τ (.var .jN))) :
    NState D v x0 a' (execT (bs.map fun b => b.1 ++ b.2).flatten τ (.var .jN)) ∧ ns.drop bs.length = ns' := by
  induction bs generalizing ns cst mask τ a with
  | nil =>
    simp only [blocksOk, Option.some.injEq, Prod.mk.injEq] at h
    simp only [lastN, Option.some.injEq] at hl
    subst hl
    exact ⟨ha, h.1⟩
  | cons b bs ih =>
    unfold blocksOk at h
    split at h
    · exact absurd h (by simp)
    · rename_i n ns1
      split at h
      · exact absurd h (by simp)
      · rename_i cst1 mask1 h1
        obtain ⟨b1, c1, z1, -⟩ := block_sound h1 hb hc hz hm hT
        rw [List.map_cons, List.flatten_cons, execT_append]
        unfold lastN at hl
        split at hl
        · exact absurd hl (by simp)
        · rename_i hbn
          have := blockN_sound h1 hb hc hz hm hT hbn
          exact ih h b1 c1 z1 hl (by rw [this]; exact ha)
        · rename_i c hbn
          have := blockN_sound h1 hb hc hz hm hT hbn
          exact ih h b1 c1 z1 hl this

theorem lastN_unassigned (bs : List (List CStmt × List CStmt)) {ns : List Numbered} {a a' : Option (Numbered × SDec)}
    (h : lastN bs ns a = some a') (hu : ∀ s ∈ (bs.map fun b => b.1 ++ b.2).flatten, s.target ≠ .var .jN) : a' = a := by
  induction bs generalizing ns a with
  | nil => exact (Option.some.inj h).symm
  | cons b bs ih =>
    cases ns with
    | nil => exact absurd h (by simp [lastN])
    | cons n ns =>
      rw [List.map_cons, List.flatten_cons] at hu
      have hu' : ∀ s ∈ (bs.map fun b => b.1 ++ b.2).flatten, s.target ≠ .var .jN := fun s hs => hu s (List.mem_append.2 (Or.inr hs))
      unfold lastN at h
      split at h
      · exact absurd h (by simp)
      · exact ih h hu'
      · rename_i c hbn
        exfalso
        unfold blockN at hbn
        split at hbn
        · split at hbn <;> simp at hbn
        · rename_i e hb2
          exact hu (.set (.var .jN) e) (List.mem_append.2 (Or.inl (List.mem_append.2 (Or.inr (by rw [hb2]; simp))))) rfl
        · exact absurd hbn (by simp)

theorem partsLastN_sound {D : Package} {ws : List Nat} (Ps : List JacobPart) {ns : List Numbered} {mask : Nat} (h : partsOk D ws Ps ns mask = true)
    {v : JacobVals ℝ} {jac : Nat → ℝ} (hz : ∀ l, mask.testBit l = false → jac l = 0) (hm : v.m = ∑ i ∈ Finset.range D.nsp, v.C i)
    (hT : 0 < v.T) {x0 x : ℝ} {a a' : Option (Numbered × SDec)} (hl : partsLastN Ps ns a = some a') (ha : NState D v x0 a x) :
    NState D v x0 a' (v.partsN Ps jac x) := by
  induction Ps generalizing ns mask jac a x with
  | nil =>
    obtain rfl := Option.some.inj hl
    exact ha
  | cons P Ps ih =>
    simp only [partsOk, Bool.and_eq_true] at h
    obtain ⟨h1, h2⟩ := h
    split at h2
    · exact absurd h2 (by simp)
    · rename_i ns' mask' h3
      obtain ⟨b1, j1⟩ := start_sound h1 v jac
      obtain ⟨z2, -⟩ := blocks_sound P.blocks h3 b1 (fun c hc => absurd hc (by simp))
        (fun l hl => (j1 l).trans (hz l hl)) hm hT
      have hz2 : ∀ l, mask'.testBit l = false → execT P.stmts (v.mem jac) (.arr .jac l) = 0 := by
        intro l hl
        have := z2 l hl
        unfold JacobPart.stmts
        rw [execT_append]
        exact this
      rw [JacobVals.partsN]
      unfold partsLastN at hl
      split at hl
      · exact absurd hl (by simp)
      · rename_i hln
        obtain ⟨-, hns⟩ := lastN_sound P.blocks h3 b1 (fun c hc => absurd hc (by simp)) (fun l hl => (j1 l).trans (hz l hl)) hm hT
          (x0 := execT P.start (v.mem jac) (.var .jN)) hln rfl
        rw [hns] at hl
        split at hl
        · rename_i hu
          rw [if_pos hu]
          exact ih h2 hz2 hl ha
        · exact absurd hl (by simp)
      · rename_i r hln
        obtain ⟨hst, hns⟩ := lastN_sound P.blocks h3 b1 (fun c hc => absurd hc (by simp)) (fun l hl => (j1 l).trans (hz l hl)) hm hT
          (x0 := execT P.start (v.mem jac) (.var .jN)) hln rfl
        rw [hns] at hl
        have hu : unassigned P.stmts (.var .jN) ≠ true := by
          intro hu
          simp only [unassigned, List.all_eq_true, bne_iff_ne] at hu
          have := lastN_unassigned P.blocks hln fun s hs => hu s (by
            unfold JacobPart.stmts
            exact List.mem_append.2 (Or.inr hs))
          exact absurd this (by simp)
        rw [if_neg hu]
        refine ih h2 hz2 hl ?_
        unfold JacobPart.stmts
        rw [execT_append]
        obtain ⟨n, c⟩ := r
        exact hst

theorem lastN_mem (bs : List (List CStmt × List CStmt)) {ns : List Numbered} {a : Option (Numbered × SDec)} {r : Numbered × SDec}
    (h : lastN bs ns a = some (some r)) : a = some r ∨ r.1 ∈ ns := by
  induction bs generalizing ns a with
  | nil => exact Or.inl (Option.some.inj h)
  | cons b bs ih =>
    cases ns with
    | nil => exact absurd h (by simp [lastN])
    | cons n ns =>
      unfold lastN at h
      split at h
      · exact absurd h (by simp)
      · exact (ih h).imp id fun h => List.mem_cons_of_mem _ h
      · rcases ih h with h | h
        · exact Or.inr (by rw [← Option.some.inj h]; simp)
        · exact Or.inr (List.mem_cons_of_mem _ h)

theorem partsLastN_mem (Ps : List JacobPart) {ns : List Numbered} {a : Option (Numbered × SDec)} {r : Numbered × SDec}
    (h : partsLastN Ps ns a = some (some r)) : a = some r ∨ r.1 ∈ ns := by
  induction Ps generalizing ns a with
  | nil => exact Or.inl (Option.some.inj h)
  | cons P Ps ih =>
    unfold partsLastN at h
    split at h
    · exact absurd h (by simp)
    · split at h
      · exact (ih h).imp id fun h => List.mem_of_mem_drop h
      · exact absurd h (by simp)
    · rename_i r' hl
      rcases ih h with h | h
      · obtain rfl := Option.some.inj h
        exact Or.inr ((lastN_mem _ hl).resolve_left (by simp))
      · exact Or.inr (List.mem_of_mem_drop h)

/-- The last assignment to `J_nplusone` is that for reaction `k`, with the change and the molecular weight of species `N`. -/
def lastNOk (D : Package) (N : Nat) (ws : List Nat) (k : Nat) (Ps : List JacobPart) : Bool := match partsLastN Ps (number D.reactions) none with
  | some (some (m, c)) => m.k == k && closeQ c (m.r.net N * (ws.getD N 0 : Nat)) (10 ^ 5) (m.r.net N * (ws.getD N 0 : Nat)).natAbs
  | _ => false

/-- A product with a factor that is nearly right. -/
theorem factor_near {w N x s t : ℝ} (hw : |w - N| ≤ |N| / 10 ^ 14) (t1 : |x - s| ≤ 8 / 10 ^ 6 * t) (t2 : |x| ≤ 5000 * t) :
    |w * x - N * s| ≤ 1 / 10 ^ 5 * (|N| * t) ∧ |N * s| ≤ 5001 * (|N| * t) := by
  have ht : 0 ≤ t := by have := abs_nonneg x; linarith
  have hN := abs_nonneg N
  constructor
  · have e : w * x - N * s = (w - N) * x + N * (x - s) := by ring
    rw [e]
    refine (abs_add_le _ _).trans ?_
    rw [abs_mul, abs_mul]
    have q1 := mul_le_mul hw t2 (abs_nonneg _) (by positivity)
    have q2 := mul_le_mul_of_nonneg_left t1 hN
    have q3 : 0 ≤ |N| * t := mul_nonneg hN ht
    generalize |N| = N at *
    norm_num at q1 q2 ⊢
    nlinarith
  · have hs : |s| ≤ 5001 * t := by
      have q1 := abs_sub_abs_le_abs_sub s x
      rw [abs_sub_comm] at q1
      norm_num at t1
      linarith
    rw [abs_mul]
    exact (mul_le_mul_of_nonneg_left hs hN).trans (le_of_eq (by ring))

/-- `J_nplusone` is near the derivative of the contribution of one reaction. -/
theorem jacob_lastN {D : Package} (hD : D ∈ shipped) (hz : sizesOk D = true) {J : JacobSrc} (hdb : dbOk D J = true) {ws : List Nat}
    (hw : (List.range D.nsp).map D.weight5 = ws) (hJ : partsOk D ws J.parts (number D.reactions) 0 = true) {k0 N : Nat} (hN : N < D.nsp)
    (hl : lastNOk D N ws k0 J.parts = true) (hpre : (J.pre.map CStmt.target).contains (.var .jN) = true) (pres : ℝ) (y : Nat → ℝ)
    (h1 : 200 ≤ y 0) (h2 : y 0 ≤ 6000) (hp : 0 < pres) (hY : ∀ i, i < D.nsp → 0 ≤ complement (D.nsp - 1) (fun i => y (i + 1)) i)
    (hmid : D.chemistry.BetweenFits (y 0))
    (hpole : D.chemistry.AwayFromPoles (y 0) (D.chemistry.concentrations (y 0) pres (complement (D.nsp - 1) fun i => y (i + 1))))
    (hcut : D.chemistry.AboveCutOff (y 0) (D.chemistry.concentrations (y 0) pres (complement (D.nsp - 1) fun i => y (i + 1))))
    {v : JacobVals ℝ} (hst : JacobStages D.mech J pres y (fun _ => 0) v) :
    (∃ d, HasDerivAt (fun T => D.chemistry.dYdt T pres (complement (D.nsp - 1) fun i => y (i + 1)) N) d (y 0)) ∧
    ∃ m ∈ number D.reactions, m.k = k0 ∧ ∃ d,
      HasDerivAt (fun T => D.chemistry.dYdtFrom m T pres (complement (D.nsp - 1) fun i => y (i + 1)) N) d (y 0) ∧
      |v.jN - d| ≤ 1 / 10 ^ 5 * (D.chemistry.dYdtTerms (y 0) pres (complement (D.nsp - 1) fun i => y (i + 1)) N / y 0) ∧
      |d| ≤ 5001 * (D.chemistry.dYdtTerms (y 0) pres (complement (D.nsp - 1) fun i => y (i + 1)) N / y 0) := by
  have hc := checked_of_shipped hD
  have hT : 0 < y 0 := by linarith
  obtain ⟨hat, -⟩ := jacob_at hc hdb pres y _ hT hp hY hst
  have hvT := hst.hT
  have hjN := hst.hjN hpre
  generalize execT (J.pre ++ J.dBdT) (inT (y 0) pres fun _ => y 0) (.var .jN) = z0 at hjN
  rw [← hvT] at hT h1 h2 hmid hpole hcut ⊢
  obtain ⟨cs, hb, -⟩ := parts_sound J.parts hJ (v := v) (jac := fun _ => 0) (fun _ _ => rfl) hat.m hT
  have hreg := regular_of hD hat h1 h2 hp hY hpole hcut hb.vals
  obtain ⟨nρ, -⟩ := density_near hD v.T pres hT hp _ hY v.rho v.C hat.rho hat.conc
  generalize complement (D.nsp - 1) (fun i => y (i + 1)) = Y at *
  have hρ : D.chemistry.density v.T pres Y ≠ 0 := by
    intro h0
    exact hat.rho_pos.ne' (nρ.zero_iff.2 h0)
  refine ⟨⟨_, D.chemistry.dYdt_deriv pres Y hT hρ hmid hreg N⟩, ?_⟩
  unfold lastNOk at hl
  split at hl
  swap
  · exact absurd hl (by simp)
  rename_i m c hm
  rw [Bool.and_eq_true, beq_iff_eq] at hl
  obtain ⟨hk, hcl⟩ := hl
  have hmem := (partsLastN_mem J.parts hm).resolve_left (by simp)
  refine ⟨m, hmem, hk, _, D.chemistry.dYdtFrom_deriv pres Y hT hρ hmid hreg N m hmem, ?_⟩
  obtain ⟨x, hx, ex⟩ : NState D v z0 (some (m, c)) v.jN := by
    rw [hjN]
    exact partsLastN_sound J.parts hJ (fun _ _ => rfl) hat.m hT hm rfl
  obtain ⟨t1, t2⟩ := tVal_near hD hz hat h1 h2 hp hY hpole hcut m hmem x hx
  have hW : D.chemistry.weight N = ((ws.getD N 0 : Nat) : ℝ) / 10 ^ 5 := by
    rw [← hw, List.getD_eq_getElem _ _ (by simp; omega), List.getElem_map, List.getElem_range]
    rfl
  have hW0 : ∀ k, k < D.nsp → 0 ≤ D.chemistry.weight k := fun k hk => (molWeight_pos (K := ℝ) hc k hk).le
  have hq := closeQ_sound (by norm_num) hcl
  have e1 : ((m.r.net N * (ws.getD N 0 : Nat) : Int) : ℝ) / ((10 ^ 5 : Nat) : ℝ) = m.r.net N * D.chemistry.weight N := by rw [hW]; push_cast; ring
  have e2 : (((m.r.net N * (ws.getD N 0 : Nat) : Int).natAbs : Nat) : ℝ) / ((10 ^ 5 : Nat) : ℝ) = |(m.r.net N * D.chemistry.weight N : ℝ)| := by
    rw [Nat.cast_natAbs, ← e1, abs_div, Int.cast_abs, abs_of_nonneg (Nat.cast_nonneg (α := ℝ) (10 ^ 5))]
  rw [e1, e2] at hq
  obtain ⟨s1, s2⟩ := factor_near hq t1 t2
  rw [ex]
  have key : |(m.r.net N * D.chemistry.weight N : ℝ)| * ((D.chemistry.forward m v.T (D.chemistry.concentrations v.T pres Y) +
        D.chemistry.reverse m v.T (D.chemistry.concentrations v.T pres Y)) *
        D.chemistry.modification m v.T (D.chemistry.concentrations v.T pres Y) / (D.chemistry.density v.T pres Y * v.T)) ≤
      D.chemistry.dYdtTerms v.T pres Y N / v.T := by
    have e : D.chemistry.dYdtTerms v.T pres Y N / v.T = ((number D.reactions).map fun n => |(n.r.net N * D.chemistry.weight N : ℝ)| *
        ((D.chemistry.forward n v.T (D.chemistry.concentrations v.T pres Y) +
          D.chemistry.reverse n v.T (D.chemistry.concentrations v.T pres Y)) *
        D.chemistry.modification n v.T (D.chemistry.concentrations v.T pres Y) / (D.chemistry.density v.T pres Y * v.T))).sum := by
      unfold Chemistry.dYdtTerms Chemistry.turnover
      rw [mul_div_assoc, mul_div_assoc, list_sum_mul]
      congr 1
      refine List.map_congr_left fun n _ => ?_
      rw [abs_mul, abs_of_nonneg (hW0 N hN)]
      simp only [div_eq_mul_inv, mul_inv]
      ring
    rw [e]
    refine List.single_le_sum (fun z hz' => ?_) _ (List.mem_map_of_mem hmem)
    obtain ⟨n, hn, rfl⟩ := List.mem_map.1 hz'
    obtain ⟨x', hx'⟩ := hb.vals n hn
    have := (tVal_near hD hz hat h1 h2 hp hY hpole hcut n hn x' hx').2
    have := abs_nonneg x'
    exact mul_nonneg (abs_nonneg _) (by linarith)
  exact ⟨s1.trans (mul_le_mul_of_nonneg_left key (by norm_num)), s2.trans (mul_le_mul_of_nonneg_left key (by norm_num))⟩

end DLB
