import Verif.Lemmas.JacobBlocks
/-
Rows, blocks and parts of `eval_jacob`.
-/
set_option autoImplicit false
set_option linter.unusedSectionVars false

namespace DLB

/-- Is the location an element of `jac`? -/
def CLoc.isJac (l : CLoc) : Bool := !l.other

/-- The statements before the first assignment to an element of `jac`, and the rest. -/
def splitJac : List CStmt → List CStmt × List CStmt
  | [] => ([], [])
  | s :: p => if s.target.isJac then ([], s :: p) else (s :: (splitJac p).1, (splitJac p).2)

theorem splitJac_append (p : List CStmt) : (splitJac p).1 ++ (splitJac p).2 = p := by
  induction p with
  | nil => rfl
  | cons s p ih =>
    unfold splitJac
    split
    · rfl
    · simpa using ih

/-- The sum of the coefficients of `j_temp` in the rows of element `l`. -/
def rowCoef : List JRow → Nat → Option SDec
  | [], _ => some (0, 0)
  | r :: rs, l => if Nat.beq r.idx l then
      match r.e.coefs [([(CLoc.var .jTemp).code], [])], rowCoef rs l with
      | some [c], some d => some (c.plus d)
      | _, _ => none
    else rowCoef rs l

theorem rowCoef_sound (τ : CLoc → ℝ) {rs : List JRow} {l : Nat} {d : SDec} (h : rowCoef rs l = some d) :
    rowSum τ rs l = SDec.val d * τ (.var .jTemp) := by
  induction rs generalizing d with
  | nil => cases h; simp [rowSum, SDec.val]
  | cons r rs ih =>
    unfold rowCoef at h
    split at h
    · rename_i hl
      split at h
      · rename_i c d' hc hd
        cases h
        have hl := Nat.eq_of_beq_eq_true hl
        rw [rowSum, if_pos hl, ih hd, coefs_sound τ hc, SDec.plus_val]
        simp [pairVal, keyVal, codesVal_cons, codesVal_nil]
        ring
      · exact absurd h (by simp)
    · rename_i hl
      have hl : ¬ r.idx = l := fun e => hl (by simp [e])
      rw [rowSum, if_neg hl, zero_add, ih h]

/-- The rows multiply `j_temp` by the stoichiometric coefficients and molecular weights (in units of 10^-5). -/
def tRowsOk (ws : List Nat) (r : Reaction) (rs : List JRow) : Bool :=
  rs.all (fun x => decide (0 < x.idx) && decide (x.idx < ws.length)) && (List.range (ws.length - 1)).all fun k =>
    match rowCoef rs (k + 1) with
    | some d => closeQ d (r.net k * (ws.getD k 0 : Nat)) (10 ^ 5) (r.net k * (ws.getD k 0 : Nat)).natAbs
    | none => false

/-- Nothing that matters is assigned. -/
def frameOk : List CStmt → Bool
  | [] => true
  | s :: p => !s.target.base && s.target.other && !(s.target == .var .concTemp) && frameOk p

theorem frameOk_sound {p : List CStmt} (h : frameOk p = true) (τ : CLoc → ℝ) (l : CLoc)
    (hl : l.base = true ∨ l.other = false ∨ l = .var .concTemp) : execT p τ l = τ l := by
  refine execT_of_not_target p τ l ?_
  induction p with
  | nil => simp
  | cons s p ih =>
    simp only [frameOk, Bool.and_eq_true, Bool.not_eq_true', beq_eq_false_iff_ne] at h
    intro s' hs'
    rcases List.mem_cons.1 hs' with rfl | hs'
    · rintro rfl
      rcases hl with hl | hl | hl
      · rw [h.1.1.1] at hl; exact absurd hl (by simp)
      · rw [h.1.1.2] at hl; exact absurd hl (by simp)
      · exact h.1.2 hl
    · exact ih h.2 s' hs'

/-- The block of a reaction is as it should be; the state of `conc_temp` and the mask of assigned elements afterwards. -/
def blockOk (D : Package) (ws : List Nat) (n : Numbered) (cst : Option CExpr) (mask : Nat) (b : List CStmt × List CStmt) :
    Option (Option CExpr × Nat) :=
  match tLocalsOk D n cst (splitJac b.1).1 with
  | none => none
  | some cst' => match rowsOf (splitJac b.1).2 with
    | none => none
    | some rs => if tRowsOk ws n.r rs then
        match freshMask rs mask with
        | none => none
        | some mask1 => match rowsOf (splitJac b.2).2 with
          | none => none
          | some rs' => if frameOk (splitJac b.2).1 && rs'.all (fun x => decide (ws.length ≤ x.idx)) then
              match freshMask rs' mask1 with
              | none => none
              | some mask2 => some (cst', mask2)
            else none
      else none

/-- What a block adds to `jac`. -/
def BlockAdds (D : Package) (ws : List Nat) (n : Numbered) (v : JacobVals ℝ) (b : List CStmt × List CStmt) (c : Nat → ℝ) : Prop :=
  (∃ x, TVal D n v x ∧ ∀ k, k < ws.length - 1 → ∃ w : ℝ, |w - n.r.net k * ws.getD k 0 / 10 ^ 5| ≤ |(n.r.net k * ws.getD k 0 / 10 ^ 5 : ℝ)| / 10 ^ 14 ∧
    c (k + 1) = w * x) ∧
  ∃ τ rs', Base v τ ∧ TroeMem D n v τ ∧ rowsOf (splitJac b.2).2 = some rs' ∧
    ∀ l, ws.length ≤ l → c l = rowSum (execT (splitJac b.2).1 τ) rs' l

theorem rowSum_zero (τ : CLoc → ℝ) {rs : List JRow} {l : Nat} (h : ∀ r ∈ rs, r.idx ≠ l) : rowSum τ rs l = 0 := by
  induction rs with
  | nil => rfl
  | cons r rs ih =>
    rw [rowSum, if_neg (h r (by simp)), ih fun r hr => h r (by simp [hr]), add_zero]

theorem block_sound {D : Package} {ws : List Nat} {n : Numbered} {cst cst' : Option CExpr} {mask mask' : Nat} {b : List CStmt × List CStmt}
    (h : blockOk D ws n cst mask b = some (cst', mask')) {v : JacobVals ℝ} {τ : CLoc → ℝ} (hb : Base v τ) (hc : Conc cst τ)
    (hz : ZeroOutside mask τ) (hm : v.m = ∑ i ∈ Finset.range D.nsp, v.C i) (hT : 0 < v.T) :
    Base v (execT (b.1 ++ b.2) τ) ∧ Conc cst' (execT (b.1 ++ b.2) τ) ∧ ZeroOutside mask' (execT (b.1 ++ b.2) τ) ∧
    ∃ c, BlockAdds D ws n v b c ∧ ∀ l, execT (b.1 ++ b.2) τ (.arr .jac l) = τ (.arr .jac l) + c l := by
  unfold blockOk at h
  split at h
  · exact absurd h (by simp)
  rename_i cst1 h1
  split at h
  · exact absurd h (by simp)
  rename_i rs hrs
  split at h
  · rename_i h2
    split at h
    · exact absurd h (by simp)
    rename_i mask1 hm1
    split at h
    · exact absurd h (by simp)
    rename_i rs' hrs'
    split at h
    · rename_i h3
      split at h
      · exact absurd h (by simp)
      rename_i mask2 hm2
      simp only [Option.some.injEq, Prod.mk.injEq] at h
      obtain ⟨rfl, rfl⟩ := h
      simp only [Bool.and_eq_true, List.all_eq_true, decide_eq_true_eq] at h3
      simp only [tRowsOk, Bool.and_eq_true, List.all_eq_true, decide_eq_true_eq, List.mem_range] at h2
      obtain ⟨t1, t2, t3, t4, t5⟩ := tLocals_sound h1 hb hc hm hT
      obtain ⟨τ1, e1⟩ : ∃ τ1, τ1 = execT (splitJac b.1).1 τ := ⟨_, rfl⟩
      rw [← e1] at t1 t2 t3 t4 t5
      have z1 : ZeroOutside mask τ1 := fun l hl => (t3 l).trans (hz l hl)
      obtain ⟨r1, r2, r3⟩ := rows_exec hrs hm1 τ1 z1
      obtain ⟨τ2, e2⟩ : ∃ τ2, τ2 = execT (splitJac b.1).2 τ1 := ⟨_, rfl⟩
      rw [← e2] at r1 r2 r3
      have hbase : ∀ l, CLoc.base l = true → CLoc.other l = true := by
        intro l hl
        unfold CLoc.other
        split
        · exact absurd hl (by simp [CLoc.base])
        · rfl
      have b2 : Base v τ2 := t1.congr fun l hl => r2 l (hbase l hl)
      have c2 : Conc cst1 τ2 := t2.congr (fun l hl => r2 l (hbase l hl)) (r2 _ rfl)
      have tm2 : TroeMem D n v τ2 := by
        intro eff kInf k0 t hk hl
        have := t5 eff kInf k0 t hk hl
        rw [r2 _ rfl, r2 _ rfl, r2 _ rfl, r2 _ rfl]
        exact this
      obtain ⟨τ3, e3⟩ : ∃ τ3, τ3 = execT (splitJac b.2).1 τ2 := ⟨_, rfl⟩
      have f3 : ∀ l, (l.base = true ∨ l.other = false ∨ l = .var .concTemp) → τ3 l = τ2 l := fun l hl => by
        rw [e3]
        exact frameOk_sound h3.1 τ2 l hl
      have b3 : Base v τ3 := b2.congr fun l hl => f3 l (Or.inl hl)
      have c3 : Conc cst1 τ3 := c2.congr (fun l hl => f3 l (Or.inl hl)) (f3 _ (Or.inr (Or.inr rfl)))
      have z3 : ZeroOutside mask1 τ3 := fun l hl => (f3 _ (Or.inr (Or.inl rfl))).trans (r3 l hl)
      obtain ⟨s1, s2, s3⟩ := rows_exec hrs' hm2 τ3 z3
      have e : execT (b.1 ++ b.2) τ = execT (splitJac b.2).2 τ3 := by
        rw [e3, e2, e1, ← execT_append, ← execT_append, ← execT_append, splitJac_append, ← List.append_assoc, splitJac_append]
      rw [e]
      refine ⟨b3.congr fun l hl => s2 l (hbase l hl), c3.congr (fun l hl => s2 l (hbase l hl)) (s2 _ rfl), s3,
        fun l => rowSum τ1 rs l + rowSum τ3 rs' l, ⟨⟨_, t4, fun k hk => ?_⟩, τ2, rs', b2, tm2, hrs', fun l hl => ?_⟩, fun l => ?_⟩
      · have := h2.2 k hk
        split at this
        · rename_i d hd
          have hq := closeQ_sound (by norm_num) this
          refine ⟨SDec.val d, ?_, ?_⟩
          · have e1 : ((n.r.net k * (ws.getD k 0 : Nat) : Int) : ℝ) / ((10 ^ 5 : Nat) : ℝ) = n.r.net k * ws.getD k 0 / 10 ^ 5 := by push_cast; norm_num
            have e2 : (((n.r.net k * (ws.getD k 0 : Nat) : Int).natAbs : Nat) : ℝ) / ((10 ^ 5 : Nat) : ℝ) = |(n.r.net k * ws.getD k 0 / 10 ^ 5 : ℝ)| := by
              rw [Nat.cast_natAbs, ← e1, abs_div, Int.cast_abs, abs_of_nonneg (Nat.cast_nonneg (α := ℝ) (10 ^ 5))]
            rw [e1, e2] at hq
            exact hq
          · show rowSum τ1 rs (k + 1) + rowSum τ3 rs' (k + 1) = _
            rw [rowCoef_sound τ1 hd, rowSum_zero τ3, add_zero]
            intro r hr
            have := h3.2 r hr
            omega
        · exact absurd this (by simp)
      · show rowSum τ1 rs l + rowSum τ3 rs' l = _
        rw [rowSum_zero τ1, zero_add, e3]
        intro r hr
        have := (h2.1 r hr).2
        omega
      · rw [s1, f3 _ (Or.inr (Or.inl rfl)), r1, t3]
        ring
    · exact absurd h (by simp)
  · exact absurd h (by simp)

/-- The blocks of a part belong to the reactions in order; what remains of the list of reactions. -/
def blocksOk (D : Package) (ws : List Nat) : List (List CStmt × List CStmt) → List Numbered → Option CExpr → Nat → Option (List Numbered × Nat)
  | [], ns, _, mask => some (ns, mask)
  | b :: bs, ns, cst, mask => match ns with
    | [] => none
    | n :: ns => match blockOk D ws n cst mask b with
      | none => none
      | some (cst', mask') => blocksOk D ws bs ns cst' mask'

/-- What several blocks add to `jac`. -/
inductive BlocksAdd (D : Package) (ws : List Nat) (v : JacobVals ℝ) : List (List CStmt × List CStmt) → List Numbered → List (Nat → ℝ) → Prop
  | nil : BlocksAdd D ws v [] [] []
  | cons {n b c bs ns cs} : BlockAdds D ws n v b c → BlocksAdd D ws v bs ns cs → BlocksAdd D ws v (b :: bs) (n :: ns) (c :: cs)

theorem BlocksAdd.append {D : Package} {ws : List Nat} {v : JacobVals ℝ} {bs bs' : List (List CStmt × List CStmt)} {ns ns' : List Numbered}
    {cs cs' : List (Nat → ℝ)} (h : BlocksAdd D ws v bs ns cs) (h' : BlocksAdd D ws v bs' ns' cs') :
    BlocksAdd D ws v (bs ++ bs') (ns ++ ns') (cs ++ cs') := by
  induction h with
  | nil => exact h'
  | cons h1 _ ih => exact .cons h1 ih

theorem blocks_sound {D : Package} {ws : List Nat} (bs : List (List CStmt × List CStmt)) {ns ns' : List Numbered} {cst : Option CExpr}
    {mask mask' : Nat} (h : blocksOk D ws bs ns cst mask = some (ns', mask')) {v : JacobVals ℝ} {τ : CLoc → ℝ} (hb : Base v τ)
    (hc : Conc cst τ) (hz : ZeroOutside mask τ) (hm : v.m = ∑ i ∈ Finset.range D.nsp, v.C i) (hT : 0 < v.T) :
    ZeroOutside mask' (execT (bs.map fun b => b.1 ++ b.2).flatten τ) ∧ ∃ ns0 cs, ns = ns0 ++ ns' ∧ BlocksAdd D ws v bs ns0 cs ∧
      ∀ l, execT (bs.map fun b => b.1 ++ b.2).flatten τ (.arr .jac l) = τ (.arr .jac l) + (cs.map fun c => c l).sum := by
  induction bs generalizing ns cst mask τ with
  | nil =>
    simp only [blocksOk, Option.some.injEq, Prod.mk.injEq] at h
    obtain ⟨rfl, rfl⟩ := h
    exact ⟨hz, [], [], rfl, .nil, fun l => by simp [execT]⟩
  | cons b bs ih =>
    unfold blocksOk at h
    split at h
    · exact absurd h (by simp)
    · rename_i n ns1
      split at h
      · exact absurd h (by simp)
      · rename_i cst1 mask1 h1
        obtain ⟨b1, c1, z1, c, hadd, hj⟩ := block_sound h1 hb hc hz hm hT
        obtain ⟨z2, ns0, cs, rfl, hadds, hjs⟩ := ih h b1 c1 z1
        rw [List.map_cons, List.flatten_cons, execT_append]
        refine ⟨z2, n :: ns0, c :: cs, rfl, .cons hadd hadds, fun l => ?_⟩
        rw [hjs, hj, List.map_cons, List.sum_cons]
        ring

/-- Local variables are initialised by zero, and `rho_inv`. -/
def zerosOk : List CStmt → Bool
  | [.set (.var .rhoInv) (.div (.num 1 0) (.rd (.var .rho)))] => true
  | .set (.var x) (.num 0 0) :: p => !(CLoc.var x).base && !(CLoc.var x == .var .rho) && zerosOk p
  | _ => false

/-- The initialisations at the start of a part. -/
def startOk : List CStmt → Bool
  | .set (.var .logT) (.log (.rd (.var .T))) :: p => zerosOk p
  | _ => false

theorem zeros_sound {p : List CStmt} (h : zerosOk p = true) (τ : CLoc → ℝ) :
    execT p τ (.var .rhoInv) = 1 / τ (.var .rho) ∧ (∀ l, l.base = true → l ≠ .var .rhoInv → execT p τ l = τ l) ∧
    (∀ l, execT p τ (.arr .jac l) = τ (.arr .jac l)) := by
  induction p generalizing τ with
  | nil => exact absurd h (by simp [zerosOk])
  | cons s p ih =>
    unfold zerosOk at h
    split at h
    · rename_i heq
      cases heq
      refine ⟨by simp [execT, CStmt.execT, setT, CExpr.evalT, sci_eq], fun l hl hl' => ?_, fun l => by simp [execT, CStmt.execT, setT]⟩
      simp only [execT, CStmt.execT, setT]
      rw [if_neg hl']
    · rename_i x p' heq
      cases heq
      simp only [Bool.and_eq_true, Bool.not_eq_true', beq_eq_false_iff_ne] at h
      obtain ⟨⟨h1, h2⟩, h3⟩ := h
      obtain ⟨i1, i2, i3⟩ := ih h3 (setT τ (.var x) ((CExpr.num 0 0).evalT τ))
      refine ⟨?_, fun l hl hl' => ?_, fun l => ?_⟩
      · rw [execT, CStmt.execT, i1]
        unfold setT
        rw [if_neg (Ne.symm h2)]
      · rw [execT, CStmt.execT, i2 l hl hl']
        unfold setT
        rw [if_neg]
        rintro rfl
        rw [hl] at h1
        exact absurd h1 (by simp)
      · rw [execT, CStmt.execT, i3]
        simp [setT]
    · exact absurd h (by simp)

theorem start_sound {p : List CStmt} (h : startOk p = true) (v : JacobVals ℝ) (jac : Nat → ℝ) :
    Base v (execT p (v.mem jac)) ∧ ∀ l, execT p (v.mem jac) (.arr .jac l) = jac l := by
  unfold startOk at h
  split at h
  · rename_i p'
    rw [execT, CStmt.execT]
    obtain ⟨z1, z2, z3⟩ := zeros_sound h (setT (v.mem jac) (.var .logT) ((CExpr.log (.rd (.var .T))).evalT (v.mem jac)))
    refine ⟨⟨?_, ?_, ?_, ?_, ?_, ?_, ?_, ?_, ?_, ?_⟩, fun l => (z3 l).trans rfl⟩
    · exact (z2 _ rfl (by simp)).trans rfl
    · exact (z2 _ rfl (by simp)).trans rfl
    · exact (z2 _ rfl (by simp)).trans rfl
    · exact (z2 _ rfl (by simp)).trans rfl
    · exact z1.trans rfl
    · exact fun i => (z2 _ rfl (by simp)).trans rfl
    · exact fun i => (z2 _ rfl (by simp)).trans rfl
    · exact fun i => (z2 _ rfl (by simp)).trans rfl
    · exact fun i => (z2 _ rfl (by simp)).trans rfl
    · exact fun i => (z2 _ rfl (by simp)).trans rfl
  · exact absurd h (by simp)

/-- The parts go through all reactions. -/
def partsOk (D : Package) (ws : List Nat) : List JacobPart → List Numbered → Nat → Bool
  | [], ns, _ => ns.isEmpty
  | P :: Ps, ns, mask => startOk P.start && match blocksOk D ws P.blocks ns none mask with
    | none => false
    | some (ns', mask') => partsOk D ws Ps ns' mask'

theorem parts_sound {D : Package} {ws : List Nat} (Ps : List JacobPart) {ns : List Numbered} {mask : Nat} (h : partsOk D ws Ps ns mask = true)
    {v : JacobVals ℝ} {jac : Nat → ℝ} (hz : ∀ l, mask.testBit l = false → jac l = 0) (hm : v.m = ∑ i ∈ Finset.range D.nsp, v.C i)
    (hT : 0 < v.T) : ∃ cs, BlocksAdd D ws v (Ps.map JacobPart.blocks).flatten ns cs ∧
      ∀ l, v.partsT Ps jac l = jac l + (cs.map fun c => c l).sum := by
  induction Ps generalizing ns mask jac with
  | nil =>
    obtain rfl := List.isEmpty_iff.1 h
    exact ⟨[], .nil, fun l => by simp [JacobVals.partsT]⟩
  | cons P Ps ih =>
    simp only [partsOk, Bool.and_eq_true] at h
    obtain ⟨h1, h2⟩ := h
    split at h2
    · exact absurd h2 (by simp)
    · rename_i ns' mask' h3
      obtain ⟨b1, j1⟩ := start_sound h1 v jac
      obtain ⟨z2, ns0, cs, rfl, hadds, hj⟩ := blocks_sound P.blocks h3 b1 (fun c hc => absurd hc (by simp))
        (fun l hl => (j1 l).trans (hz l hl)) hm hT
      obtain ⟨cs', hadds', hj'⟩ := ih (jac := fun i => execT P.stmts (v.mem jac) (.arr .jac i)) h2 (by
        intro l hl
        have := z2 l hl
        unfold JacobPart.stmts
        rw [execT_append]
        exact this)
      refine ⟨cs ++ cs', ?_, fun l => ?_⟩
      · rw [List.map_cons, List.flatten_cons]
        exact hadds.append hadds'
      · rw [JacobVals.partsT, hj']
        unfold JacobPart.stmts
        rw [execT_append, hj, j1, List.map_append, List.sum_append]
        ring

end DLB
