import Verif.Model.LoadBalancer
import Mathlib.Data.List.Nodup
import Mathlib.Tactic.Common
/-
The planning loop of the load balancer, for any arithmetic.

`Run` describes the loop as a relation on position-indexed load values; the loop
of the model is shown to produce exactly one `Run`, the same for all ranks.
-/
set_option autoImplicit false

namespace DLB

variable {S : Type}

section
variable [Zero S] [Add S] [Sub S] [Neg S] [LT S] [DecidableLT S] [Consts S]

/-- Move `x` from position `s` to position `r`. -/
def xfer (v : Nat → S) (s r : Nat) (x : S) : Nat → S :=
  fun i => if i = s then v s - x else if i = r then v r + x else v i

/-- The amount the loop moves. -/
def amount (mean : S) (v : Nat → S) (s r : Nat) : S := stdMin (v s - mean) (mean - v r)

/-- The loop as a relation: from values `v` and positions `s` (sender), `r` (receiver)
the transfers `tr` are made and the values end as the last argument. -/
inductive Run (mean : S) : (Nat → S) → Nat → Nat → List (Nat × Nat × S) → (Nat → S) → Prop
  | done (v : Nat → S) (m : Nat) : Run mean v m m [] v
  | down {v v' : Nat → S} {s r : Nat} {tr : List (Nat × Nat × S)} (h : r < s + 1)
      (hc : absS (v (s + 1) - amount mean v (s + 1) r - mean) < Consts.SMALL)
      (hr : Run mean (xfer v (s + 1) r (amount mean v (s + 1) r)) s r tr v') :
      Run mean v (s + 1) r ((s + 1, r, amount mean v (s + 1) r) :: tr) v'
  | up {v v' : Nat → S} {s r : Nat} {tr : List (Nat × Nat × S)} (h : r < s)
      (hc : ¬ absS (v s - amount mean v s r - mean) < Consts.SMALL)
      (hr : Run mean (xfer v s r (amount mean v s r)) s (r + 1) tr v') :
      Run mean v s r ((s, r, amount mean v s r) :: tr) v'

/-- `loads` holds rank `rk i` and value `v i` at position `i < len`. -/
def Holds (loads : List (ChemistryLoad S)) (len : Nat) (rk : Nat → Nat) (v : Nat → S) : Prop :=
  loads.length = len ∧ ∀ i, i < len → loads[i]? = some ⟨rk i, v i⟩

/-- Position triple to operation. -/
def toOp (rk : Nat → Nat) (t : Nat × Nat × S) : Operation S := ⟨rk t.1, rk t.2.1, t.2.2⟩

/-- The operations rank `me` takes part in. -/
def involves (me : Nat) (op : Operation S) : Bool := decide (op.src = me ∨ op.dst = me)

omit [Zero S] [Neg S] [LT S] [DecidableLT S] [Consts S] in
theorem Holds.xfer {loads : List (ChemistryLoad S)} {len : Nat} {rk : Nat → Nat} {v : Nat → S}
    (h : Holds loads len rk v) {s r : Nat} (hrs : r ≠ s) (x : S) :
    Holds ((loads.modify s (fun l => { l with value := l.value - x })).modify r
      (fun l => { l with value := l.value + x })) len rk (xfer v s r x) := by
  obtain ⟨hl, hg⟩ := h
  refine ⟨by simp [hl], fun i hi => ?_⟩
  have hgi := hg i hi
  by_cases h1 : i = s
  · subst h1
    simp [DLB.xfer, hgi, hrs]
  · by_cases h2 : i = r
    · subst h2
      simp [DLB.xfer, hgi, h1, Ne.symm h1]
    · simp [DLB.xfer, hgi, h1, h2, Ne.symm h1, Ne.symm h2]

omit [Zero S] [Add S] [Sub S] [Neg S] [LT S] [DecidableLT S] [Consts S] in
theorem Holds.getAt {loads : List (ChemistryLoad S)} {len : Nat} {rk : Nat → Nat} {v : Nat → S}
    (h : Holds loads len rk v) {i : Nat} (hi : i < len) :
    DLB.getAt loads i = .ok ⟨rk i, v i⟩ := by
  simp [DLB.getAt, h.2 i hi]

theorem planStep_eq {mean : S} {loads : List (ChemistryLoad S)} {len : Nat}
    {rk : Nat → Nat} {v : Nat → S} (h : Holds loads len rk v) {s r : Nat} (hr : r < s)
    (hs : s < len) :
    ∃ loads', Holds loads' len rk (xfer v s r (amount mean v s r)) ∧
    ∀ me ops, planStep mean me ⟨loads, s, r, ops⟩ =
      .ok (if absS (v s - amount mean v s r - mean) < Consts.SMALL then
        ⟨loads', s - 1, r,
          ops ++ [toOp rk (s, r, amount mean v s r)].filter (involves me)⟩
        else ⟨loads', s, r + 1,
          ops ++ [toOp rk (s, r, amount mean v s r)].filter (involves me)⟩) := by
  refine ⟨_, h.xfer (Nat.ne_of_lt hr) (amount mean v s r), fun me ops => ?_⟩
  have h1 := h.getAt hs
  have h2 := h.getAt (Nat.lt_trans hr hs)
  have h3 := (h.xfer (Nat.ne_of_lt hr) (amount mean v s r)).getAt hs
  have hs0 : s ≠ 0 := by omega
  unfold planStep
  simp only [h1, h2, bind, Except.bind]
  rw [show stdMin (v s - mean) (mean - v r) = amount mean v s r from rfl]
  simp only [h3]
  have : xfer v s r (amount mean v s r) s = v s - amount mean v s r := by simp [xfer]
  rw [this]
  have e : (if rk s = me ∨ rk r = me then
        ops ++ [({ src := rk s, dst := rk r, value := amount mean v s r } : Operation S)]
        else ops) = ops ++ [toOp rk (s, r, amount mean v s r)].filter (involves me) := by
    by_cases hm : rk s = me ∨ rk r = me <;> simp [toOp, involves, hm]
  rw [e]
  split <;> simp

theorem planLoop_run (mean : S) : ∀ (d : Nat) (loads : List (ChemistryLoad S)) (len : Nat)
    (rk : Nat → Nat) (v : Nat → S) (s r : Nat), Holds loads len rk v → s < len → r ≤ s →
    s - r = d →
    ∃ tr v' m loads', Run mean v s r tr v' ∧ Holds loads' len rk v' ∧ m < len ∧
      ∀ me ops fuel, d ≤ fuel → planLoop mean me fuel ⟨loads, s, r, ops⟩ =
        .ok ⟨loads', m, m, ops ++ (tr.map (toOp rk)).filter (involves me)⟩ := by
  intro d
  induction d with
  | zero =>
    intro loads len rk v s r hh hs hr hd
    have : s = r := by omega
    subst this
    refine ⟨[], v, s, loads, Run.done v s, hh, hs, fun me ops fuel _ => ?_⟩
    cases fuel <;> simp [planLoop]
  | succ d ih =>
    intro loads len rk v s r hh hs hr hd
    have hlt : r < s := by omega
    obtain ⟨loads1, hh1, hstep⟩ := planStep_eq (mean := mean) hh hlt hs
    by_cases hc : absS (v s - amount mean v s r - mean) < Consts.SMALL
    · obtain ⟨s', rfl⟩ : ∃ s', s = s' + 1 := ⟨s - 1, by omega⟩
      obtain ⟨tr, v', m, loads', hrun, hh', hm, hl⟩ :=
        ih loads1 len rk _ s' r hh1 (by omega) (by omega) (by omega)
      refine ⟨_, v', m, loads', Run.down hlt hc hrun, hh', hm, fun me ops fuel hf => ?_⟩
      obtain ⟨fuel, rfl⟩ : ∃ f, fuel = f + 1 := ⟨fuel - 1, by omega⟩
      have hne : ¬ (s' + 1 = r) := by omega
      simp only [planLoop, hne, if_false, hstep, bind, Except.bind, hc, if_true,
        Nat.add_sub_cancel]
      rw [hl me _ fuel (by omega)]
      simp [List.append_assoc]
      rw [← List.filter_append]; rfl
    · obtain ⟨tr, v', m, loads', hrun, hh', hm, hl⟩ :=
        ih loads1 len rk _ s (r + 1) hh1 hs (by omega) (by omega)
      refine ⟨_, v', m, loads', Run.up hlt hc hrun, hh', hm, fun me ops fuel hf => ?_⟩
      obtain ⟨fuel, rfl⟩ : ∃ f, fuel = f + 1 := ⟨fuel - 1, by omega⟩
      have hne : ¬ (s = r) := by omega
      simp only [planLoop, hne, if_false, hstep, bind, Except.bind, hc]
      rw [hl me _ fuel (by omega)]
      simp [List.append_assoc]
      rw [← List.filter_append]; rfl

theorem planLoop_short (mean : S) (me : Nat) : ∀ (fuel : Nat) (loads : List (ChemistryLoad S))
    (len : Nat) (rk : Nat → Nat) (v : Nat → S) (s r : Nat) (ops : List (Operation S)),
    Holds loads len rk v → s < len → r ≤ s → fuel < s - r →
    planLoop mean me fuel ⟨loads, s, r, ops⟩ = .error .outOfFuel := by
  intro fuel
  induction fuel with
  | zero =>
    intro loads len rk v s r ops hh hs hr hf
    have : ¬ s = r := by omega
    simp [planLoop, this]
  | succ fuel ih =>
    intro loads len rk v s r ops hh hs hr hf
    have hne : ¬ s = r := by omega
    obtain ⟨loads1, hh1, hstep⟩ := planStep_eq (mean := mean) hh (by omega : r < s) hs
    simp only [planLoop, hne, if_false, hstep, bind, Except.bind]
    split
    · exact ih _ _ _ _ _ _ _ hh1 (by omega) (by omega) (by omega)
    · exact ih _ _ _ _ _ _ _ hh1 (by omega) (by omega) (by omega)

/-! ### Structure of a run -/

theorem Run.le {mean : S} {v v' : Nat → S} {s r : Nat} {tr : List (Nat × Nat × S)}
    (h : Run mean v s r tr v') : r ≤ s := by
  cases h <;> omega

theorem Run.length {mean : S} {v v' : Nat → S} {s r : Nat} {tr : List (Nat × Nat × S)}
    (h : Run mean v s r tr v') : tr.length = s - r := by
  induction h with
  | done => simp
  | down h _ hr ih => simp only [List.length_cons, ih]; omega
  | up h _ hr ih => simp only [List.length_cons, ih]; omega

theorem Run.bounds {mean : S} {v v' : Nat → S} {s r : Nat} {tr : List (Nat × Nat × S)}
    (h : Run mean v s r tr v') : ∀ t ∈ tr, t.1 ≤ s ∧ r ≤ t.2.1 := by
  induction h with
  | done => simp
  | down h _ hr ih =>
    intro t ht
    rcases List.mem_cons.1 ht with rfl | ht
    · simp
    · have := ih t ht; omega
  | up h _ hr ih =>
    intro t ht
    rcases List.mem_cons.1 ht with rfl | ht
    · simp
    · have := ih t ht; omega

/-- Every position is a sender only or a receiver only: a pivot separates them. -/
theorem Run.pivot {mean : S} {v v' : Nat → S} {s r : Nat} {tr : List (Nat × Nat × S)}
    (h : Run mean v s r tr v') (hlt : r < s) :
    ∃ m, r ≤ m ∧ m < s ∧ ∀ t ∈ tr, m < t.1 ∧ t.1 ≤ s ∧ r ≤ t.2.1 ∧ t.2.1 ≤ m := by
  induction h with
  | done => omega
  | @down v v' s r tr h _ hr ih =>
    by_cases hsr : r < s
    · obtain ⟨m, h1, h2, h3⟩ := ih hsr
      refine ⟨m, h1, by omega, fun t ht => ?_⟩
      rcases List.mem_cons.1 ht with rfl | ht
      · dsimp only; omega
      · have := h3 t ht; omega
    · have hrs : r = s := by omega
      have hl := hr.length
      have : tr = [] := List.eq_nil_of_length_eq_zero (by omega)
      subst this
      refine ⟨r, Nat.le_refl r, by omega, fun t ht => ?_⟩
      rcases List.mem_cons.1 ht with rfl | ht
      · dsimp only; omega
      · simp at ht
  | @up v v' s r tr h _ hr ih =>
    by_cases hsr : r + 1 < s
    · obtain ⟨m, h1, h2, h3⟩ := ih hsr
      refine ⟨m, by omega, h2, fun t ht => ?_⟩
      rcases List.mem_cons.1 ht with rfl | ht
      · dsimp only; omega
      · have := h3 t ht; omega
    · have hl := hr.length
      have : tr = [] := List.eq_nil_of_length_eq_zero (by omega)
      subst this
      refine ⟨r, Nat.le_refl r, by omega, fun t ht => ?_⟩
      rcases List.mem_cons.1 ht with rfl | ht
      · dsimp only; omega
      · simp at ht

theorem Run.nodup {mean : S} {v v' : Nat → S} {s r : Nat} {tr : List (Nat × Nat × S)}
    (h : Run mean v s r tr v') : (tr.map (fun t => (t.1, t.2.1))).Nodup := by
  induction h with
  | done => simp
  | @down v v' s r tr h _ hr ih =>
    simp only [List.map_cons, List.nodup_cons]
    refine ⟨?_, ih⟩
    intro hmem
    obtain ⟨t, ht, he⟩ := List.mem_map.1 hmem
    have := hr.bounds t ht
    simp only [Prod.mk.injEq] at he
    omega
  | @up v v' s r tr h _ hr ih =>
    simp only [List.map_cons, List.nodup_cons]
    refine ⟨?_, ih⟩
    intro hmem
    obtain ⟨t, ht, he⟩ := List.mem_map.1 hmem
    have := hr.bounds t ht
    simp only [Prod.mk.injEq] at he
    omega

/-! ### From the run to the operations of each rank -/

omit [Add S] [Sub S] [Neg S] [LT S] [DecidableLT S] [Consts S] in
/-- Ranks and values of a list by position. -/
theorem holds_of_list (loads : List (ChemistryLoad S)) :
    Holds loads loads.length (fun i => ((loads[i]?).map (·.rank)).getD 0)
      (fun i => ((loads[i]?).map (·.value)).getD 0) := by
  refine ⟨rfl, fun i hi => ?_⟩
  simp [List.getElem?_eq_getElem hi]

end

section
variable [Zero S] [Add S] [Sub S] [Mul S] [Div S] [Neg S] [NatCast S]
variable [LT S] [DecidableLT S] [Consts S]

/-- The size filter of LoadBalancer.C:143-151. -/
def isLarge (mean : S) (op : Operation S) : Bool := decide (Consts.filterFrac * mean < op.value)

/-- One run, on the sorted loads, determines the operations of every rank. -/
theorem getOperations_run (sort : List (ChemistryLoad S) → List (ChemistryLoad S))
    (hsort : ∀ l, (sort l).Perm l) (loads : List (ChemistryLoad S)) (hne : loads ≠ []) :
    ∃ rk v tr v' loads', Holds (sort loads) loads.length rk v ∧
      Holds loads' loads.length rk v' ∧
      Run (getMean loads) v (loads.length - 1) 0 tr v' ∧
      (∀ me fuel, loads.length - 1 ≤ fuel → ∃ m, runPlan sort fuel loads me =
        .ok ⟨loads', m, m, (tr.map (toOp rk)).filter (involves me)⟩) ∧
      ∀ me fuel, loads.length - 1 ≤ fuel → getOperations sort fuel loads me =
        .ok (((tr.map (toOp rk)).filter (isLarge (getMean loads))).filter (involves me)) := by
  have hlen : (sort loads).length = loads.length := (hsort loads).length_eq
  have hpos : 0 < loads.length := List.length_pos_of_ne_nil hne
  have hh := holds_of_list (sort loads)
  rw [hlen] at hh
  obtain ⟨tr, v', m, loads', hrun, hh', -, hl⟩ :=
    planLoop_run (getMean loads) _ _ _ _ _ (loads.length - 1) 0 hh (by omega) (by omega) rfl
  have hplan : ∀ me fuel, loads.length - 1 ≤ fuel → runPlan sort fuel loads me =
        .ok ⟨loads', m, m, (tr.map (toOp fun i => (((sort loads)[i]?).map (·.rank)).getD 0)).filter
          (involves me)⟩ := by
    intro me fuel hf
    unfold runPlan
    have : ¬ (loads.length = 0) := by omega
    simp only [hlen, this, if_false]
    rw [hl me [] fuel (by omega)]
    simp
  refine ⟨_, _, tr, v', loads', hh, hh', hrun, fun me fuel hf => ⟨m, hplan me fuel hf⟩,
    fun me fuel hf => ?_⟩
  unfold getOperations
  rw [hplan me fuel hf]
  simp only [bind, Except.bind, List.filter_filter]
  congr 1
  apply List.filter_congr
  intro x _
  simp [isLarge, Bool.and_comm]

/-- Structural facts about a plan over a list of ranks. -/
structure PlanOK (ranks : List Nat) (plan : List (Operation S)) : Prop where
  src_mem : ∀ op ∈ plan, op.src ∈ ranks
  dst_mem : ∀ op ∈ plan, op.dst ∈ ranks
  roles : ∀ a ∈ plan, ∀ b ∈ plan, a.src ≠ b.dst
  nodup : (plan.map (fun op => (op.src, op.dst))).Nodup
  length_le : plan.length ≤ ranks.length - 1

omit [Zero S] [Add S] [Sub S] [Mul S] [Div S] [Neg S] [NatCast S] [LT S] [DecidableLT S]
  [Consts S] in
theorem Holds.rk_mem {loads : List (ChemistryLoad S)} {len : Nat} {rk : Nat → Nat} {v : Nat → S}
    (h : Holds loads len rk v) {i : Nat} (hi : i < len) : rk i ∈ loads.map (·.rank) := by
  have := h.2 i hi
  exact List.mem_map.2 ⟨_, List.mem_of_getElem? this, rfl⟩

omit [Zero S] [Add S] [Sub S] [Mul S] [Div S] [Neg S] [NatCast S] [LT S] [DecidableLT S]
  [Consts S] in
theorem Holds.rk_inj {loads : List (ChemistryLoad S)} {len : Nat} {rk : Nat → Nat} {v : Nat → S}
    (h : Holds loads len rk v) (hnd : (loads.map (·.rank)).Nodup) {i j : Nat} (hi : i < len)
    (hj : j < len) (he : rk i = rk j) : i = j := by
  have h1 := h.2 i hi
  have h2 := h.2 j hj
  have hi' : i < (loads.map (·.rank)).length := by simp [h.1, hi]
  refine (List.getElem?_inj (j := j) hi' hnd).1 ?_
  simp [List.getElem?_map, h1, h2, he]

omit [Mul S] [Div S] [NatCast S] in
theorem planOK_of_run {mean : S} {loads : List (ChemistryLoad S)} {len : Nat} {rk : Nat → Nat}
    {v v' : Nat → S} {tr : List (Nat × Nat × S)} (h : Holds loads len rk v)
    (hnd : (loads.map (·.rank)).Nodup) (hlen : 0 < len) (hrun : Run mean v (len - 1) 0 tr v') :
    PlanOK (loads.map (·.rank)) (tr.map (toOp rk)) := by
  by_cases h1 : len = 1
  · have := hrun.length
    have : tr = [] := List.eq_nil_of_length_eq_zero (by omega)
    subst this
    exact ⟨by simp, by simp, by simp, by simp, by simp⟩
  obtain ⟨m, hm0, hm1, hm⟩ := hrun.pivot (by omega)
  refine ⟨?_, ?_, ?_, ?_, ?_⟩
  · intro op hop
    obtain ⟨t, ht, rfl⟩ := List.mem_map.1 hop
    have := hm t ht
    exact h.rk_mem (by omega)
  · intro op hop
    obtain ⟨t, ht, rfl⟩ := List.mem_map.1 hop
    have := hm t ht
    exact h.rk_mem (by omega)
  · intro a ha b hb he
    obtain ⟨t, ht, rfl⟩ := List.mem_map.1 ha
    obtain ⟨u, hu, rfl⟩ := List.mem_map.1 hb
    have h1 := hm t ht
    have h2 := hm u hu
    have := h.rk_inj hnd (by omega) (by omega) he
    omega
  · rw [List.map_map]
    have hn := hrun.nodup
    have : tr.map ((fun op : Operation S => (op.src, op.dst)) ∘ toOp rk) =
        (tr.map (fun t => (t.1, t.2.1))).map (fun p => (rk p.1, rk p.2)) := by
      simp [List.map_map, Function.comp_def, toOp]
    rw [this]
    refine List.Nodup.map_on ?_ hn
    intro x hx y hy hxy
    obtain ⟨t, ht, rfl⟩ := List.mem_map.1 hx
    obtain ⟨u, hu, rfl⟩ := List.mem_map.1 hy
    have h1 := hm t ht
    have h2 := hm u hu
    simp only [Prod.mk.injEq] at hxy
    have e1 := h.rk_inj hnd (by omega) (by omega) hxy.1
    have e2 := h.rk_inj hnd (by omega) (by omega) hxy.2
    simp [e1, e2]
  · have := hrun.length
    simp [h.1, this]

omit [Zero S] [Add S] [Sub S] [Mul S] [Div S] [Neg S] [NatCast S] [LT S] [DecidableLT S]
  [Consts S] in
theorem PlanOK.filter {ranks : List Nat} {plan : List (Operation S)} (h : PlanOK ranks plan)
    (p : Operation S → Bool) : PlanOK ranks (plan.filter p) := by
  refine ⟨fun op ho => h.src_mem op (List.mem_of_mem_filter ho),
    fun op ho => h.dst_mem op (List.mem_of_mem_filter ho),
    fun a ha b hb => h.roles a (List.mem_of_mem_filter ha) b (List.mem_of_mem_filter hb),
    h.nodup.sublist (List.filter_sublist.map _),
    Nat.le_trans List.filter_sublist.length_le h.length_le⟩

omit [Zero S] [Add S] [Sub S] [Mul S] [Div S] [Neg S] [NatCast S] [LT S] [DecidableLT S]
  [Consts S] in
theorem PlanOK.perm {ranks ranks' : List Nat} {plan : List (Operation S)} (h : PlanOK ranks plan)
    (hp : ranks.Perm ranks') : PlanOK ranks' plan :=
  ⟨fun op ho => hp.mem_iff.1 (h.src_mem op ho), fun op ho => hp.mem_iff.1 (h.dst_mem op ho),
    h.roles, h.nodup, by rw [← hp.length_eq]; exact h.length_le⟩

/-- Every rank's operations are the restriction of one well-formed plan. -/
theorem getOperations_plan (sort : List (ChemistryLoad S) → List (ChemistryLoad S))
    (hsort : ∀ l, (sort l).Perm l) (loads : List (ChemistryLoad S)) (hne : loads ≠ [])
    (hnd : (loads.map (·.rank)).Nodup) :
    ∃ plan : List (Operation S), PlanOK (loads.map (·.rank)) plan ∧
      (∀ op ∈ plan, Consts.filterFrac * getMean loads < op.value) ∧
      ∀ me fuel, loads.length - 1 ≤ fuel →
        getOperations sort fuel loads me = .ok (plan.filter (involves me)) := by
  obtain ⟨rk, v, tr, v', loads', hh, -, hrun, -, hops⟩ := getOperations_run sort hsort loads hne
  have hp : ((sort loads).map (·.rank)).Perm (loads.map (·.rank)) := (hsort loads).map _
  refine ⟨(tr.map (toOp rk)).filter (isLarge (getMean loads)), ?_, ?_, hops⟩
  · refine PlanOK.filter (PlanOK.perm ?_ hp) _
    exact planOK_of_run hh (hp.nodup_iff.2 hnd) (List.length_pos_of_ne_nil hne) hrun
  · intro op hop
    have := (List.mem_filter.1 hop).2
    simpa [isLarge] using this

end

end DLB
