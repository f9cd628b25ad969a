import Verif.Lemmas.RoundedTotal
import Verif.Lemmas.Binary64
/-
The load balancer in floating-point arithmetic: C95-C99.  The theorems hold for every format of
`Model/Rounded` (rounding that is monotone, with gradual underflow), in particular for IEEE doubles
(`binary64`).  Overflow is not modelled.
-/
set_option autoImplicit false
set_option linter.unusedSectionVars false

namespace DLB

variable {K : Type} [Field K] [LinearOrder K] [IsStrictOrderedRing K] {F : FloatFormat K}

theorem Holds.pos_of_mem' {S : Type} {loads : List (ChemistryLoad S)} {len : Nat} {rk : Nat → Nat}
    {v : Nat → S} (h : Holds loads len rk v) {l : ChemistryLoad S} (hl : l ∈ loads) :
    ∃ i, i < len ∧ rk i = l.rank ∧ v i = l.value := by
  obtain ⟨i, hi, e⟩ := List.mem_iff_getElem.1 hl
  have hi' : i < len := by rw [← h.1]; exact hi
  have := h.2 i hi'
  rw [List.getElem?_eq_getElem hi, Option.some.injEq, e] at this
  exact ⟨i, hi', by rw [this], by rw [this]⟩

theorem Holds.mem' {S : Type} {loads : List (ChemistryLoad S)} {len : Nat} {rk : Nat → Nat}
    {v : Nat → S} (h : Holds loads len rk v) {i : Nat} (hi : i < len) : ⟨rk i, v i⟩ ∈ loads :=
  List.mem_of_getElem? (h.2 i hi)

theorem Holds.inj' {S : Type} {loads : List (ChemistryLoad S)} {len : Nat} {rk : Nat → Nat}
    {v : Nat → S} (h : Holds loads len rk v) (hnd : (loads.map (·.rank)).Nodup) :
    ∀ i j, i < len → j < len → rk i = rk j → i = j := by
  intro i j hi hj hij
  have hi' : i < loads.length := by rw [h.1]; exact hi
  have hj' : j < loads.length := by rw [h.1]; exact hj
  have e1 := h.2 i hi
  have e2 := h.2 j hj
  rw [List.getElem?_eq_getElem hi', Option.some.injEq] at e1
  rw [List.getElem?_eq_getElem hj', Option.some.injEq] at e2
  exact (hnd.getElem_inj_iff (hi := by simpa using hi') (hj := by simpa using hj')).1
    (by rw [List.getElem_map, List.getElem_map, e1, e2]; exact hij)

theorem Run.positions' {S : Type} [Zero S] [Add S] [Sub S] [Neg S] [LT S] [DecidableLT S] [Consts S]
    {mean : S} {v v' : Nat → S} {s r : Nat} {tr : List (Nat × Nat × S)}
    (h : Run mean v s r tr v') : ∀ t ∈ tr, t.1 ≤ s ∧ t.2.1 < t.1 := by
  induction h with
  | done => simp
  | down h _ hr ih =>
    intro t ht
    rcases List.mem_cons.1 ht with rfl | ht
    · exact ⟨le_refl _, h⟩
    · have := ih t ht; omega
  | up h _ hr ih =>
    intro t ht
    rcases List.mem_cons.1 ht with rfl | ht
    · exact ⟨le_refl _, h⟩
    · exact ih t ht

/-! ### C95 -/

/-- C95.  With rounding, carrying out all planned operations still brings every rank to the exact
mean of the loads, up to `30 n^2 u` times the mean and `4 n` times `1e-15`. -/
theorem C95_full_plan_levels_with_rounding
    {sort : List (ChemistryLoad (Fl F)) → List (ChemistryLoad (Fl F))} (hsort : Sorts sort)
    (loads : List (ChemistryLoad (Fl F))) (h : FloatLoads F loads)
    (hnd : (loads.map (·.rank)).Nodup) :
    ∀ l ∈ loads, ∃ st, runPlan sort loads.length loads l.rank = .ok st ∧
      |planned (exactOps st.operations) l.rank l.value.val - exactMean loads| ≤
        30 * ((loads.length : K) ^ 2 * F.u) * exactMean loads +
          4 * (loads.length : K) / 10 ^ 15 := by
  intro l hl
  have hne : loads ≠ [] := List.ne_nil_of_mem hl
  obtain ⟨rk, v, tr, v', loads', hh, hh', hrun, hlev, hfin, -, hplan, -⟩ := h.plan hne hsort
  have hpos : 0 < loads.length := List.length_pos_of_ne_nil hne
  have hp : ((sort loads).map (·.rank)).Perm (loads.map (·.rank)) := (hsort.perm loads).map _
  obtain ⟨i, hi, e1, e2⟩ := hh.pos_of_mem' ((hsort.perm loads).mem_iff.2 hl)
  obtain ⟨m, hm⟩ := hplan l.rank loads.length (by omega)
  refine ⟨_, hm, ?_⟩
  have hinj := hh.inj' (hp.nodup_iff.2 hnd)
  have htr : ∀ t ∈ vals tr, t.1 < loads.length ∧ t.2.1 < loads.length := by
    intro t ht
    obtain ⟨t', h', rfl⟩ := List.mem_map.1 ht
    have := hrun.positions' t' h'
    simp only
    omega
  have hops : exactOps ((tr.map (toOp rk)).filter (involves l.rank)) =
      (((vals tr).map (toOp rk)).filter (fun _ => true)).filter (involves (rk i)) := by
    rw [e1, ← exactOps_filter rk tr (fun _ => true) (fun _ => true) (fun _ => rfl) l.rank]
    simp
  obtain ⟨s1, s2⟩ := sentBy_ops hinj htr (fun _ => true) hi
  simp only [List.filter_true] at s1 s2
  have hplanned : planned (exactOps ((tr.map (toOp rk)).filter (involves l.rank))) l.rank l.value.val =
      (v i).val - outflow (vals tr) i + inflow (vals tr) i := by
    unfold planned
    rw [hops, ← e1, ← e2]
    simp only [List.filter_true]
    rw [s1, s2]
  simp only
  rw [hplanned]
  have a1 := hlev i hi
  have a2 := hfin i
  have a3 := h.mean_near hne
  obtain ⟨hn1, hmu, hu, hnu, hn2u, hbig⟩ := h.basics hne
  have h1 : (loads.length : K) * F.u ≤ (loads.length : K) ^ 2 * F.u := by
    apply mul_le_mul_of_nonneg_right _ F.u_nonneg
    rw [sq]; exact le_mul_of_one_le_left (by linarith) hn1
  have h2 : 4 * ((loads.length : K) * F.u) * exactMean loads ≤
      4 * ((loads.length : K) ^ 2 * F.u) * exactMean loads :=
    mul_le_mul_of_nonneg_right (by linarith) hmu.le
  have hη := h.tiny
  have h3 : 0 ≤ (loads.length : K) ^ 2 * F.u * exactMean loads :=
    mul_nonneg (mul_nonneg (sq_nonneg _) F.u_nonneg) hmu.le
  rw [abs_sub_comm] at a2
  unfold flEmax at a1
  have e : (v i).val - outflow (vals tr) i + inflow (vals tr) i - exactMean loads =
      ((v i).val - outflow (vals tr) i + inflow (vals tr) i - (v' i).val) +
      ((v' i).val - (getMean loads).val) + ((getMean loads).val - exactMean loads) := by ring
  rw [e]
  refine (abs_add_le _ _).trans ((add_le_add ((abs_add_le _ _).trans (add_le_add a2 a1)) a3).trans ?_)
  norm_num at hη ⊢
  linarith

/-! ### C96 -/

/-- C96, amounts.  With rounding, the kept operations of a rank send at most its surplus over the
exact mean and receive at most its deficit, up to `15 n^2 u` times the mean. -/
theorem C96_kept_amounts_with_rounding
    {sort : List (ChemistryLoad (Fl F)) → List (ChemistryLoad (Fl F))} (hsort : Sorts sort)
    (loads : List (ChemistryLoad (Fl F))) (h : FloatLoads F loads)
    (hnd : (loads.map (·.rank)).Nodup) :
    ∀ l ∈ loads, ∃ ops, getOperations sort loads.length loads l.rank = .ok ops ∧
      0 ≤ sentBy (exactOps ops) l.rank ∧
      sentBy (exactOps ops) l.rank ≤ max (l.value.val - exactMean loads) 0 +
        (15 * ((loads.length : K) ^ 2 * F.u) * exactMean loads + F.eta) ∧
      0 ≤ receivedBy (exactOps ops) l.rank ∧
      receivedBy (exactOps ops) l.rank ≤ max (exactMean loads - l.value.val) 0 +
        (15 * ((loads.length : K) ^ 2 * F.u) * exactMean loads + F.eta) := by
  intro l hl
  have hne : loads ≠ [] := List.ne_nil_of_mem hl
  obtain ⟨rk, v, tr, v', loads', hh, hh', hrun, -, -, hflow, -, hops⟩ := h.plan hne hsort
  have hpos : 0 < loads.length := List.length_pos_of_ne_nil hne
  have hp : ((sort loads).map (·.rank)).Perm (loads.map (·.rank)) := (hsort.perm loads).map _
  obtain ⟨i, hi, e1, e2⟩ := hh.pos_of_mem' ((hsort.perm loads).mem_iff.2 hl)
  refine ⟨_, hops l.rank _ (by omega), ?_⟩
  have hinj := hh.inj' (hp.nodup_iff.2 hnd)
  have htr : ∀ t ∈ tr, t.1 < loads.length ∧ t.2.1 < loads.length := by
    intro t ht
    have := hrun.positions' t ht
    omega
  obtain ⟨k1, k2, k3, k4⟩ := h.kept_le hne hinj htr hi
  rw [e1] at k1 k2 k3 k4
  obtain ⟨f1, f2⟩ := hflow i
  rw [e2] at f1 f2
  have a3 := abs_le.1 (h.mean_near hne)
  obtain ⟨hn1, hmu, hu, hnu, hn2u, hbig⟩ := h.basics hne
  have h1 : (loads.length : K) * F.u ≤ (loads.length : K) ^ 2 * F.u := by
    apply mul_le_mul_of_nonneg_right _ F.u_nonneg
    rw [sq]; exact le_mul_of_one_le_left (by linarith) hn1
  have h2 : 4 * ((loads.length : K) * F.u) * exactMean loads ≤
      4 * ((loads.length : K) ^ 2 * F.u) * exactMean loads :=
    mul_le_mul_of_nonneg_right (by linarith) hmu.le
  have h3 : 0 ≤ (loads.length : K) ^ 2 * F.u * exactMean loads :=
    mul_nonneg (mul_nonneg (sq_nonneg _) F.u_nonneg) hmu.le
  have hη0 := F.eta_nonneg
  have m1 : max (l.value.val - (getMean loads).val) 0 ≤ max (l.value.val - exactMean loads) 0 +
      (4 * ((loads.length : K) ^ 2 * F.u) * exactMean loads + F.eta) := by
    have b1 := le_max_left (l.value.val - exactMean loads) 0
    have b2 := le_max_right (l.value.val - exactMean loads) 0
    exact max_le (by linarith [a3.1]) (by linarith)
  have m2 : max ((getMean loads).val - l.value.val) 0 ≤ max (exactMean loads - l.value.val) 0 +
      (4 * ((loads.length : K) ^ 2 * F.u) * exactMean loads + F.eta) := by
    have b1 := le_max_left (exactMean loads - l.value.val) 0
    have b2 := le_max_right (exactMean loads - l.value.val) 0
    exact max_le (by linarith [a3.2]) (by linarith)
  exact ⟨k1, by linarith, k3, by linarith⟩

/-- C96, direction.  With rounding, every kept operation starts at a rank with more than the exact
mean load and ends at a rank with less, and moves at least 0.9 per cent of the mean. -/
theorem C96_only_overloaded_send_with_rounding
    {sort : List (ChemistryLoad (Fl F)) → List (ChemistryLoad (Fl F))} (hsort : Sorts sort)
    (loads : List (ChemistryLoad (Fl F))) (hne : loads ≠ []) (h : FloatLoads F loads) (me : Nat) :
    ∃ ops, getOperations sort loads.length loads me = .ok ops ∧
      ∀ op ∈ ops, (∃ ls ∈ loads, ls.rank = op.src ∧ exactMean loads < ls.value.val) ∧
        (∃ ld ∈ loads, ld.rank = op.dst ∧ ld.value.val < exactMean loads) ∧
        9 / 1000 * exactMean loads < op.value.val := by
  obtain ⟨rk, v, tr, v', loads', hh, hh', hrun, -, -, hflow, -, hops⟩ := h.plan hne hsort
  have hpos : 0 < loads.length := List.length_pos_of_ne_nil hne
  refine ⟨_, hops me _ (by omega), fun op hop => ?_⟩
  have h1 := List.mem_filter.1 (List.mem_of_mem_filter hop)
  obtain ⟨t, ht, rfl⟩ := List.mem_map.1 h1.1
  have hlarge : ((Consts.filterFrac : Fl F) * getMean loads).val < t.2.2.val :=
    of_decide_eq_true h1.2
  have hx : 9 / 1000 * exactMean loads < t.2.2.val := lt_of_le_of_lt (h.filter_ge hne) hlarge
  obtain ⟨hn1, hmu, hu, hnu, hn2u, hbig⟩ := h.basics hne
  have hb := hrun.positions' t ht
  have hmem : (t.1, t.2.1, t.2.2.val) ∈ big (9 / 1000 * exactMean loads) tr := by
    unfold big vals
    exact List.mem_filter.2 ⟨List.mem_map.2 ⟨t, ht, rfl⟩, by simpa using hx⟩
  have hpb : ∀ t ∈ big (9 / 1000 * exactMean loads) tr, 0 ≤ t.2.2 := by
    intro t ht
    have := (List.mem_filter.1 ht).2
    have h1 : 9 / 1000 * exactMean loads < t.2.2 := by simpa using this
    have : 0 ≤ 9 / 1000 * exactMean loads := mul_nonneg (by norm_num) hmu.le
    linarith
  have ho : t.2.2.val ≤ outflow (big (9 / 1000 * exactMean loads) tr) t.1 := by
    unfold outflow
    apply List.single_le_sum
    · intro x hx'
      obtain ⟨t', h', rfl⟩ := List.mem_map.1 hx'
      exact hpb t' (List.mem_of_mem_filter h')
    · exact List.mem_map.2 ⟨_, List.mem_filter.2 ⟨hmem, by simp⟩, rfl⟩
  have hi : t.2.2.val ≤ inflow (big (9 / 1000 * exactMean loads) tr) t.2.1 := by
    unfold inflow
    apply List.single_le_sum
    · intro x hx'
      obtain ⟨t', h', rfl⟩ := List.mem_map.1 hx'
      exact hpb t' (List.mem_of_mem_filter h')
    · exact List.mem_map.2 ⟨_, List.mem_filter.2 ⟨hmem, by simp⟩, rfl⟩
  have hr : 19 / 2 * ((loads.length : K) ^ 2 * F.u) * exactMean loads ≤
      19 / 2 * (1 / 10 ^ 5) * exactMean loads := mul_le_mul_of_nonneg_right (by linarith) hmu.le
  have hmb := h.mean_bounds hne
  refine ⟨⟨_, (hsort.perm loads).mem_iff.1 (hh.mem' (by omega : t.1 < loads.length)), rfl, ?_⟩,
    ⟨_, (hsort.perm loads).mem_iff.1 (hh.mem' (by omega : t.2.1 < loads.length)), rfl, ?_⟩, hx⟩
  · have f := (hflow t.1).1
    simp only
    rcases le_total ((v t.1).val - (getMean loads).val) 0 with hc | hc
    · rw [max_eq_right hc] at f
      exfalso
      norm_num at hr hx f ⊢
      linarith
    · rw [max_eq_left hc] at f
      norm_num at hr hx f hmb ⊢
      linarith [hmb.1]
  · have f := (hflow t.2.1).2
    simp only
    rcases le_total ((getMean loads).val - (v t.2.1).val) 0 with hc | hc
    · rw [max_eq_right hc] at f
      exfalso
      norm_num at hr hx f ⊢
      linarith
    · rw [max_eq_left hc] at f
      norm_num at hr hx f hmb ⊢
      linarith [hmb.2]

/-! ### C97 -/

/-- The exact CPU time of a list of problems, without rounding of the sum. -/
def realWork (ps : List (ChemistryProblem (Fl F))) : K := (ps.map (fun p => p.cpuTime.val)).sum

theorem realWork_append (a b : List (ChemistryProblem (Fl F))) :
    realWork (a ++ b) = realWork a + realWork b := by simp [realWork]

theorem realWork_flatten (bs : List (List (ChemistryProblem (Fl F)))) :
    realWork bs.flatten = (bs.map realWork).sum := by
  induction bs with
  | nil => simp [realWork]
  | cons b bs ih => rw [List.flatten_cons, realWork_append, ih, List.map_cons, List.sum_cons]

theorem realWork_nonneg {ps : List (ChemistryProblem (Fl F))} (h : ∀ p ∈ ps, 0 ≤ p.cpuTime.val) :
    0 ≤ realWork ps := by
  apply List.sum_nonneg
  intro x hx
  obtain ⟨p, hp, rfl⟩ := List.mem_map.1 hx
  exact h p hp

theorem realWork_near {ps : List (ChemistryProblem (Fl F))} (h : ∀ p ∈ ps, 0 ≤ p.cpuTime.val)
    {M : Nat} (hl : ps.length ≤ M) (hM : 10 ^ 5 * ((M : K) * F.u) ≤ 1) :
    |(ps.foldl (fun (sum : Fl F) p => sum + p.cpuTime) 0).val - realWork ps| ≤
      2 * ((M : K) * F.u) * realWork ps := by
  have hu := F.u_nonneg
  have hlM : (ps.length : K) * F.u ≤ (M : K) * F.u :=
    mul_le_mul_of_nonneg_right (by exact_mod_cast hl) hu
  have hMu : 0 ≤ (M : K) * F.u := mul_nonneg (Nat.cast_nonneg _) hu
  have := sum_fl (fun p : ChemistryProblem (Fl F) => p.cpuTime) ps h (by norm_num at hM; linarith)
  refine this.trans ?_
  rw [mul_assoc 2]
  exact mul_le_mul_of_nonneg_right (by linarith) (realWork_nonneg h)

theorem fl_block_le {M : Nat} (hM : 10 ^ 5 * ((M : K) * F.u) ≤ 1) (t : Fl F) (ht : 0 ≤ t.val)
    (ps : List (ChemistryProblem (Fl F))) (hnn : ∀ p ∈ ps, 0 ≤ p.cpuTime.val)
    (hl : ps.length ≤ M) :
    realWork (ps.take (fitCount t ps)) ≤ (1 + 4 * ((M : K) * F.u)) * t.val := by
  have hMu : 0 ≤ (M : K) * F.u := mul_nonneg (Nat.cast_nonneg _) F.u_nonneg
  by_cases h : ps.take (fitCount t ps) = []
  · rw [h]
    simpa [realWork] using mul_nonneg (by linarith) ht
  · have h1 := (countWhile_time t ps 0).1 (ps.take (fitCount t ps)) (List.prefix_refl _) h
    rw [Fl.le_iff] at h1
    have h0 : ∀ p ∈ ps.take (fitCount t ps), 0 ≤ p.cpuTime.val :=
      fun p hp => hnn p (List.mem_of_mem_take hp)
    have h2 := (abs_le.1 (realWork_near h0 ((List.length_take_le' _ _).trans hl) hM)).1
    have h3 := realWork_nonneg h0
    norm_num at hM
    nlinarith [mul_nonneg hMu h3, mul_nonneg hMu ht]

theorem fl_blocks_le {M : Nat} (hM : 10 ^ 5 * ((M : K) * F.u) ≤ 1) :
    ∀ (ts : List (Fl F)), (∀ t ∈ ts, 0 ≤ t.val) → ∀ (ps : List (ChemistryProblem (Fl F)))
    (_ : ∀ p ∈ ps, 0 ≤ p.cpuTime.val) (_ : ps.length ≤ M) (i : Nat)
    (hi : i < (blocks ts ps).length) (hi' : i < ts.length),
    realWork ((blocks ts ps)[i]) ≤ (1 + 4 * ((M : K) * F.u)) * (ts[i]).val
  | [], _, ps, _, _, i, hi, hi' => by simp at hi'
  | t :: ts, h, ps, hnn, hl, i, hi, hi' => by
    cases i with
    | zero => exact fl_block_le hM t (h t (by simp)) ps hnn hl
    | succ i =>
      exact fl_blocks_le hM ts (fun t ht => h t (by simp [ht])) _
        (fun p hp => hnn p (List.mem_of_mem_drop hp)) (by rw [List.length_drop]; omega) i _
        (by simpa using hi')

/-- The arithmetic behind C97: `w`, `L` are the exact and the computed load of a rank, `a`, `μ` the
exact mean of the exact and of the computed loads, `R` what the rank receives. -/
theorem work_arith {w L a μ R g d q η : K} (hd : 0 ≤ d) (hd' : d ≤ 1 / 10 ^ 4) (hq : 0 ≤ q)
    (hη : 0 ≤ η) (hw : 0 ≤ w) (ha : 0 ≤ a) (hL : |L - w| ≤ d * w) (hμ : |μ - a| ≤ d * a)
    (hR : R ≤ max (μ - L) 0 + (15 * q * μ + η)) (hg : g ≤ (1 + 2 * d) * R) :
    w + g ≤ max w a + (15 * d + 30 * q) * a + 2 * η := by
  obtain ⟨l1, l2⟩ := abs_le.1 hL
  obtain ⟨m1, m2⟩ := abs_le.1 hμ
  norm_num at hd'
  have hda := mul_nonneg hd ha
  have hdw := mul_nonneg hd hw
  have hqa := mul_nonneg hq ha
  have hda' : d * a ≤ 1 / 10000 * a := mul_le_mul_of_nonneg_right hd' ha
  have hdw' : d * w ≤ 1 / 10000 * w := mul_le_mul_of_nonneg_right hd' hw
  have hqμ : q * μ ≤ 10001 / 10000 * (q * a) := by
    have := mul_le_mul_of_nonneg_left (show μ ≤ 10001 / 10000 * a by linarith) hq
    linarith
  have hμ0 : 0 ≤ μ := by linarith
  have hqμ0 : 0 ≤ q * μ := mul_nonneg hq hμ0
  have hX0 : 0 ≤ 15 * q * μ + η := by linarith
  have hX : (1 + 2 * d) * (15 * q * μ + η) ≤ 10002 / 10000 * (15 * q * μ + η) :=
    mul_le_mul_of_nonneg_right (by linarith) hX0
  have hg' : g ≤ (1 + 2 * d) * max (μ - L) 0 + (1 + 2 * d) * (15 * q * μ + η) := by
    rw [← mul_add]
    exact hg.trans (mul_le_mul_of_nonneg_left hR (by linarith))
  rcases le_total (μ - L) 0 with h | h
  · rw [max_eq_right h, mul_zero, zero_add] at hg'
    have := le_max_left w a
    linarith
  · rw [max_eq_left h] at hg'
    have := le_max_right w a
    have hwa : w ≤ 2 * a := by linarith
    have hdwa : d * w ≤ d * (2 * a) := mul_le_mul_of_nonneg_left hwa hd
    have hdL : 0 ≤ d * L := mul_nonneg hd (by linarith)
    have hdμ : d * μ ≤ d * (2 * a) := mul_le_mul_of_nonneg_left (by linarith) hd
    have e : (1 + 2 * d) * (μ - L) = μ - L + 2 * (d * μ) - 2 * (d * L) := by ring
    rw [e] at hg'
    linarith

/-- C97.  With rounding in all sums, the exact work of a rank after balancing (its remaining
problems plus its guests) is at most the larger of its own work and the mean, up to
`30 (M + n^2) u` times the mean and twice the underflow error; `M` bounds the number of problems of
a rank. -/
theorem C97_work_bounded_with_rounding {n M : Nat} (hn : 0 < n)
    {sort : List (ChemistryLoad (Fl F)) → List (ChemistryLoad (Fl F))} (hsort : Sorts sort)
    (problems : Fin n → List (ChemistryProblem (Fl F))) (parRun : Bool)
    (hpar : parRun = true ∨ n = 1) (hnn : ∀ r, ∀ p ∈ problems r, 0 ≤ p.cpuTime.val)
    (hlen : ∀ r, (problems r).length ≤ M) (hM : 10 ^ 5 * ((M : K) * F.u) ≤ 1)
    (hcount : F.rnd (n : K) = n) (hfine : 10 ^ 5 * ((n : K) ^ 2 * F.u) ≤ 1)
    (htiny : F.eta ≤ 1 / 10 ^ 18)
    (henough : 2 * (n : K) / 10 ^ 10 ≤ (∑ s, realWork (problems s)) / n) :
    ∃ st split, splitProblems parRun sort problems = .ok (st, split) ∧ ∀ r,
      realWork ((split r).own ++ (split r).guests.flatten) ≤
        max (realWork (problems r)) ((∑ s, realWork (problems s)) / n) +
          30 * (((M : K) + (n : K) ^ 2) * F.u) * ((∑ s, realWork (problems s)) / n) +
          2 * F.eta := by
  obtain ⟨plan, hok, hbig, hops, -, hs⟩ := splitProblems_plan hn sort hsort.perm problems parRun hpar
  refine ⟨_, _, hs, fun r => ?_⟩
  simp only
  have hMu : 0 ≤ (M : K) * F.u := mul_nonneg (Nat.cast_nonneg _) F.u_nonneg
  have hl := gatherLoads_length problems
  have hr := gatherLoads_ranks problems
  have hnK : (0 : K) < n := by exact_mod_cast hn
  have hval : ∀ r : Fin n, |(computeLoad r.val (problems r)).value.val - realWork (problems r)| ≤
      2 * ((M : K) * F.u) * realWork (problems r) :=
    fun r => realWork_near (hnn r) (hlen r) hM
  have hw0 : ∀ r, 0 ≤ realWork (problems r) := fun r => realWork_nonneg (hnn r)
  have hsum : exactMean (gatherLoads problems) =
      (∑ s : Fin n, (computeLoad s.val (problems s)).value.val) / n := by
    rw [exactMean_eq, hl]
    unfold gatherLoads
    rw [List.map_ofFn, List.sum_ofFn]
    rfl
  have ha0 : 0 ≤ (∑ s, realWork (problems s)) / (n : K) :=
    div_nonneg (Finset.sum_nonneg (fun s _ => hw0 s)) hnK.le
  have hμ : |exactMean (gatherLoads problems) - (∑ s, realWork (problems s)) / n| ≤
      2 * ((M : K) * F.u) * ((∑ s, realWork (problems s)) / n) := by
    rw [hsum, ← sub_div, abs_div, abs_of_pos hnK, ← mul_div_assoc]
    apply div_le_div_of_nonneg_right _ hnK.le
    rw [← Finset.sum_sub_distrib, Finset.mul_sum]
    exact (Finset.abs_sum_le_sum_abs _ _).trans (Finset.sum_le_sum (fun s _ => hval s))
  have hloads : ∀ l ∈ gatherLoads problems, 0 ≤ l.value.val := by
    intro l hl
    obtain ⟨r, rfl⟩ := (List.mem_ofFn' _ _).1 hl
    have h1 := (abs_le.1 (hval r)).1
    have h2 : 2 * ((M : K) * F.u) * realWork (problems r) ≤ 1 * realWork (problems r) :=
      mul_le_mul_of_nonneg_right (by norm_num at hM; linarith) (hw0 r)
    linarith
  have hFL : FloatLoads F (gatherLoads problems) := by
    refine ⟨hloads, by rw [hl]; exact hcount, by rw [hl]; exact hfine, htiny, ?_⟩
    rw [hl]
    have h1 := (abs_le.1 hμ).1
    have h2 : 2 * ((M : K) * F.u) * ((∑ s, realWork (problems s)) / n) ≤
        1 / 2 * ((∑ s, realWork (problems s)) / n) :=
      mul_le_mul_of_nonneg_right (by norm_num at hM; linarith) ha0
    norm_num at henough ⊢
    linarith
  have hne : gatherLoads problems ≠ [] := by
    intro h; rw [h] at hl; simp at hl; omega
  obtain ⟨ops, ho, -, -, -, hrecv⟩ := C96_kept_amounts_with_rounding hsort (gatherLoads problems) hFL
    (by rw [hr]; exact List.nodup_range) (computeLoad r.val (problems r))
    ((List.mem_ofFn' _ _).2 ⟨r, rfl⟩)
  rw [show (computeLoad r.val (problems r)).rank = r.val from rfl, hl] at hrecv
  have hro : ops = plan.filter (involves r.val) := by
    rw [hl] at ho
    have h2 := hops r.val n (by omega)
    have : (computeLoad r.val (problems r)).rank = r.val := rfl
    rw [this, h2] at ho
    exact (Except.ok.inj ho).symm
  have hpos : ∀ op ∈ plan, 0 ≤ op.value.val := by
    intro op hop
    have h1 : ((Consts.filterFrac : Fl F) * getMean (gatherLoads problems)).val < op.value.val :=
      hbig op hop
    have h2 := hFL.filter_ge hne
    obtain ⟨-, hmu, -⟩ := hFL.basics hne
    have : 0 ≤ 9 / 1000 * exactMean (gatherLoads problems) := mul_nonneg (by norm_num) hmu.le
    linarith
  -- own
  have hown : realWork (restOf plan r.val (problems r)) ≤ realWork (problems r) := by
    have e := blocksOf_flatten plan r.val (problems r)
    have h2 := congrArg realWork e
    rw [realWork_append] at h2
    have : 0 ≤ realWork (blocksOf plan r.val (problems r)).flatten := by
      apply realWork_nonneg
      intro p hp
      refine hnn r p ?_
      rw [← e]; exact List.mem_append_left _ hp
    linarith
  -- guests
  have hguest : realWork (guestsOf plan problems r.val).flatten ≤
      (1 + 2 * (2 * ((M : K) * F.u))) * receivedBy (exactOps ops) r.val := by
    rw [realWork_flatten]
    unfold guestsOf
    rw [List.map_map, List.map_map]
    have e : receivedBy (exactOps ops) r.val =
        ((recvs plan r.val).map (fun o => o.value.val)).sum := by
      rw [hro]
      unfold receivedBy recvs exactOps
      rw [List.filter_map, List.map_map, List.filter_filter]
      congr 2
      apply List.filter_congr
      intro op _
      by_cases h : op.dst = r.val <;> simp [involves, h]
    rw [e, ← List.sum_map_mul_left]
    apply List.sum_le_sum
    intro op hop
    have hm := List.mem_filter.1 hop
    have hdst : op.dst = r.val := by simpa using hm.2
    simp only [Function.comp]
    have hmem : op ∈ sends plan op.src := List.mem_filter.2 ⟨hm.1, by simp⟩
    obtain ⟨j, hj, hje⟩ := List.mem_iff_getElem.1 hmem
    have hidx : ((sends plan op.src).map (·.dst)).idxOf r.val = j := by
      have := (hok.dst_nodup op.src).idxOf_getElem j (by simpa using hj)
      rw [List.getElem_map, hje, hdst] at this
      exact this
    rw [hidx]
    have hj' : j < (blocksOf plan op.src (extend problems op.src)).length := by
      rw [blocksOf_length]; exact hj
    rw [List.getD_eq_getElem?_getD, List.getElem?_eq_getElem hj', Option.getD_some]
    have hx : (∀ p ∈ extend problems op.src, 0 ≤ p.cpuTime.val) ∧
        (extend problems op.src).length ≤ M := by
      unfold extend
      split
      · exact ⟨hnn _, hlen _⟩
      · simp
    have hb := fl_blocks_le hM ((sends plan op.src).map Operation.value) (by
      intro t ht
      obtain ⟨o, ho, rfl⟩ := List.mem_map.1 ht
      exact hpos o (List.mem_of_mem_filter ho)) (extend problems op.src) hx.1 hx.2 j hj'
      (by simpa using hj)
    rw [List.getElem_map, hje] at hb
    exact hb.trans (le_of_eq (by ring))
  rw [realWork_append]
  have hn2 : 0 ≤ (n : K) ^ 2 * F.u := mul_nonneg (sq_nonneg _) F.u_nonneg
  have := work_arith (by linarith : 0 ≤ 2 * ((M : K) * F.u))
    (by norm_num at hM ⊢; linarith) hn2 F.eta_nonneg (hw0 r) ha0 (hval r) hμ hrecv hguest
  have e : 15 * (2 * ((M : K) * F.u)) + 30 * ((n : K) ^ 2 * F.u) =
      30 * (((M : K) + (n : K) ^ 2) * F.u) := by ring
  rw [e] at this
  linarith

/-- C97, makespan: with rounding no rank does more work after balancing than some rank would have
done without, up to the same error. -/
theorem C97_makespan_with_rounding {n M : Nat} (hn : 0 < n)
    {sort : List (ChemistryLoad (Fl F)) → List (ChemistryLoad (Fl F))} (hsort : Sorts sort)
    (problems : Fin n → List (ChemistryProblem (Fl F))) (parRun : Bool)
    (hpar : parRun = true ∨ n = 1) (hnn : ∀ r, ∀ p ∈ problems r, 0 ≤ p.cpuTime.val)
    (hlen : ∀ r, (problems r).length ≤ M) (hM : 10 ^ 5 * ((M : K) * F.u) ≤ 1)
    (hcount : F.rnd (n : K) = n) (hfine : 10 ^ 5 * ((n : K) ^ 2 * F.u) ≤ 1)
    (htiny : F.eta ≤ 1 / 10 ^ 18)
    (henough : 2 * (n : K) / 10 ^ 10 ≤ (∑ s, realWork (problems s)) / n) :
    ∃ st split, splitProblems parRun sort problems = .ok (st, split) ∧ ∀ r, ∃ s,
      realWork ((split r).own ++ (split r).guests.flatten) ≤ realWork (problems s) +
          30 * (((M : K) + (n : K) ^ 2) * F.u) * ((∑ s, realWork (problems s)) / n) +
          2 * F.eta := by
  obtain ⟨st, split, h1, h2⟩ := C97_work_bounded_with_rounding hn hsort problems parRun hpar hnn hlen
    hM hcount hfine htiny henough
  refine ⟨st, split, h1, fun r => ?_⟩
  rcases le_total (realWork (problems r)) ((∑ s, realWork (problems s)) / n) with h | h
  · have hr := h2 r
    rw [max_eq_right h] at hr
    have hex : ∃ s, (∑ s, realWork (problems s)) / n ≤ realWork (problems s) := by
      by_contra hc
      push Not at hc
      have hlt : ∑ s, realWork (problems s) < ∑ _s : Fin n, (∑ s, realWork (problems s)) / n :=
        Finset.sum_lt_sum_of_nonempty ⟨⟨0, hn⟩, Finset.mem_univ _⟩ (fun s _ => hc s)
      have hnK : (n : K) ≠ 0 := by exact_mod_cast hn.ne'
      rw [Finset.sum_const, Finset.card_univ, Fintype.card_fin, nsmul_eq_mul,
        mul_div_cancel₀ _ hnK] at hlt
      exact lt_irrefl _ hlt
    obtain ⟨s, hs⟩ := hex
    exact ⟨s, by linarith⟩
  · have hr := h2 r
    rw [max_eq_left h] at hr
    exact ⟨r, hr⟩

/-! ### C98 -/

/-- C98.  With rounding, if all loads are the same number, zero or not too small, no rank gets an
operation. -/
theorem C98_equal_loads_no_traffic_with_rounding
    {sort : List (ChemistryLoad (Fl F)) → List (ChemistryLoad (Fl F))} (hsort : Sorts sort)
    (loads : List (ChemistryLoad (Fl F))) (hne : loads ≠ [])
    (hcount : F.rnd (loads.length : K) = loads.length)
    (hfine : 10 ^ 5 * ((loads.length : K) ^ 2 * F.u) ≤ 1) (htiny : F.eta ≤ 1 / 10 ^ 18)
    (c : Fl F) (hc : c.val = 0 ∨ (loads.length : K) / 10 ^ 10 ≤ c.val)
    (heq : ∀ l ∈ loads, l.value = c) (me : Nat) :
    getOperations sort loads.length loads me = .ok [] := by
  have hpos : 0 < loads.length := List.length_pos_of_ne_nil hne
  have hn0 : (0 : K) < loads.length := by exact_mod_cast hpos
  rcases hc with hc | hc
  · obtain ⟨rk, v, tr, v', loads', hh, hh', hrun, -, h2⟩ :=
      getOperations_run sort hsort.perm loads hne
    have hsum : ∀ (ls : List (ChemistryLoad (Fl F))) (a : Fl F), a.val = 0 →
        (∀ l ∈ ls, l.value.val = 0) → (ls.foldl (fun sum l => sum + l.value) a).val = 0 := by
      intro ls
      induction ls with
      | nil => intro a ha _; exact ha
      | cons l ls ih =>
        intro a ha hl
        refine ih _ ?_ (fun x hx => hl x (by simp [hx]))
        rw [Fl.val_add, ha, hl l (by simp), add_zero, F.rnd_zero]
    have hm : (getMean loads).val = 0 := by
      unfold getMean
      rw [Fl.val_div, hsum loads 0 Fl.val_zero (fun l hl => by rw [heq l hl]; exact hc), zero_div,
        F.rnd_zero]
    have hz := hrun.fl_zero hm (fun i hi => by
      have := (hsort.perm loads).mem_iff.1 (hh.mem' (by omega : i < loads.length))
      have := heq _ this
      simp only at this
      rw [this]; exact hc)
    rw [h2 me _ (by omega)]
    congr 1
    rw [List.filter_filter, List.filter_eq_nil_iff]
    intro op hop
    obtain ⟨t, ht, rfl⟩ := List.mem_map.1 hop
    have hl : ¬ ((Consts.filterFrac : Fl F) * getMean loads).val < t.2.2.val := by
      rw [Fl.val_mul, hm, mul_zero, F.rnd_zero, hz t ht]
      exact lt_irrefl _
    have : isLarge (getMean loads) (toOp rk t) = false := decide_eq_false hl
    simp [this]
  · have hv : ∀ l ∈ loads, l.value.val = c.val := fun l hl => by rw [heq l hl]
    have hmean : exactMean loads = c.val := by
      rw [exactMean_eq, List.map_congr_left hv, List.map_const', List.sum_replicate, nsmul_eq_mul,
        mul_div_cancel_left₀ _ hn0.ne']
    have h10 : 0 ≤ c.val := le_trans (div_nonneg hn0.le (by positivity)) hc
    have hFL : FloatLoads F loads :=
      ⟨fun l hl => by rw [hv l hl]; exact h10, hcount, hfine, htiny, by rw [hmean]; exact hc⟩
    obtain ⟨ops, h1, h2⟩ := C96_only_overloaded_send_with_rounding hsort loads hne hFL me
    cases ops with
    | nil => exact h1
    | cons op ops =>
      obtain ⟨⟨ls, hs, -, h3⟩, -⟩ := h2 op (by simp)
      rw [hv ls hs, hmean] at h3
      exact absurd h3 (lt_irrefl _)

/-! ### C99 -/

/-- C99.  With rounding, the mean of the loads left by the planning loop differs from the mean of
the gathered loads by at most `20 n u` times the mean, so the debug assertion of
LoadBalancer.C:157-159 (`Vanishing load`) holds if the total load is small compared with `1 / u`. -/
theorem C99_vanishing_load_assertion_with_rounding
    {sort : List (ChemistryLoad (Fl F)) → List (ChemistryLoad (Fl F))} (hsort : Sorts sort)
    (loads : List (ChemistryLoad (Fl F))) (hne : loads ≠ []) (h : FloatLoads F loads) (me : Nat) :
    ∃ st, runPlan sort loads.length loads me = .ok st ∧
      (absS (getMean st.loads - getMean loads)).val ≤
        20 * F.u * (loads.map (fun l => l.value.val)).sum + 3 * F.eta ∧
      (4 * 10 ^ 8 * (F.u * (loads.map (fun l => l.value.val)).sum) ≤ 1 →
        absS (getMean st.loads - getMean loads) < Fl.of F (1 / 10 ^ 7)) := by
  obtain ⟨st, h1, h2⟩ := h.mean_after hne hsort me
  obtain ⟨hn1, hmu, hu, hnu, hn2u, hbig⟩ := h.basics hne
  have hn0 : (loads.length : K) ≠ 0 := by linarith
  have e : 20 * ((loads.length : K) * F.u) * exactMean loads =
      20 * F.u * (loads.map (fun l => l.value.val)).sum := by
    rw [exactMean_eq]; field_simp
  rw [e] at h2
  refine ⟨st, h1, by rw [Fl.val_absS]; exact h2, fun ht => ?_⟩
  rw [Fl.lt_iff, Fl.val_absS]
  have hr := abs_le.1 (F.near (1 / 10 ^ 7))
  have hη := h.tiny
  have hu' : F.u * |(1 : K) / 10 ^ 7| ≤ 1 / 10 ^ 5 * |(1 : K) / 10 ^ 7| :=
    mul_le_mul_of_nonneg_right hu (abs_nonneg _)
  rw [abs_of_pos (by positivity : (0 : K) < 1 / 10 ^ 7)] at hr hu'
  refine lt_of_le_of_lt h2 ?_
  show _ < F.rnd (1 / 10 ^ 7)
  norm_num at hr hη hu' ht ⊢
  linarith [hr.1]

/-! ### IEEE doubles -/

/-- Up to 300000 ranks, doubles meet the assumptions on the format. -/
theorem binary64_fits {n : Nat} (hn : n ≤ 300000) : binary64.rnd (n : ℚ) = n ∧
    10 ^ 5 * ((n : ℚ) ^ 2 * binary64.u) ≤ 1 ∧ binary64.eta ≤ 1 / 10 ^ 18 := by
  have hu : binary64.u = 1 / 2 ^ 53 := rfl
  refine ⟨?_, ?_, ?_⟩
  · have := rnd64_fixed (k := (n : ℤ)) (e := 0) (by
      rw [abs_of_nonneg (by positivity)]
      have : (n : ℤ) ≤ 300000 := by exact_mod_cast hn
      norm_num
      linarith) (by norm_num)
    show rnd64 (n : ℚ) = n
    simpa using this
  · rw [hu]
    have h1 : (n : ℚ) ≤ 300000 := by exact_mod_cast hn
    have h2 : (n : ℚ) ^ 2 ≤ 300000 ^ 2 := pow_le_pow_left₀ (by positivity) h1 2
    norm_num at h2 ⊢
    linarith
  · show (1 : ℚ) / 2 ^ 1075 ≤ 1 / 10 ^ 18
    apply one_div_le_one_div_of_le (by positivity)
    calc (10 : ℚ) ^ 18 ≤ 2 ^ 60 := by norm_num
      _ ≤ 2 ^ 1075 := pow_le_pow_right₀ (by norm_num) (by norm_num)

theorem binary64_loads {loads : List (ChemistryLoad (Fl binary64))}
    (hnn : ∀ l ∈ loads, 0 ≤ l.value.val) (hn : loads.length ≤ 300000)
    (hen : (loads.length : ℚ) / 10 ^ 10 ≤ exactMean loads) : FloatLoads binary64 loads :=
  ⟨hnn, (binary64_fits hn).1, (binary64_fits hn).2.1, (binary64_fits hn).2.2, hen⟩

/-- C95 for doubles and at most 300000 ranks. -/
theorem C95_full_plan_levels_in_doubles
    {sort : List (ChemistryLoad (Fl binary64)) → List (ChemistryLoad (Fl binary64))}
    (hsort : Sorts sort) (loads : List (ChemistryLoad (Fl binary64)))
    (hnd : (loads.map (·.rank)).Nodup) (hnn : ∀ l ∈ loads, 0 ≤ l.value.val)
    (hn : loads.length ≤ 300000) (hen : (loads.length : ℚ) / 10 ^ 10 ≤ exactMean loads) :
    ∀ l ∈ loads, ∃ st, runPlan sort loads.length loads l.rank = .ok st ∧
      |planned (exactOps st.operations) l.rank l.value.val - exactMean loads| ≤
        30 * ((loads.length : ℚ) ^ 2 / 2 ^ 53) * exactMean loads +
          4 * (loads.length : ℚ) / 10 ^ 15 := by
  intro l hl
  obtain ⟨st, h1, h2⟩ := C95_full_plan_levels_with_rounding hsort loads
    (binary64_loads hnn hn hen) hnd l hl
  refine ⟨st, h1, ?_⟩
  have hu : binary64.u = 1 / 2 ^ 53 := rfl
  rw [hu, mul_one_div] at h2
  exact h2

/-- C99 for doubles: the assertion holds for up to 300000 ranks and a total load of up to
twenty million seconds. -/
theorem C99_vanishing_load_assertion_in_doubles
    {sort : List (ChemistryLoad (Fl binary64)) → List (ChemistryLoad (Fl binary64))}
    (hsort : Sorts sort) (loads : List (ChemistryLoad (Fl binary64))) (hne : loads ≠ [])
    (hnn : ∀ l ∈ loads, 0 ≤ l.value.val) (hn : loads.length ≤ 300000)
    (hen : (loads.length : ℚ) / 10 ^ 10 ≤ exactMean loads)
    (htot : (loads.map (fun l => l.value.val)).sum ≤ 2 * 10 ^ 7) (me : Nat) :
    ∃ st, runPlan sort loads.length loads me = .ok st ∧
      absS (getMean st.loads - getMean loads) < Fl.of binary64 (1 / 10 ^ 7) := by
  obtain ⟨st, h1, -, h2⟩ := C99_vanishing_load_assertion_with_rounding hsort loads hne
    (binary64_loads hnn hn hen) me
  refine ⟨st, h1, h2 ?_⟩
  have hu : binary64.u = 1 / 2 ^ 53 := rfl
  rw [hu]
  norm_num at htot ⊢
  linarith

/-! ### Examples -/

namespace Example

/-- Sorting of loads in doubles. -/
def sort64 (l : List (ChemistryLoad (Fl binary64))) : List (ChemistryLoad (Fl binary64)) :=
  l.insertionSort (fun a b => a.value ≤ b.value)

theorem sorts64 : Sorts sort64 :=
  ⟨fun l => List.perm_insertionSort _ l, fun l => by
    have : Std.Total (fun a b : ChemistryLoad (Fl binary64) => a.value ≤ b.value) :=
      ⟨fun a b => le_total a.value.val b.value.val⟩
    have : IsTrans (ChemistryLoad (Fl binary64)) (fun a b => a.value ≤ b.value) :=
      ⟨fun a b c (h1 : a.value.val ≤ b.value.val) (h2 : b.value.val ≤ c.value.val) => h1.trans h2⟩
    exact List.pairwise_insertionSort (fun a b : ChemistryLoad (Fl binary64) => a.value ≤ b.value) l⟩

/-- The doubles nearest to 0.1, 0.7 and 0.4. -/
def three64 : List (ChemistryLoad (Fl binary64)) :=
  [⟨0, Fl.of binary64 (1 / 10)⟩, ⟨1, Fl.of binary64 (7 / 10)⟩, ⟨2, Fl.of binary64 (4 / 10)⟩]

end Example

/-- C95, C96, C99: three loads whose mean is not a double; the assumptions hold. -/
example : FloatLoads binary64 Example.three64 ∧ (Example.three64.map (·.rank)).Nodup :=
  ⟨binary64_loads (by decide +kernel) (by decide +kernel) (by decide +kernel), by decide +kernel⟩

/-- The computed mean of the three loads is not their exact mean; because of the rounding there is
a second operation, of one unit in the last place of the mean, which is dropped as too small. -/
example : (getMean Example.three64).val ≠ exactMean Example.three64 ∧
    (runPlan Example.sort64 3 Example.three64 0).toOption.map (fun st =>
      st.operations.map (fun o => (o.src, o.dst, o.value.val))) =
      some [(1, 0, 2702159776422297 / 2 ^ 53), (2, 0, 1 / 2 ^ 54)] ∧
    (getOperations Example.sort64 3 Example.three64 0).toOption.map
      (·.map (fun o => (o.src, o.dst, o.value.val))) =
      some [(1, 0, 2702159776422297 / 2 ^ 53)] := by decide +kernel

/-- C97: two ranks, the first with the times 0.1, 0.2, 0.3, 0.4, the second without problems; the
assumptions hold, and rank 1 gets the first two problems. -/
def Example.problems64 (r : Fin 2) : List (ChemistryProblem (Fl binary64)) :=
  if r = 0 then [1, 2, 3, 4].map (fun (k : ℚ) =>
    ⟨[], 0, 0, 0, 0, 0, Fl.of binary64 (k / 10), 0⟩) else []

example : (∀ r, ∀ p ∈ Example.problems64 r, 0 ≤ p.cpuTime.val) ∧
    (∀ r, (Example.problems64 r).length ≤ 4) ∧ 10 ^ 5 * (((4 : Nat) : ℚ) * binary64.u) ≤ 1 ∧
    2 * ((2 : Nat) : ℚ) / 10 ^ 10 ≤ (∑ s, realWork (Example.problems64 s)) / ((2 : Nat) : ℚ) := by
  decide +kernel

example : (splitProblems true Example.sort64 Example.problems64).toOption.map
    (fun x => [0, 1].map (fun r => ((x.2 r).own.length, (x.2 r).guests.map List.length))) =
    some [(2, []), (0, [2])] := by decide +kernel

/-- C98: five equal loads, and five zero loads. -/
example : (getOperations Example.sort64 5
      ((List.range 5).map (fun r => ⟨r, Fl.of binary64 (1 / 10)⟩)) 1).toOption.map List.length = some 0 ∧
    (getOperations Example.sort64 5
      ((List.range 5).map (fun r => ⟨r, (0 : Fl binary64)⟩)) 1).toOption.map List.length = some 0 := by
  decide +kernel

end DLB
