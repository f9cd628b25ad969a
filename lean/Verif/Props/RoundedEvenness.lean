import Verif.Props.RoundedImbalance
import Verif.Props.Evenness

/-!
How even the work is after balancing, in floating-point arithmetic (C114).
-/

set_option autoImplicit false
set_option linter.unusedSectionVars false

namespace DLB

open Finset

variable {K : Type} [Field K] [LinearOrder K] [IsStrictOrderedRing K] {F : FloatFormat K}

/-- If problems are left, the block is filled up to the next problem and rounding. -/
theorem fl_block_full {M : Nat} (hM : 10 ^ 5 * ((M : K) * F.u) ≤ 1) {g : K} (t : Fl F) (ht : 0 ≤ t.val)
    (ps : List (ChemistryProblem (Fl F))) (hnn : ∀ p ∈ ps, 0 ≤ p.cpuTime.val) (hg : ∀ p ∈ ps, p.cpuTime.val ≤ g) (hl : ps.length ≤ M)
    (hd : ps.drop (fitCount t ps) ≠ []) :
    t.val - g - 4 * ((M : K) * F.u) * t.val ≤ realWork (ps.take (fitCount t ps)) := by
  have hMu : 0 ≤ (M : K) * F.u := mul_nonneg (Nat.cast_nonneg _) F.u_nonneg
  match hd' : ps.drop (fitCount t ps) with
  | [] => exact absurd hd' hd
  | p :: tl =>
    have hp : p ∈ ps := by
      have : p ∈ ps.drop (fitCount t ps) := by rw [hd']; simp
      exact List.mem_of_mem_drop this
    have h1 := (countWhile_time t ps 0).2 p tl hd'
    rw [Fl.le_iff, not_le] at h1
    have h0 : ∀ q ∈ ps.take (fitCount t ps) ++ [p], 0 ≤ q.cpuTime.val := by
      intro q hq
      rcases List.mem_append.1 hq with h | h
      · exact hnn q (List.mem_of_mem_take h)
      · rw [List.mem_singleton.1 h]; exact hnn p hp
    have hlen : (ps.take (fitCount t ps) ++ [p]).length ≤ M := by
      have : (ps.take (fitCount t ps)).length + (ps.drop (fitCount t ps)).length = ps.length := by
        rw [← List.length_append, List.take_append_drop]
      rw [hd', List.length_cons] at this
      rw [List.length_append, List.length_singleton]
      omega
    have h2 := (abs_le.1 (realWork_near h0 hlen hM)).2
    have h3 := realWork_nonneg h0
    have h1' : t.val < ((ps.take (fitCount t ps) ++ [p]).foldl (fun (sum : Fl F) p => sum + p.cpuTime) 0).val := h1
    rw [realWork_append] at h2 h3
    have e : realWork [p] = p.cpuTime.val := by simp [realWork]
    rw [e] at h2 h3
    have h4 := hg p hp
    norm_num at hM
    generalize realWork (ps.take (fitCount t ps)) = b at *
    -- `t < (1 + d) (b + p)` with `d = 2 M u`
    by_contra hc
    rw [not_le] at hc
    have h5 : b + p.cpuTime.val < t.val - 4 * ((M : K) * F.u) * t.val := by linarith
    have h6 : 2 * ((M : K) * F.u) * (b + p.cpuTime.val) ≤ 2 * ((M : K) * F.u) * t.val := by
      refine mul_le_mul_of_nonneg_left ?_ (by linarith)
      nlinarith [mul_nonneg hMu ht]
    nlinarith [mul_nonneg hMu ht]

theorem fl_blocks_ge {M : Nat} (hM : 10 ^ 5 * ((M : K) * F.u) ≤ 1) {g : K} (hg0 : 0 ≤ g) :
    ∀ (ts : List (Fl F)), (∀ t ∈ ts, 0 ≤ t.val) → ∀ (ps : List (ChemistryProblem (Fl F)))
    (_ : ∀ p ∈ ps, 0 ≤ p.cpuTime.val ∧ p.cpuTime.val ≤ g) (_ : ps.length ≤ M) (ε : K) (_ : 0 ≤ ε)
    (_ : (ts.map (·.val)).sum ≤ realWork ps + ε),
    (∀ (i : Nat) (hi : i < (blocks ts ps).length) (hi' : i < ts.length),
      (ts[i]).val - g - ε - 4 * ((M : K) * F.u) * (ts.map (·.val)).sum ≤ realWork ((blocks ts ps)[i])) ∧
    (ts.map (·.val)).sum - (ts.length : K) * g - ε - 8 * ((M : K) * F.u) * (ts.map (·.val)).sum ≤
      ((blocks ts ps).map realWork).sum
  | [], _, ps, _, _, ε, hε, _ => by
    refine ⟨fun i hi hi' => by simp at hi', ?_⟩
    simpa [blocks] using hε
  | t :: ts, ht, ps, hp, hl, ε, hε, hs => by
    have hMu : 0 ≤ (M : K) * F.u := mul_nonneg (Nat.cast_nonneg _) F.u_nonneg
    have ht0 := ht t (by simp)
    have hts : 0 ≤ (ts.map (·.val)).sum := by
      refine List.sum_nonneg fun x hx => ?_
      obtain ⟨t', h, rfl⟩ := List.mem_map.1 hx
      exact ht t' (by simp [h])
    have hdt := mul_nonneg hMu ht0
    have hdts := mul_nonneg hMu hts
    have e : realWork ps = realWork (ps.take (fitCount t ps)) + realWork (ps.drop (fitCount t ps)) := by
      rw [← realWork_append, List.take_append_drop]
    have hle := fl_block_le hM t ht0 ps (fun p h => (hp p h).1) hl
    rw [List.map_cons, List.sum_cons] at hs
    have hdrop : ∀ p ∈ ps.drop (fitCount t ps), 0 ≤ p.cpuTime.val ∧ p.cpuTime.val ≤ g := fun p h => hp p (List.mem_of_mem_drop h)
    have ih := fl_blocks_ge hM hg0 ts (fun t h => ht t (by simp [h])) _ hdrop (by rw [List.length_drop]; omega)
      (ε + 4 * ((M : K) * F.u) * t.val) (by linarith) (by linarith)
    have hhead : t.val - g - ε - 4 * ((M : K) * F.u) * t.val ≤ realWork (ps.take (fitCount t ps)) := by
      by_cases hd : ps.drop (fitCount t ps) = []
      · rw [hd] at e
        simp only [realWork, List.map_nil, List.sum_nil, add_zero] at e hs ⊢
        linarith
      · have := fl_block_full hM t ht0 ps (fun p h => (hp p h).1) (fun p h => (hp p h).2) hl hd
        linarith
    refine ⟨fun i hi hi' => ?_, ?_⟩
    · rw [List.map_cons, List.sum_cons, mul_add]
      cases i with
      | zero =>
        show t.val - g - ε - _ ≤ realWork (ps.take (fitCount t ps))
        linarith
      | succ i =>
        have := ih.1 i (by simpa [blocks] using hi) (by simpa using hi')
        show (ts[i]'(by simpa using hi')).val - g - ε - _ ≤ realWork ((blocks ts (ps.drop (fitCount t ps)))[i]'(by simpa [blocks] using hi))
        linarith
    · rw [List.map_cons, List.sum_cons, mul_add]
      show _ ≤ (realWork (ps.take (fitCount t ps)) :: (blocks ts (ps.drop (fitCount t ps))).map realWork).sum
      rw [List.sum_cons, List.length_cons, Nat.cast_add, Nat.cast_one, add_mul, one_mul]
      by_cases hd : ps.drop (fitCount t ps) = []
      · have h0 : 0 ≤ ((blocks ts (ps.drop (fitCount t ps))).map realWork).sum := by
          rw [← realWork_flatten]
          refine realWork_nonneg fun p h => (hdrop p ?_).1
          rw [← blocks_flatten ts (ps.drop (fitCount t ps))]
          exact List.mem_append_left _ h
        rw [hd] at e
        have : realWork ([] : List (ChemistryProblem (Fl F))) = 0 := by simp [realWork]
        rw [this] at e
        have : 0 ≤ (ts.length : K) * g := mul_nonneg (Nat.cast_nonneg _) hg0
        linarith
      · have := fl_block_full hM t ht0 ps (fun p h => (hp p h).1) (fun p h => (hp p h).2) hl hd
        linarith [ih.2]

theorem sum_ge_of_forall' {α : Type} (f h e : α → K) : ∀ (l : List α), (∀ x ∈ l, f x - e x ≤ h x) →
    (l.map f).sum - (l.map e).sum ≤ (l.map h).sum
  | [], _ => by simp
  | x :: l, hl => by
    have ih := sum_ge_of_forall' f h e l fun y hy => hl y (by simp [hy])
    have := hl x (by simp)
    simp only [List.map_cons, List.sum_cons]
    linarith

/-- A sum over different ranks is at most the sum over all ranks. -/
theorem sum_le_sum_ranks {n : Nat} (e : Fin n → K) (he : ∀ s, 0 ≤ e s) (l : List Nat) (hl : l.Nodup) (hn : ∀ s ∈ l, s < n) :
    (l.map fun s => if h : s < n then e ⟨s, h⟩ else 0).sum ≤ ∑ s, e s := by
  have h1 : (l.map fun s => if h : s < n then e ⟨s, h⟩ else 0).sum = ∑ s ∈ l.toFinset, if h : s < n then e ⟨s, h⟩ else 0 := by
    rw [List.sum_toFinset _ hl]
  have h2 : ∑ s, e s = ∑ s ∈ Finset.range n, if h : s < n then e ⟨s, h⟩ else 0 := by
    rw [Finset.sum_range]
    exact Finset.sum_congr rfl fun s _ => by simp
  rw [h1, h2]
  refine Finset.sum_le_sum_of_subset_of_nonneg ?_ ?_
  · intro s hs
    exact Finset.mem_range.2 (hn s (by simpa using hs))
  · intro s _ _
    split
    · exact he _
    · exact le_rfl

/-- The arithmetic behind C114: `w`, `L` are the exact and the computed load of the rank, `a`, `μ` the exact mean of the exact and of the
computed loads, `S`, `R` the agreed and `B`, `G` the real transfers, `σ` the slack of all senders, `T` the sum of all agreed transfers. -/
theorem evenness_arith {w L a μ S R B G rest d q η N W X T σ σr g : K} {D k₁ k₂ n₁ : Nat} (hd : 0 ≤ d) (hd' : 10 ^ 5 * d ≤ 1) (hq : 0 ≤ q)
    (hq' : 10 ^ 5 * q ≤ 1) (hη : 0 ≤ η) (hη' : η ≤ 1 / 10 ^ 18) (hN : 1 ≤ N) (hW : W = N * a) (ha : 0 ≤ a) (hwW : w ≤ W)
    (hμ0 : 0 ≤ μ) (hg : 0 ≤ g) (hX : X = 15 * q * μ + η)
    (hplan : |L - S + R - μ| ≤ (D : K) * (101 / 10000 * μ) + (30 * q * μ + 4 * N / 10 ^ 15))
    (hL : |L - w| ≤ 2 * d * w) (hμ : |μ - a| ≤ 2 * d * a) (hsplit : B + rest = w)
    (hB : S - (k₁ : K) * g - σr ≤ B) (hB' : B ≤ (1 + 4 * d) * S) (hG : R - (k₂ : K) * g - σ ≤ G) (hG' : G ≤ (1 + 4 * d) * R)
    (hS : S ≤ w + (2 * d * w + X)) (hR : R ≤ μ + X) (hσ : σ = 2 * d * W + N * X + 8 * d * T) (hσr : σr ≤ σ)
    (hT : T ≤ W + (2 * d * W + N * X)) (hcnt : D + (k₁ + k₂) ≤ n₁) :
    |rest + G - a| ≤ (n₁ : K) * max (102 / 10000 * a) g + 50 * (d + q) * W + 5 * N / 10 ^ 15 := by
  have hN0 : 0 ≤ N := by linarith
  have hW0 : 0 ≤ W := by rw [hW]; exact mul_nonneg hN0 ha
  have haW : a ≤ W := by rw [hW]; exact le_mul_of_one_le_left ha hN
  norm_num at hd' hq' hη'
  have hd1 : d ≤ 1 / 100000 := by linarith
  have hq1 : q ≤ 1 / 100000 := by linarith
  obtain ⟨m1, m2⟩ := abs_le.1 hμ
  obtain ⟨l1, l2⟩ := abs_le.1 hL
  obtain ⟨p1, p2⟩ := abs_le.1 hplan
  have hda : d * a ≤ 1 / 100000 * a := mul_le_mul_of_nonneg_right hd1 ha
  have hμa : μ ≤ 10001 / 10000 * a := by linarith
  have hdW0 : 0 ≤ d * W := mul_nonneg hd hW0
  have hqW0 : 0 ≤ q * W := mul_nonneg hq hW0
  have hdw : d * w ≤ d * W := mul_le_mul_of_nonneg_left hwW hd
  have hdaW : d * a ≤ d * W := mul_le_mul_of_nonneg_left haW hd
  have hqμ : q * μ ≤ 10001 / 10000 * (q * W) := by
    have := mul_le_mul_of_nonneg_left (hμa.trans (mul_le_mul_of_nonneg_left haW (by norm_num))) hq
    linarith
  -- `N X`
  have hNμ : N * μ ≤ 10001 / 10000 * W := by
    have := mul_le_mul_of_nonneg_left hμa hN0
    rw [hW]
    linarith
  have hNX : N * X ≤ 15002 / 1000 * (q * W) + N * η := by
    have h1 : q * (N * μ) ≤ q * (10001 / 10000 * W) := mul_le_mul_of_nonneg_left hNμ hq
    have e : N * X = 15 * (q * (N * μ)) + N * η := by rw [hX]; ring
    rw [e]
    linarith
  have hNη0 : 0 ≤ N * η := mul_nonneg hN0 hη
  have hNη : N * η ≤ N * (1 / 1000000000000000000) := mul_le_mul_of_nonneg_left hη' hN0
  have hX0 : 0 ≤ X := by rw [hX]; have := mul_nonneg hq hμ0; linarith
  have hNX0 : 0 ≤ N * X := mul_nonneg hN0 hX0
  have hXN : X ≤ N * X := le_mul_of_one_le_left hX0 hN
  have hdNX : d * (N * X) ≤ 1 / 100000 * (N * X) := mul_le_mul_of_nonneg_right hd1 hNX0
  have hddW : d * (d * W) ≤ 1 / 100000 * (d * W) := mul_le_mul_of_nonneg_right hd1 hdW0
  have hdT : d * T ≤ d * W + (2 * (d * (d * W)) + d * (N * X)) := by
    have := mul_le_mul_of_nonneg_left hT hd
    linarith
  have hσ' : σ ≤ 101 / 10 * (d * W) + 151 / 10 * (q * W) + 101 / 100 * (N * η) := by
    rw [hσ]
    linarith
  -- errors of the transfers
  have hdX : d * X ≤ 1 / 100000 * X := mul_le_mul_of_nonneg_right hd1 hX0
  have hdS : d * S ≤ 1001 / 1000 * (d * W) + 1 / 1000 * (q * W) + 1 / 1000 * (N * η) := by
    have h1 := mul_le_mul_of_nonneg_left hS hd
    have h2 : d * (d * w) ≤ d * (d * W) := mul_le_mul_of_nonneg_left hdw hd
    linarith
  have hdR : d * R ≤ 1001 / 1000 * (d * W) + 1 / 1000 * (q * W) + 1 / 1000 * (N * η) := by
    have h1 := mul_le_mul_of_nonneg_left hR hd
    have h2 : d * μ ≤ 10001 / 10000 * (d * W) := by
      have := mul_le_mul_of_nonneg_left (hμa.trans (mul_le_mul_of_nonneg_left haW (by norm_num))) hd
      linarith
    linarith
  -- the counted terms
  have hc : (D : K) * (101 / 10000 * μ) + (k₁ : K) * g + (k₂ : K) * g ≤ (n₁ : K) * max (102 / 10000 * a) g := by
    have e : ((D + (k₁ + k₂) : Nat) : K) ≤ (n₁ : K) := by exact_mod_cast hcnt
    have hx : 0 ≤ max (102 / 10000 * a) g := hg.trans (le_max_right _ _)
    have a0 : 101 / 10000 * μ ≤ max (102 / 10000 * a) g := le_trans (by linarith) (le_max_left _ _)
    have a1 := mul_le_mul_of_nonneg_left a0 (Nat.cast_nonneg (α := K) D)
    have a2 := mul_le_mul_of_nonneg_left (le_max_right (102 / 10000 * a) g) (Nat.cast_nonneg (α := K) k₁)
    have a3 := mul_le_mul_of_nonneg_left (le_max_right (102 / 10000 * a) g) (Nat.cast_nonneg (α := K) k₂)
    have a4 := mul_le_mul_of_nonneg_right e hx
    push_cast at a4
    linarith
  have hk1 : 0 ≤ (k₁ : K) * g := mul_nonneg (Nat.cast_nonneg _) hg
  have hk2 : 0 ≤ (k₂ : K) * g := mul_nonneg (Nat.cast_nonneg _) hg
  norm_num at p1 p2 ⊢
  rw [abs_le]
  constructor
  · linarith
  · linarith

/-- C114. With rounding in the sums of the measured times, in the planning and in the cutting of the problem lists: after balancing
the exact work of every rank differs from the exact mean by at most `n - 1` times the larger of 1.02 per cent of the mean and the
longest problem, up to `50 (M + n^2) u` times the work of all ranks and `5 n` times `SMALL`. -/
theorem C114_work_near_the_mean_with_rounding {n M : Nat} (hn : 0 < n)
    {sort : List (ChemistryLoad (Fl F)) → List (ChemistryLoad (Fl F))} (hsort : Sorts sort)
    (problems : Fin n → List (ChemistryProblem (Fl F))) (parRun : Bool)
    (hpar : parRun = true ∨ n = 1) (g : K) (hg : 0 ≤ g) (hp : ∀ r, ∀ p ∈ problems r, 0 ≤ p.cpuTime.val ∧ p.cpuTime.val ≤ g)
    (hlen : ∀ r, (problems r).length ≤ M) (hM : 10 ^ 5 * ((M : K) * F.u) ≤ 1)
    (hcount : F.rnd (n : K) = n) (hfine : 10 ^ 5 * ((n : K) ^ 2 * F.u) ≤ 1)
    (htiny : F.eta ≤ 1 / 10 ^ 18)
    (henough : 2 * (n : K) / 10 ^ 10 ≤ (∑ s, realWork (problems s)) / n) :
    ∃ st split, splitProblems parRun sort problems = .ok (st, split) ∧ ∀ r,
      |realWork ((split r).own ++ (split r).guests.flatten) - (∑ s, realWork (problems s)) / n| ≤
        ((n - 1 : Nat) : K) * max (102 / 10000 * ((∑ s, realWork (problems s)) / n)) g +
          50 * (((M : K) + (n : K) ^ 2) * F.u) * (∑ s, realWork (problems s)) + 5 * (n : K) / 10 ^ 15 := by
  obtain ⟨plan, hok, hbig, hops, -, hs⟩ := splitProblems_plan hn sort hsort.perm problems parRun hpar
  refine ⟨_, _, hs, fun r => ?_⟩
  simp only
  have hnn : ∀ r, ∀ p ∈ problems r, 0 ≤ p.cpuTime.val := fun r p h => (hp r p h).1
  have hMu : 0 ≤ (M : K) * F.u := mul_nonneg (Nat.cast_nonneg _) F.u_nonneg
  have hl := gatherLoads_length problems
  have hr := gatherLoads_ranks problems
  have hnK : (0 : K) < n := by exact_mod_cast hn
  have hval : ∀ r : Fin n, |(computeLoad r.val (problems r)).value.val - realWork (problems r)| ≤
      2 * ((M : K) * F.u) * realWork (problems r) :=
    fun r => realWork_near (hnn r) (hlen r) hM
  have hw0 : ∀ r, 0 ≤ realWork (problems r) := fun r => realWork_nonneg (hnn r)
  have hsum : exactMean (gatherLoads problems) =
      (∑ s : Fin n, (computeLoad s.val (problems s)).value.val) / n := by
    rw [exactMean_eq, hl]
    unfold gatherLoads
    rw [List.map_ofFn, List.sum_ofFn]
    rfl
  have ha0 : 0 ≤ (∑ s, realWork (problems s)) / (n : K) :=
    div_nonneg (Finset.sum_nonneg (fun s _ => hw0 s)) hnK.le
  have hμ : |exactMean (gatherLoads problems) - (∑ s, realWork (problems s)) / n| ≤
      2 * ((M : K) * F.u) * ((∑ s, realWork (problems s)) / n) := by
    rw [hsum, ← sub_div, abs_div, abs_of_pos hnK, ← mul_div_assoc]
    apply div_le_div_of_nonneg_right _ hnK.le
    rw [← Finset.sum_sub_distrib, Finset.mul_sum]
    exact (Finset.abs_sum_le_sum_abs _ _).trans (Finset.sum_le_sum (fun s _ => hval s))
  have hloads : ∀ l ∈ gatherLoads problems, 0 ≤ l.value.val := by
    intro l hl
    obtain ⟨r, rfl⟩ := (List.mem_ofFn' _ _).1 hl
    have h1 := (abs_le.1 (hval r)).1
    have h2 : 2 * ((M : K) * F.u) * realWork (problems r) ≤ 1 * realWork (problems r) :=
      mul_le_mul_of_nonneg_right (by norm_num at hM; linarith) (hw0 r)
    linarith
  have hFL : FloatLoads F (gatherLoads problems) := by
    refine ⟨hloads, by rw [hl]; exact hcount, by rw [hl]; exact hfine, htiny, ?_⟩
    rw [hl]
    have h1 := (abs_le.1 hμ).1
    have h2 : 2 * ((M : K) * F.u) * ((∑ s, realWork (problems s)) / n) ≤
        1 / 2 * ((∑ s, realWork (problems s)) / n) :=
      mul_le_mul_of_nonneg_right (by norm_num at hM; linarith) ha0
    norm_num at henough ⊢
    linarith
  have hne : gatherLoads problems ≠ [] := by
    intro h; rw [h] at hl; simp at hl; omega
  have hpos : ∀ op ∈ plan, 0 ≤ op.value.val := by
    intro op hop
    have h1 : ((Consts.filterFrac : Fl F) * getMean (gatherLoads problems)).val < op.value.val :=
      hbig op hop
    have h2 := hFL.filter_ge hne
    obtain ⟨-, hmu, -⟩ := hFL.basics hne
    have : 0 ≤ 9 / 1000 * exactMean (gatherLoads problems) := mul_nonneg (by norm_num) hmu.le
    linarith
  have hopsOf : ∀ r : Fin n, ∀ ops, getOperations sort (gatherLoads problems).length (gatherLoads problems)
      (computeLoad r.val (problems r)).rank = .ok ops → ops = plan.filter (involves r.val) := by
    intro r ops ho
    rw [hl] at ho
    have h2 := hops r.val n (by omega)
    have : (computeLoad r.val (problems r)).rank = r.val := rfl
    rw [this, h2] at ho
    exact (Except.ok.inj ho).symm
  have hmem : ∀ r : Fin n, computeLoad r.val (problems r) ∈ gatherLoads problems := fun r => (List.mem_ofFn' _ _).2 ⟨r, rfl⟩
  have hsendEq : ∀ r : Fin n, sentBy (exactOps (plan.filter (involves r.val))) r.val =
      ((sends plan r.val).map (fun o => o.value.val)).sum := by
    intro r
    unfold sentBy sends exactOps
    rw [List.filter_map, List.map_map, List.filter_filter]
    congr 2
    apply List.filter_congr
    intro op _
    by_cases h : op.src = r.val <;> simp [involves, h]
  have hrecvEq : ∀ r : Fin n, receivedBy (exactOps (plan.filter (involves r.val))) r.val =
      ((recvs plan r.val).map (fun o => o.value.val)).sum := by
    intro r
    unfold receivedBy recvs exactOps
    rw [List.filter_map, List.map_map, List.filter_filter]
    congr 2
    apply List.filter_congr
    intro op _
    by_cases h : op.dst = r.val <;> simp [involves, h]
  obtain ⟨-, hmu0, -⟩ := hFL.basics hne
  set μ := exactMean (gatherLoads problems) with hμdef
  set X := 15 * ((n : K) ^ 2 * F.u) * μ + F.eta with hX
  have hn2 : 0 ≤ (n : K) ^ 2 * F.u := mul_nonneg (sq_nonneg _) F.u_nonneg
  have hX0 : 0 ≤ X := by
    have := mul_nonneg hn2 hmu0.le
    have := F.eta_nonneg
    rw [hX]
    linarith
  -- what the ranks send and receive
  have hamounts : ∀ r : Fin n, ((sends plan r.val).map (fun o => o.value.val)).sum ≤
      realWork (problems r) + (2 * ((M : K) * F.u) * realWork (problems r) + X) ∧
      ((recvs plan r.val).map (fun o => o.value.val)).sum ≤ μ + X := by
    intro r
    obtain ⟨ops, ho, -, hsent, -, hrecv⟩ := C96_kept_amounts_with_rounding hsort (gatherLoads problems) hFL
      (by rw [hr]; exact List.nodup_range) _ (hmem r)
    have := hopsOf r ops ho
    subst this
    rw [show (computeLoad r.val (problems r)).rank = r.val from rfl, hsendEq, hl] at hsent
    rw [show (computeLoad r.val (problems r)).rank = r.val from rfl, hrecvEq, hl] at hrecv
    have h1 := (abs_le.1 (hval r)).2
    have h2 := hloads _ (hmem r)
    constructor
    · refine hsent.trans ?_
      have : max ((computeLoad r.val (problems r)).value.val - exactMean (gatherLoads problems)) 0 ≤
          (computeLoad r.val (problems r)).value.val := max_le (by linarith) h2
      linarith
    · refine hrecv.trans ?_
      have : max (exactMean (gatherLoads problems) - (computeLoad r.val (problems r)).value.val) 0 ≤ μ :=
        max_le (by linarith) hmu0.le
      linarith
  -- the slack of a sender
  let slack : Fin n → K := fun s => (2 * ((M : K) * F.u) * realWork (problems s) + X) +
    8 * ((M : K) * F.u) * ((sends plan s.val).map (fun o => o.value.val)).sum
  have hS0 : ∀ s : Fin n, 0 ≤ ((sends plan s.val).map (fun o => o.value.val)).sum := by
    intro s
    refine List.sum_nonneg fun x hx => ?_
    obtain ⟨o, ho, rfl⟩ := List.mem_map.1 hx
    exact hpos o (List.mem_of_mem_filter ho)
  have hslack0 : ∀ s, 0 ≤ slack s := by
    intro s
    have h1 := mul_nonneg hMu (hw0 s)
    have h2 := mul_nonneg hMu (hS0 s)
    simp only [slack]
    linarith
  have hv : ∀ s : Fin n, ∀ t ∈ (sends plan s.val).map Operation.value, 0 ≤ t.val := by
    intro s t ht
    obtain ⟨o, ho, rfl⟩ := List.mem_map.1 ht
    exact hpos o (List.mem_of_mem_filter ho)
  have hgeAll : ∀ s : Fin n, _ := fun s => fl_blocks_ge hM hg ((sends plan s.val).map Operation.value) (hv s) (problems s) (hp s)
    (hlen s) (2 * ((M : K) * F.u) * realWork (problems s) + X) (by have := mul_nonneg hMu (hw0 s); linarith)
    (by rw [List.map_map]; exact (hamounts s).1)
  -- the size of a block
  have hblock : ∀ (s : Fin n) (op : Operation (Fl F)) (hop : op ∈ sends plan s.val),
      op.value.val - (g + slack s) ≤ realWork ((blocksOf plan s.val (problems s)).getD (((sends plan s.val).map (·.dst)).idxOf op.dst) []) ∧
      realWork ((blocksOf plan s.val (problems s)).getD (((sends plan s.val).map (·.dst)).idxOf op.dst) []) ≤
        (1 + 4 * ((M : K) * F.u)) * op.value.val := by
    intro s op hop
    obtain ⟨j, hj, hje⟩ := List.mem_iff_getElem.1 hop
    have hidx : ((sends plan s.val).map (·.dst)).idxOf op.dst = j := by
      have := (hok.dst_nodup s.val).idxOf_getElem j (by simpa using hj)
      rw [List.getElem_map, hje] at this
      exact this
    rw [hidx]
    have hj' : j < (blocksOf plan s.val (problems s)).length := by
      rw [blocksOf_length]; exact hj
    rw [List.getD_eq_getElem?_getD, List.getElem?_eq_getElem hj', Option.getD_some]
    have hb := fl_blocks_le hM ((sends plan s.val).map Operation.value) (hv s) (problems s) (hnn s) (hlen s) j hj' (by simpa using hj)
    have hb' := (hgeAll s).1 j hj' (by simpa using hj)
    rw [List.getElem_map, hje] at hb hb'
    refine ⟨?_, hb⟩
    rw [List.map_map] at hb'
    have h2 := mul_nonneg hMu (hS0 s)
    refine le_trans ?_ hb'
    simp only [slack, Function.comp_def]
    linarith
  -- own problems
  have hsplit := congrArg realWork (blocksOf_flatten plan r.val (problems r))
  rw [realWork_append, realWork_flatten] at hsplit
  have hownB : ((sends plan r.val).map (fun o => o.value.val)).sum - ((sends plan r.val).length : K) * g - slack r ≤
      ((blocksOf plan r.val (problems r)).map realWork).sum ∧
      ((blocksOf plan r.val (problems r)).map realWork).sum ≤
        (1 + 4 * ((M : K) * F.u)) * ((sends plan r.val).map (fun o => o.value.val)).sum := by
    constructor
    · have := (hgeAll r).2
      rw [List.map_map, List.length_map] at this
      refine le_trans ?_ this
      simp only [slack, Function.comp_def]
      linarith
    · have e : (blocksOf plan r.val (problems r)).map realWork = (sends plan r.val).map fun op =>
          realWork ((blocksOf plan r.val (problems r)).getD (((sends plan r.val).map (·.dst)).idxOf op.dst) []) := by
        apply List.ext_getElem
        · simp [blocksOf_length]
        · intro j h1 h2
          simp only [List.getElem_map]
          have hj : j < (sends plan r.val).length := by simpa using h2
          have := (hok.dst_nodup r.val).idxOf_getElem j (by simpa using hj)
          rw [List.getElem_map] at this
          rw [this, List.getD_eq_getElem?_getD, List.getElem?_eq_getElem (by simpa using h1), Option.getD_some]
      rw [e, ← List.sum_map_mul_left]
      exact List.sum_le_sum fun op hop => (hblock r op hop).2
  -- guests
  have hguest : ((recvs plan r.val).map (fun o => o.value.val)).sum - ((recvs plan r.val).length : K) * g - ∑ s, slack s ≤
      realWork (guestsOf plan problems r.val).flatten ∧
      realWork (guestsOf plan problems r.val).flatten ≤
        (1 + 4 * ((M : K) * F.u)) * ((recvs plan r.val).map (fun o => o.value.val)).sum := by
    rw [realWork_flatten]
    unfold guestsOf
    rw [List.map_map, List.map_map]
    have key : ∀ op ∈ recvs plan r.val, op.value.val - (g + if h : op.src < n then slack ⟨op.src, h⟩ else 0) ≤
        ((realWork ∘ fun s => (blocksOf plan s (extend problems s)).getD
        (((sends plan s).map (·.dst)).idxOf r.val) []) ∘ fun x => x.src) op ∧ ((realWork ∘ fun s => (blocksOf plan s
        (extend problems s)).getD (((sends plan s).map (·.dst)).idxOf r.val) []) ∘ fun x => x.src) op ≤
          (1 + 4 * ((M : K) * F.u)) * op.value.val := by
      intro op hop
      have hm := List.mem_filter.1 hop
      have hdst : op.dst = r.val := by simpa using hm.2
      have hsrc : op.src < n := by
        have := hok.src_mem op hm.1
        simpa using this
      have := hblock ⟨op.src, hsrc⟩ op (List.mem_filter.2 ⟨hm.1, by simp⟩)
      simp only [Function.comp, dif_pos hsrc]
      have hex : extend problems op.src = problems ⟨op.src, hsrc⟩ := by simp [extend, hsrc]
      rw [hex, ← hdst]
      exact this
    constructor
    · have h1 := sum_ge_of_forall' (fun o : Operation (Fl F) => o.value.val) _ _ _ fun op hop => (key op hop).1
      refine le_trans ?_ h1
      have h2 := sum_le_sum_ranks slack hslack0 ((recvs plan r.val).map (·.src)) (hok.src_nodup r.val) (by
        intro s hs
        obtain ⟨o, ho, rfl⟩ := List.mem_map.1 hs
        simpa using hok.src_mem o (List.mem_of_mem_filter ho))
      rw [List.map_map] at h2
      rw [List.sum_map_add, List.map_const', List.sum_replicate, nsmul_eq_mul]
      simp only [Function.comp_def] at h2
      linarith
    · rw [← List.sum_map_mul_left]
      exact List.sum_le_sum fun op hop => (key op hop).2
  obtain ⟨st, ops, -, ho, hplanned, hcnt⟩ := C105_remaining_imbalance_with_rounding hsort (gatherLoads problems) hFL
    (by rw [hr]; exact List.nodup_range) _ (hmem r)
  have := hopsOf r ops ho
  subst this
  unfold planned at hplanned
  rw [show (computeLoad r.val (problems r)).rank = r.val from rfl, hsendEq, hrecvEq, hl] at hplanned
  rw [hl] at hcnt
  have hk : (sends plan r.val).length + (recvs plan r.val).length ≤ (plan.filter (involves r.val)).length := by
    rcases involves_cases hok r.val with ⟨h1, h2⟩ | ⟨h1, h2⟩ <;> rw [h1, h2] <;> simp
  have hfinal := evenness_arith (w := realWork (problems r)) (W := ∑ s, realWork (problems s)) (N := (n : K)) (σ := ∑ s, slack s)
    (T := ∑ s : Fin n, ((sends plan s.val).map (fun o => o.value.val)).sum) hMu hM hn2 hfine F.eta_nonneg htiny (by exact_mod_cast hn)
    (by field_simp) ha0 (Finset.single_le_sum (fun s _ => hw0 s) (Finset.mem_univ r)) hmu0.le hg (by rw [hX]) hplanned (hval r) hμ
    hsplit hownB.1 hownB.2 hguest.1 hguest.2 (hamounts r).1 (hamounts r).2
    (by
      simp only [slack]
      rw [Finset.sum_add_distrib, Finset.sum_add_distrib, ← Finset.mul_sum, ← Finset.mul_sum, Finset.sum_const, Finset.card_univ,
        Fintype.card_fin, nsmul_eq_mul])
    (Finset.single_le_sum (fun s _ => hslack0 s) (Finset.mem_univ r))
    (by
      refine (Finset.sum_le_sum fun s _ => (hamounts s).1).trans (le_of_eq ?_)
      rw [Finset.sum_add_distrib, Finset.sum_add_distrib, ← Finset.mul_sum, Finset.sum_const, Finset.card_univ,
        Fintype.card_fin, nsmul_eq_mul])
    (show _ ≤ n - 1 by omega)
  rw [realWork_append, add_mul (M : K)]
  exact hfinal

/-- C114 for doubles, at most 300000 ranks and at most `10 ^ 10` problems on a rank. -/
theorem C114_work_near_the_mean_in_doubles {n M : Nat} (hn : 0 < n) (hn' : n ≤ 300000) (hM : M ≤ 10 ^ 10)
    {sort : List (ChemistryLoad (Fl binary64)) → List (ChemistryLoad (Fl binary64))} (hsort : Sorts sort)
    (problems : Fin n → List (ChemistryProblem (Fl binary64))) (hlen : ∀ r, (problems r).length ≤ M) (g : ℚ) (hg : 0 ≤ g)
    (hp : ∀ r, ∀ p ∈ problems r, 0 ≤ p.cpuTime.val ∧ p.cpuTime.val ≤ g)
    (henough : 2 * (n : ℚ) / 10 ^ 10 ≤ (∑ s, realWork (problems s)) / n) :
    ∃ st split, splitProblems true sort problems = .ok (st, split) ∧ ∀ r,
      |realWork ((split r).own ++ (split r).guests.flatten) - (∑ s, realWork (problems s)) / n| ≤
        ((n - 1 : Nat) : ℚ) * max (102 / 10000 * ((∑ s, realWork (problems s)) / n)) g +
          50 * (((M : ℚ) + (n : ℚ) ^ 2) / 2 ^ 53) * (∑ s, realWork (problems s)) + 5 * (n : ℚ) / 10 ^ 15 := by
  have hu : binary64.u = 1 / 2 ^ 53 := rfl
  obtain ⟨b1, b2, b3⟩ := binary64_fits hn'
  have := C114_work_near_the_mean_with_rounding (M := M) hn hsort problems true (.inl rfl) g hg hp hlen (by
    rw [hu]
    have : (M : ℚ) ≤ 10000000000 := by exact_mod_cast hM
    norm_num only
    linarith) b1 b2 b3 henough
  rw [hu] at this
  simpa only [mul_one_div] using this

/-- The two ranks of the example of C97 meet the assumptions. -/
example : ∃ st split, splitProblems true Example.sort64 Example.problems64 = .ok (st, split) ∧ ∀ r,
    |realWork ((split r).own ++ (split r).guests.flatten) - (∑ s, realWork (Example.problems64 s)) / (2 : Nat)| ≤
      ((2 - 1 : Nat) : ℚ) * max (102 / 10000 * ((∑ s, realWork (Example.problems64 s)) / (2 : Nat))) (1 / 2) +
        50 * ((((4 : Nat) : ℚ) + ((2 : Nat) : ℚ) ^ 2) / 2 ^ 53) * (∑ s, realWork (Example.problems64 s)) + 5 * ((2 : Nat) : ℚ) / 10 ^ 15 :=
  C114_work_near_the_mean_in_doubles (by norm_num) (by norm_num) (by norm_num) Example.sorts64 Example.problems64
    (by decide +kernel) (1 / 2) (by norm_num) (by decide +kernel) (by decide +kernel)

end DLB
