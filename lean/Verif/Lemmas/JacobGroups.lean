import Verif.Lemmas.JacobTempNear
/-
The first entry of the result of `eval_jacob`, when the thermodynamic polynomials of the species change at different temperatures.
-/
set_option autoImplicit false
set_option linter.unusedSectionVars false

namespace DLB

/-- The terms of a sum. -/
def CExpr.terms : CExpr → List CExpr
  | .add a b => a.terms ++ [b]
  | e => [e]

theorem terms_sound (τ : CLoc → ℝ) (e : CExpr) : e.evalT τ = (e.terms.map fun t => t.evalT τ).sum := by
  induction e with
  | add a b iha _ =>
    unfold CExpr.terms
    rw [List.map_append, List.sum_append, ← iha]
    simp [CExpr.evalT]
  | _ => simp [CExpr.terms]

/-- The species of a term. -/
def termSpecies (n : Nat) : CExpr → Nat
  | .mul (.mul (.rd (.arr .y k)) _) _ => k - 1
  | _ => n

/-- The terms belong to the species. -/
def termsOk (n : Nat) (ws : List Nat) (fit : Nat → List SDec) : List Nat → List CExpr → Bool
  | [], [] => true
  | i :: is, t :: ts => Nat.ble i n && workTermOk n ws fit i t && termsOk n ws fit is ts
  | _, _ => false

/-- What the statement adds to `working_temp`; the first one assigns it. -/
def dropWork (first : Bool) (e : CExpr) : Option CExpr := if first then some e else match e with
  | .add (.rd (.var .workTemp)) b => some b
  | _ => none

/-- The numerator of the first entry; `withN`: with a term for the last species. -/
def heatSumOk (n : Nat) (ws : List Nat) (withN : Bool) (s : CExpr) : Bool := if withN then match s with
    | .add s (.mul (.mul (.rd (.var .jN)) (.rd (.arr .h k))) (.rd (.var .rho))) => Nat.beq k n && sumOk (heatOk ws) (2 * n) s
    | _ => false
  else sumOk (heatOk ws) (2 * n) s

/-- The last statements: one for each temperature at which polynomials change, and that for the first entry. `acc`: the species done. -/
def groupsOk (D : Package) (n : Nat) (ws : List Nat) (withN : Bool) (p : List CStmt) (acc : List Nat) : Bool := match p with
  | [.set (.arr .jac 0) (.div (.neg s) (.mul (.rd (.var .rho)) (.rd (.var .cpAvg))))] =>
    Nat.beq acc.length (n + 1) && (List.range (n + 1)).all (fun i => acc.any (Nat.beq i)) && heatSumOk n ws withN s
  | .ite (.rd (.var .T)) (.num m e) (.var .workTemp) lo hi :: p =>
    match dropWork acc.isEmpty lo, dropWork acc.isEmpty hi with
    | some lo, some hi =>
      let is := lo.terms.map (termSpecies n)
      is.all (fun i => decide ((D.fit i).tMid = (m, e))) && !is.isEmpty && termsOk n ws (fun i => (D.fit i).low) is lo.terms &&
        termsOk n ws (fun i => (D.fit i).high) is hi.terms && groupsOk D n ws withN p (is ++ acc)
    | _, _ => false
  | _ => false

/-- A sum over a list with the numbers up to `n`. -/
theorem sum_pairs {n : Nat} {L : List (Nat × ℝ)} (hlen : L.length = n) (hall : ∀ i, i < n → i ∈ L.map Prod.fst) (Y : Nat → ℝ) :
    ∃ s : Nat → ℝ, (∀ i, i < n → (i, s i) ∈ L) ∧ (L.map fun x => Y x.1 * x.2).sum = ∑ i ∈ Finset.range n, Y i * s i := by
  have hsub : (List.range n).Subperm (L.map Prod.fst) := List.nodup_range.subperm fun i hi => hall i (List.mem_range.1 hi)
  have hperm : (List.range n).Perm (L.map Prod.fst) := hsub.perm_of_length_le (by simp [hlen])
  have hnd : (L.map Prod.fst).Nodup := hperm.nodup_iff.1 List.nodup_range
  have hex : ∀ i, i < n → ∃ x, (i, x) ∈ L := by
    intro i hi
    obtain ⟨x, hx, e⟩ := List.mem_map.1 (hall i hi)
    exact ⟨x.2, by rw [← e]; exact hx⟩
  choose! s hs using hex
  refine ⟨s, hs, ?_⟩
  have huniq : ∀ x ∈ L, x.2 = s x.1 := by
    intro x hx
    have hlt : x.1 < n := List.mem_range.1 (hperm.mem_iff.2 (List.mem_map.2 ⟨x, hx, rfl⟩))
    have := List.inj_on_of_nodup_map hnd hx (hs x.1 hlt) rfl
    rw [this]
  have e1 : (L.map fun x => Y x.1 * x.2) = (L.map Prod.fst).map fun i => Y i * s i := by
    rw [List.map_map]
    exact List.map_congr_left fun x hx => by simp [huniq x hx]
  rw [e1, ← (hperm.map _).sum_eq]
  clear hsub hperm hnd hs huniq e1 hall hlen
  induction n with
  | zero => simp
  | succ n ih => rw [List.range_succ, List.map_append, List.sum_append, Finset.sum_range_succ, ih]; simp

section
variable {n : Nat} {ws : List Nat} {W : Nat → ℝ} (hW : ∀ i, i < n + 1 → W i = (ws.getD i 0 : ℝ) / 10 ^ 5) {v : JacobVals ℝ} {Y : Nat → ℝ}
  (hy : ∀ i, i < n → v.y (i + 1) = Y i) (hN : v.yN = Y n) {jac : Nat → ℝ} {τ : CLoc → ℝ} (hτ : ∀ l, l ≠ .var .workTemp → τ l = v.mem jac l)
include hW hy hN hτ

theorem termsOk_sound {fit : Nat → List SDec} (is : List Nat) : ∀ ts, termsOk n ws fit is ts = true →
    ∃ L : List (Nat × ℝ), L.map Prod.fst = is ∧ (∀ x ∈ L, x.1 < n + 1 ∧ |x.2 - gasR / W x.1 * cpSlope (fit x.1) v.T| ≤
        3 / 10 ^ 15 * (gasR / W x.1 * slopeTerms (fit x.1) v.T)) ∧
      (ts.map fun t => t.evalT τ).sum = (L.map fun x => Y x.1 * x.2).sum := by
  induction is with
  | nil =>
    intro ts h
    cases ts with
    | nil => exact ⟨[], rfl, by simp, by simp⟩
    | cons t ts => exact absurd h (by simp [termsOk])
  | cons i is ih =>
    intro ts h
    cases ts with
    | nil => exact absurd h (by simp [termsOk])
    | cons t ts =>
      simp only [termsOk, Bool.and_eq_true] at h
      obtain ⟨⟨hi, he⟩, h3⟩ := h
      have hi : i < n + 1 := Nat.lt_succ_of_le (Nat.le_of_ble_eq_true hi)
      obtain ⟨L, l1, l2, l3⟩ := ih ts h3
      unfold workTermOk at he
      split at he
      · rename_i a c p
        simp only [Bool.and_eq_true, decide_eq_true_eq] at he
        obtain ⟨rfl, he⟩ := he
        split at he
        · exact absurd he (by simp)
        rename_i q hq
        simp only [Bool.and_eq_true] at he
        have hpos : 0 < ws.getD i 0 := Nat.le_of_ble_eq_true he.1
        have hT : τ (.var .T) = v.T := hτ _ (by simp)
        refine ⟨(i, (CExpr.mul c p).evalT τ) :: L, by rw [List.map_cons, l1], fun x hx => ?_, ?_⟩
        · rcases List.mem_cons.1 hx with rfl | hx
          · refine ⟨hi, ?_⟩
            have := QPoly.close_eval (K := ℝ) he.2 (by exact_mod_cast hpos) (by decide) v.T
            rw [slopeQ_eval, slopeQ_abs] at this
            have er : ((gas5 : Int) : ℝ) / ((ws.getD i 0 : Int) : ℝ) = gasR / W i := by
              rw [hW i hi]
              unfold gas5 gasR
              push_cast
              rw [div_div_eq_mul_div]
              norm_num
            rw [er] at this
            dsimp only
            rw [poly_sound τ _ q hq, hT]
            exact this
          · exact l2 x hx
        · rw [List.map_cons, List.sum_cons, List.map_cons, List.sum_cons, l3]
          congr 1
          have hml : massLoc n i ≠ .var .workTemp := by
            unfold massLoc
            split <;> simp
          simp only [CExpr.evalT, hτ _ hml, massLoc_sound hy hN jac hi]
          ring
      · exact absurd he (by simp)

theorem heatSum_sound {withN : Bool} {s : CExpr} (h : heatSumOk n ws withN s = true) :
    ∃ w : Nat → ℝ, (∀ i, i < n + 1 → |w i - W i| ≤ W i / 10 ^ 14) ∧
      s.evalT τ = ∑ k ∈ Finset.range (n + 1), v.ω k * w k * (-τ (.var .workTemp) * v.h k / v.cpAvg + v.cp k) +
        ∑ k ∈ Finset.range n, jac (k + 1) * v.h k * v.rho + (if withN then v.jN * v.h n * v.rho else 0) := by
  have key : ∀ s, sumOk (heatOk ws) (2 * n) s = true → ∃ w : Nat → ℝ, (∀ i, i < n + 1 → |w i - W i| ≤ W i / 10 ^ 14) ∧
      s.evalT τ = ∑ k ∈ Finset.range (n + 1), v.ω k * w k * (-τ (.var .workTemp) * v.h k / v.cpAvg + v.cp k) +
        ∑ k ∈ Finset.range n, jac (k + 1) * v.h k * v.rho := by
    intro s hs
    obtain ⟨w, h1, h2⟩ := heat_sound hW hs (τ := τ) (v := v) rfl (fun i => hτ _ (by simp)) (fun i => hτ _ (by simp)) (fun i => hτ _ (by simp))
      (hτ _ (by simp)) (hτ _ (by simp))
    refine ⟨w, h1, h2.trans ?_⟩
    congr 1
    exact Finset.sum_congr rfl fun k _ => by rw [hτ _ (by simp)]; rfl
  unfold heatSumOk at h
  split at h
  · rename_i hN'
    split at h
    · rename_i s k
      simp only [Bool.and_eq_true] at h
      obtain rfl := Nat.eq_of_beq_eq_true h.1
      obtain ⟨w, h1, h2⟩ := key s h.2
      refine ⟨w, h1, ?_⟩
      rw [if_pos hN', ← h2]
      simp only [CExpr.evalT]
      rw [hτ (.var .jN) (by simp), hτ (.arr .h k) (by simp), hτ (.var .rho) (by simp)]
      rfl
    · exact absurd h (by simp)
  · rename_i hN'
    obtain ⟨w, h1, h2⟩ := key s h
    exact ⟨w, h1, by rw [if_neg hN', add_zero]; exact h2⟩

end

theorem groups_sound {D : Package} {n : Nat} {ws : List Nat} {W : Nat → ℝ}
    (hW : ∀ i, i < n + 1 → W i = (ws.getD i 0 : ℝ) / 10 ^ 5) {withN : Bool} {v : JacobVals ℝ} {Y : Nat → ℝ}
    (hy : ∀ i, i < n → v.y (i + 1) = Y i) (hN : v.yN = Y n) (jac : Nat → ℝ) (p : List CStmt) :
    ∀ acc, groupsOk D n ws withN p acc = true → ∀ (τ : CLoc → ℝ) (L : List (Nat × ℝ)), (∀ l, l ≠ .var .workTemp → τ l = v.mem jac l) →
      L.map Prod.fst = acc → (∀ x ∈ L, x.1 < n + 1 ∧ |x.2 - gasR / W x.1 * cpSlope ((D.fit x.1).at v.T) v.T| ≤
        3 / 10 ^ 15 * (gasR / W x.1 * slopeTerms ((D.fit x.1).at v.T) v.T)) →
      (acc ≠ [] → τ (.var .workTemp) = (L.map fun x => Y x.1 * x.2).sum) →
    ∃ s w : Nat → ℝ, (∀ i, i < n + 1 → |s i - gasR / W i * cpSlope ((D.fit i).at v.T) v.T| ≤
        3 / 10 ^ 15 * (gasR / W i * slopeTerms ((D.fit i).at v.T) v.T)) ∧ (∀ i, i < n + 1 → |w i - W i| ≤ W i / 10 ^ 14) ∧
      execT p τ (.arr .jac 0) = -(∑ k ∈ Finset.range (n + 1), v.ω k * w k *
        (-(∑ i ∈ Finset.range (n + 1), Y i * s i) * v.h k / v.cpAvg + v.cp k) +
        ∑ k ∈ Finset.range n, jac (k + 1) * v.h k * v.rho + (if withN then v.jN * v.h n * v.rho else 0)) / (v.rho * v.cpAvg) := by
  induction p with
  | nil => exact fun acc h => absurd h (by simp [groupsOk])
  | cons st p ih =>
    intro acc h τ L hτ hL hbound hwt
    unfold groupsOk at h
    split at h
    · rename_i s heq
      cases heq
      simp only [Bool.and_eq_true, List.all_eq_true, List.any_eq_true, List.mem_range] at h
      obtain ⟨⟨hlen, hall⟩, hs⟩ := h
      have hlen := Nat.eq_of_beq_eq_true hlen
      have hne : acc ≠ [] := by
        rintro rfl
        exact absurd hlen (by simp)
      obtain ⟨sv, s1, s2⟩ := sum_pairs (L := L) (n := n + 1) (by rw [← hlen, ← hL, List.length_map]) (fun i hi => by
        obtain ⟨j, hj, e⟩ := hall i hi
        rw [hL, Nat.eq_of_beq_eq_true e]
        exact hj) Y
      obtain ⟨w, w1, w2⟩ := heatSum_sound hW hy hN hτ hs
      refine ⟨sv, w, fun i hi => (hbound _ (s1 i hi)).2, w1, ?_⟩
      rw [hwt hne, s2] at w2
      simp only [execT, CStmt.execT, setT, if_true, CExpr.evalT]
      rw [w2, hτ (.var .rho) (by simp), hτ (.var .cpAvg) (by simp)]
      rfl
    · rename_i m e lo hi p' heq
      cases heq
      split at h
      swap
      · exact absurd h (by simp)
      rename_i lo' hi' hlo hhi
      simp only [Bool.and_eq_true, List.all_eq_true, decide_eq_true_eq, Bool.not_eq_true'] at h
      obtain ⟨⟨⟨⟨hm, hne⟩, h1⟩, h2⟩, h3⟩ := h
      have hT : CExpr.evalT τ (.rd (.var .T)) = v.T := hτ _ (by simp)
      have hmid : CExpr.evalT τ (.num m e) = (m : ℝ) / 10 ^ e := by simp [CExpr.evalT, sci_eq]
      have hdrop : ∀ e e' : CExpr, dropWork acc.isEmpty e = some e' →
          e.evalT τ = e'.evalT τ + (L.map fun x => Y x.1 * x.2).sum := by
        intro e e' he
        unfold dropWork at he
        split at he
        · rename_i hemp
          obtain rfl := Option.some.inj he
          rw [List.isEmpty_iff] at hemp
          rw [hemp, List.map_eq_nil_iff] at hL
          rw [hL]
          simp
        · rename_i hemp
          split at he
          · obtain rfl := Option.some.inj he
            simp only [CExpr.evalT]
            rw [hwt (by simpa using hemp), add_comm]
          · exact absurd he (by simp)
      obtain ⟨L1, a1, a2, a3⟩ := termsOk_sound hW hy hN hτ _ _ h1
      obtain ⟨L2, b1, b2, b3⟩ := termsOk_sound hW hy hN hτ _ _ h2
      obtain ⟨L', l1, l2, l3⟩ : ∃ L' : List (Nat × ℝ), L'.map Prod.fst = lo'.terms.map (termSpecies n) ∧
          (∀ x ∈ L', x.1 < n + 1 ∧ |x.2 - gasR / W x.1 * cpSlope ((D.fit x.1).at v.T) v.T| ≤
            3 / 10 ^ 15 * (gasR / W x.1 * slopeTerms ((D.fit x.1).at v.T) v.T)) ∧
          CStmt.execT τ (.ite (.rd (.var .T)) (.num m e) (.var .workTemp) lo hi) =
            setT τ (.var .workTemp) ((L'.map fun x => Y x.1 * x.2).sum + (L.map fun x => Y x.1 * x.2).sum) := by
        by_cases hle : v.T ≤ (m : ℝ) / 10 ^ e
        · refine ⟨L1, a1, fun x hx => ?_, ?_⟩
          · have hx' : x.1 ∈ lo'.terms.map (termSpecies n) := by rw [← a1]; exact List.mem_map.2 ⟨x, hx, rfl⟩
            have : (D.fit x.1).at v.T = (D.fit x.1).low := by
              unfold Nasa.at
              rw [hm _ hx', if_pos hle]
            rw [this]
            exact a2 x hx
          · simp only [CStmt.execT, hT, hmid, if_pos hle]
            rw [hdrop lo lo' hlo, terms_sound, a3]
        · refine ⟨L2, b1, fun x hx => ?_, ?_⟩
          · have hx' : x.1 ∈ lo'.terms.map (termSpecies n) := by rw [← b1]; exact List.mem_map.2 ⟨x, hx, rfl⟩
            have : (D.fit x.1).at v.T = (D.fit x.1).high := by
              unfold Nasa.at
              rw [hm _ hx', if_neg hle]
            rw [this]
            exact b2 x hx
          · simp only [CStmt.execT, hT, hmid, if_neg hle]
            rw [hdrop hi hi' hhi, terms_sound, b3]
      rw [execT, l3]
      refine ih _ h3 _ (L' ++ L) (fun l hl => ?_) (by rw [List.map_append, l1, hL]) (fun x hx => ?_) (fun _ => ?_)
      · unfold setT
        rw [if_neg hl]
        exact hτ l hl
      · rcases List.mem_append.1 hx with hx | hx
        · exact l2 x hx
        · exact hbound x hx
      · rw [List.map_append, List.sum_append]
        simp [setT]
    · exact absurd h (by simp)

/-- The first entry that `eval_jacob` returns. -/
theorem result_first_groups {D : Package} {n : Nat} (hn : D.nsp = n + 1) {ws : List Nat} (hw : (List.range D.nsp).map D.weight5 = ws) {J : JacobSrc}
    {withN : Bool} (h : groupsOk D n ws withN J.last [] = true) (h4 : onlyFirst J.last = true) {v : JacobVals ℝ} {Y : Nat → ℝ}
    (hy : ∀ i, i < n → v.y (i + 1) = Y i) (hN : v.yN = Y n) (jac0 : Nat → ℝ) :
    ∃ s w : Nat → ℝ, (∀ i, i < n + 1 → |s i - gasR / D.molWeight i * cpSlope ((D.fit i).at v.T) v.T| ≤
        3 / 10 ^ 15 * (gasR / D.molWeight i * slopeTerms ((D.fit i).at v.T) v.T)) ∧ (∀ i, i < n + 1 → |w i - D.molWeight i| ≤ D.molWeight i / 10 ^ 14) ∧
      v.result J jac0 0 = -(∑ k ∈ Finset.range (n + 1), v.ω k * w k *
        (-(∑ i ∈ Finset.range (n + 1), Y i * s i) * v.h k / v.cpAvg + v.cp k) +
        ∑ k ∈ Finset.range n, v.result J jac0 (k + 1) * v.h k * v.rho + (if withN then v.jN * v.h n * v.rho else 0)) / (v.rho * v.cpAvg) := by
  have hW : ∀ i, i < n + 1 → D.molWeight i = (ws.getD i 0 : ℝ) / 10 ^ 5 := by
    intro i hi
    have : ws.getD i 0 = D.weight5 i := by rw [← hw, List.getD_eq_getElem?_getD]; simp [hn, hi]
    rw [this]
    rfl
  obtain ⟨s, w, q1, q2, q3⟩ := groups_sound hW hy hN
    (fun i => execT (J.endStart ++ J.endRows.flatten) (v.mem fun i => execT J.cpAvg (v.mem (v.partsT J.parts jac0)) (.arr .jac i)) (.arr .jac i))
    J.last [] h _ [] (fun l _ => rfl) rfl (by simp) (fun h => absurd rfl h)
  refine ⟨s, w, q1, q2, ?_⟩
  have e : ∀ k, v.result J jac0 (k + 1) =
      execT (J.endStart ++ J.endRows.flatten) (v.mem fun i => execT J.cpAvg (v.mem (v.partsT J.parts jac0)) (.arr .jac i)) (.arr .jac (k + 1)) := by
    intro k
    unfold JacobVals.result
    rw [onlyFirst_sound h4 _ (k + 1) (Nat.succ_ne_zero k)]
    rfl
  simp only [e]
  exact q3

end DLB
