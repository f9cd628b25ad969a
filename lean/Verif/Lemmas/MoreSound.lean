import Verif.Lemmas.CheckMoreDrm19
import Verif.Lemmas.CheckMoreGri30
import Verif.Lemmas.CheckMoreYao
/-
What eval_conc_rho, eval_u, eval_cv and sparse_multiplier of the shipped mechanisms return.
-/
set_option autoImplicit false
set_option linter.unusedSectionVars false

namespace DLB

theorem more_of_shipped {D : Package} {E : MechMore} (h : (D, E) ∈ shippedMore) : MoreChecked D E ∧ D ∈ shipped := by
  simp only [shippedMore, List.mem_cons, List.not_mem_nil, or_false, Prod.mk.injEq] at h
  rcases h with ⟨rfl, rfl⟩ | ⟨rfl, rfl⟩ | ⟨rfl, rfl⟩
  · exact ⟨drm19_more, by simp [shipped]⟩
  · exact ⟨gri30_more, by simp [shipped]⟩
  · exact ⟨yao_more, by simp [shipped]⟩

section
variable {S : Type} [Add S] [Sub S] [Mul S] [Div S] [Neg S] [OfScientific S] [CMath S] [LE S] [DecidableLE S]

/-- Total memory with the inputs of eval_conc_rho. -/
def inRho (T rho : S) (y : Nat → S) : CLoc → S
  | .var .rho => rho
  | .arr _ i => y i
  | _ => T

/-- Total memory with the inputs of sparse_multiplier. -/
def inSparse (A Vm : Nat → S) : CLoc → S
  | .arr .y i => Vm i
  | .arr _ i => A i
  | _ => A 0

variable {M : Mech} {E : MechMore}

theorem concRho_call (h : checkMoreSafe M E = true) (T rho : S) (y : Nat → S) :
    ∃ σ, E.callEvalConcRho M T rho (fun i => some (y i)) = some σ ∧
      (∀ i, i < M.nsp → σ (.arr .C i) = some (execT E.evalConcRho (inRho T rho y) (.arr .C i))) ∧
      σ (.var .yN) = some (execT E.evalConcRho (inRho T rho y) (.var .yN)) ∧
      σ (.var .pres) = some (execT E.evalConcRho (inRho T rho y) (.var .pres)) := by
  simp only [checkMoreSafe, Bool.and_eq_true] at h
  obtain ⟨⟨⟨⟨⟨⟨⟨⟨⟨h1, h2⟩, h3⟩, h4⟩, -⟩, -⟩, -⟩, -⟩, -⟩, -⟩ := h
  obtain ⟨σ', e, hag⟩ := exec_agree E.evalConcRho [] (fun
    | .var .T => some T
    | .var .rho => some rho
    | .arr .y i => some (y i)
    | _ => none) (inRho T rho y) h1 (by
      intro l hl
      rcases hl with hl | hl
      · unfold inpConcRho at hl
        split at hl
        · rfl
        · rfl
        · rfl
        · exact absurd hl (by simp)
      · exact absurd hl (by simp))
  exact ⟨σ', e, fun i hi => hag _ (Or.inr (assigns_written h2 i hi _)), hag _ (Or.inr (target_written h3 _)),
    hag _ (Or.inr (target_written h4 _))⟩

theorem cv_call (h : checkMoreSafe M E = true) (T : S) :
    ∃ σ, E.callCv M T = some σ ∧
      ∀ i, i < M.nsp → σ (.arr .cp i) = some (execT E.evalCv (inT T T fun _ => T) (.arr .cp i)) := by
  simp only [checkMoreSafe, Bool.and_eq_true] at h
  obtain ⟨⟨⟨⟨⟨⟨⟨⟨⟨-, -⟩, -⟩, -⟩, h1⟩, h2⟩, -⟩, -⟩, -⟩, -⟩ := h
  obtain ⟨σ', e, hag⟩ := exec_agree E.evalCv [] (fun
    | .var .T => some T
    | _ => none) (inT T T fun _ => T) h1 (by
      intro l hl
      rcases hl with hl | hl
      · unfold inpT at hl
        split at hl
        · rfl
        · exact absurd hl (by simp)
      · exact absurd hl (by simp))
  exact ⟨σ', e, fun i hi => hag _ (Or.inr (assigns_written h2 i hi _))⟩

theorem u_call (h : checkMoreSafe M E = true) (T : S) :
    ∃ σ, E.callU M T = some σ ∧
      ∀ i, i < M.nsp → σ (.arr .h i) = some (execT E.evalU (inT T T fun _ => T) (.arr .h i)) := by
  simp only [checkMoreSafe, Bool.and_eq_true] at h
  obtain ⟨⟨⟨⟨⟨⟨⟨⟨⟨-, -⟩, -⟩, -⟩, -⟩, -⟩, h1⟩, h2⟩, -⟩, -⟩ := h
  obtain ⟨σ', e, hag⟩ := exec_agree E.evalU [] (fun
    | .var .T => some T
    | _ => none) (inT T T fun _ => T) h1 (by
      intro l hl
      rcases hl with hl | hl
      · unfold inpT at hl
        split at hl
        · rfl
        · exact absurd hl (by simp)
      · exact absurd hl (by simp))
  exact ⟨σ', e, fun i hi => hag _ (Or.inr (assigns_written h2 i hi _))⟩

theorem sparse_call (h : checkMoreSafe M E = true) (A Vm : Nat → S) :
    ∃ σ, E.callSparseMultiplier M A Vm = some σ ∧
      ∀ i, i < M.nsp → σ (.arr .dy i) = some (execT E.sparseMultiplier (inSparse A Vm) (.arr .dy i)) := by
  simp only [checkMoreSafe, Bool.and_eq_true] at h
  obtain ⟨⟨⟨⟨⟨⟨⟨⟨⟨-, -⟩, -⟩, -⟩, -⟩, -⟩, -⟩, -⟩, h1⟩, h2⟩ := h
  obtain ⟨σ', e, hag⟩ := exec_agree E.sparseMultiplier [] (fun
    | .arr .jac i => some (A i)
    | .arr .y i => some (Vm i)
    | _ => none) (inSparse A Vm) h1 (by
      intro l hl
      rcases hl with hl | hl
      · unfold inpSparse at hl
        split at hl
        · rfl
        · rfl
        · exact absurd hl (by simp)
      · exact absurd hl (by simp))
  exact ⟨σ', e, fun i hi => hag _ (Or.inr (assigns_written h2 i hi _))⟩

theorem evalT_foldl_add (es : List CExpr) (τ : CLoc → S) (e : CExpr) :
    (es.foldl CExpr.add e).evalT τ = (es.map fun x => x.evalT τ).foldl (· + ·) (e.evalT τ) := by
  induction es generalizing e with
  | nil => rfl
  | cons a es ih => rw [List.foldl_cons, ih, List.map_cons, List.foldl_cons]; rfl

theorem sumExpr_congr (es : List CExpr) (τ τ' : CLoc → S) (h : ∀ x ∈ es, x.evalT τ' = x.evalT τ) :
    (sumExpr es).evalT τ' = (sumExpr es).evalT τ := by
  cases es with
  | nil => rfl
  | cons e es =>
    rw [sumExpr, evalT_foldl_add, evalT_foldl_add, h e (by simp)]
    congr 1
    exact List.map_congr_left fun x hx => h x (by simp [hx])

/-- What sparse_multiplier computes. -/
theorem sparseT_val (n : Nat) (τ : CLoc → S) (i : Nat) (hi : i < n) :
    execT (sparseT n) τ (.arr .dy i) = (sumExpr (rowTerms n i)).evalT τ := by
  refine (execT_assign (fun i => .arr .dy i) (fun i => sumExpr (rowTerms n i)) n τ (fun i j _ _ h => by simpa using h)
    (fun i _ τ' h => ?_)).1 i hi
  refine sumExpr_congr _ _ _ fun x hx => ?_
  simp only [rowTerms, List.mem_map] at hx
  obtain ⟨j, -, rfl⟩ := hx
  simp only [CExpr.evalT]
  rw [h _ (by simp), h _ (by simp)]

theorem sumExpr_row (n i : Nat) (A Vm : Nat → S) :
    (sumExpr (rowTerms (n + 1) i)).evalT (inSparse A Vm) =
      (List.range n).foldl (fun s j => s + A (i + (n + 1) * (j + 1)) * Vm (j + 1)) (A i * Vm 0) := by
  unfold rowTerms
  rw [List.range_succ_eq_map, List.map_cons, sumExpr, evalT_foldl_add, List.map_map, List.map_map, List.foldl_map]
  rfl

end

section
variable {K : Type} [Field K] [LinearOrder K] [IsStrictOrderedRing K] [CMath K]

/-- What eval_conc_rho computes. -/
theorem evalConcRhoT_val (n : Nat) (rs : List Dec) (τ : CLoc → K) :
    let Y := complement n (fun i => τ (.arr .y i))
    let ρ := τ (.var .rho)
    execT (evalConcRhoT n rs) τ (.var .yN) = Y n ∧
    execT (evalConcRhoT n rs) τ (.var .pres) =
      ρ * gasR * τ (.var .T) / (1 / ∑ i ∈ Finset.range (n + 1), Y i * Dec.val (nth rs i)) ∧
    ∀ i, i ≤ n → execT (evalConcRhoT n rs) τ (.arr .C i) = ρ * Y i * Dec.val (nth rs i) := by
  intro Y ρ
  have hY : ∀ i, i < n → Y i = τ (.arr .y i) := fun i hi => by
    simp only [Y, complement, if_neg (by omega : ¬ i = n)]
  have hYn : Y n = 1 - ∑ j ∈ Finset.range n, τ (.arr .y j) := by
    simp only [Y, complement, if_true]
  unfold evalConcRhoT
  rw [execT_append, execT_append]
  obtain ⟨τ4, hτ4⟩ : ∃ τ4 : CLoc → K, τ4 = execT [.set (.var .yN) (.sub (.num 1 0) (sumReads .y n)),
   .set (.var .mwAvg) (sumExpr ((List.range n).map (fun i => .mul (.rd (.arr .y i)) (nth rs i).lit) ++
     [.mul (.rd (.var .yN)) (nth rs n).lit])),
   .set (.var .mwAvg) (.div (.num 1 0) (.rd (.var .mwAvg))),
   .set (.var .pres) (.div (.mul (.mul (.rd (.var .rho)) gasConstant) (.rd (.var .T))) (.rd (.var .mwAvg)))] τ :=
    ⟨_, rfl⟩
  rw [← hτ4]
  have hyN : τ4 (.var .yN) = Y n := by
    rw [hτ4, hYn]
    simp [execT, CStmt.execT, setT, CExpr.evalT, evalT_sumReads, sci_eq]
  have hpres : τ4 (.var .pres) =
      ρ * gasR * τ (.var .T) / (1 / ∑ i ∈ Finset.range (n + 1), Y i * Dec.val (nth rs i)) := by
    rw [hτ4]
    simp only [execT, CStmt.execT, setT, CExpr.evalT, evalT_sumReads, evalT_sumExpr, evalT_gas, sci_eq,
      List.map_append, List.map_map, List.sum_append, List.map_cons, List.map_nil, List.sum_cons, List.sum_nil, ρ]
    simp only [Function.comp_def, CExpr.evalT, evalT_lit, sum_range_list]
    simp [Y, complement_sum_mul, setT]
  have hrho : τ4 (.var .rho) = ρ := by
    rw [hτ4]
    simp [execT, CStmt.execT, setT, ρ]
  have hy : ∀ i, τ4 (.arr .y i) = τ (.arr .y i) := by
    intro i
    rw [hτ4]
    simp [execT, CStmt.execT, setT]
  obtain ⟨h1, h2⟩ := execT_assign (fun i => .arr .C i)
    (fun i => .mul (.mul (.rd (.var .rho)) (.rd (.arr .y i))) (nth rs i).lit) n τ4
    (fun i j _ _ h => by simpa using h)
    (fun i _ τ' h => by
      simp only [CExpr.evalT, evalT_lit]
      rw [h _ (by simp), h _ (by simp)])
  simp only [execT, CStmt.execT, setT]
  refine ⟨?_, ?_, ?_⟩
  · rw [if_neg (by simp), h2 _ (by simp), hyN]
  · rw [if_neg (by simp), h2 _ (by simp), hpres]
  · intro i hi
    by_cases h : i = n
    · subst h
      rw [if_pos rfl]
      simp only [CExpr.evalT, evalT_lit]
      rw [h2 _ (by simp), h2 _ (by simp), hyN, hrho]
    · rw [if_neg (by simpa using h), h1 i (by omega)]
      simp only [CExpr.evalT, evalT_lit]
      rw [hrho, hy, hY i (by omega)]

variable {D : Package} {E : MechMore}

/-- What a call of eval_cv returns. -/
theorem cv_value (m : MoreChecked D E) (T : K) :
    ∃ σ, E.callCv D.mech T = some σ ∧ ∀ i, i < D.nsp → σ (.arr .cp i) = some ((pieceAt E.evalCv i).eval T) := by
  obtain ⟨σ, e, hv⟩ := cv_call m.safe T
  have hp := m.templates
  simp only [checkMoreTemplates, Bool.and_eq_true] at hp
  refine ⟨σ, e, fun i hi => ?_⟩
  rw [hv i hi, pieces_val hp.1.2 _ i hi]
  rfl

/-- What a call of eval_u returns. -/
theorem u_value (m : MoreChecked D E) (T : K) :
    ∃ σ, E.callU D.mech T = some σ ∧ ∀ i, i < D.nsp → σ (.arr .h i) = some ((pieceAt E.evalU i).eval T) := by
  obtain ⟨σ, e, hv⟩ := u_call m.safe T
  have hp := m.templates
  simp only [checkMoreTemplates, Bool.and_eq_true] at hp
  refine ⟨σ, e, fun i hi => ?_⟩
  rw [hv i hi, pieces_val hp.2 _ i hi]
  rfl

/-- Heat capacities differ by the gas constant over the molecular weight, energies by that times the temperature. -/
theorem mayer_value (hc : Checked D) (m : MoreChecked D E) (T : K) (i : Nat) (hi : i < D.nsp) :
    |(D.cpPiece i).eval T - (pieceAt E.evalCv i).eval T - gasR / D.molWeight i| ≤ 3 / 10 ^ 15 * (gasR / D.molWeight i) ∧
    |(D.hPiece i).eval T - (pieceAt E.evalU i).eval T - gasR / D.molWeight i * T| ≤
      3 / 10 ^ 15 * (gasR / D.molWeight i * |T|) := by
  have := List.all_eq_true.1 m.mayer i (List.mem_range.2 hi)
  simp only [Bool.and_eq_true, decide_eq_true_eq] at this
  obtain ⟨⟨⟨⟨⟨t1, t2⟩, c1⟩, c2⟩, c3⟩, c4⟩ := this
  have hw := weight5_pos hc i hi
  have kc : ∀ p q : QPoly, QPoly.close (D.weight5 i) gas5 (p.add q.neg) ([1, 0, 0, 0, 0], 0) = true →
      |p.eval T - q.eval T - gasR / D.molWeight i| ≤ 3 / 10 ^ 15 * (gasR / D.molWeight i) := by
    intro p q h
    have := QPoly.close_eval h hw (by norm_num [gas5]) T
    rw [gas_ratio, QPoly.eval_add, QPoly.eval_neg] at this
    simpa [QPoly.eval, QPoly.absEval, IPoly.eval, IPoly.absEval, sub_eq_add_neg] using this
  have kh : ∀ p q : QPoly, QPoly.close (D.weight5 i) gas5 (p.add q.neg) ([0, 1, 0, 0, 0, 0], 0) = true →
      |p.eval T - q.eval T - gasR / D.molWeight i * T| ≤ 3 / 10 ^ 15 * (gasR / D.molWeight i * |T|) := by
    intro p q h
    have := QPoly.close_eval h hw (by norm_num [gas5]) T
    rw [gas_ratio, QPoly.eval_add, QPoly.eval_neg] at this
    simpa [QPoly.eval, QPoly.absEval, IPoly.eval, IPoly.absEval, sub_eq_add_neg] using this
  unfold Piece.eval
  rw [t1, t2]
  constructor
  · split
    · exact kc _ _ c1
    · exact kc _ _ c2
  · split
    · exact kh _ _ c3
    · exact kh _ _ c4

end
end DLB
