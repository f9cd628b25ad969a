import Mathlib.Analysis.Calculus.ContDiff.RCLike
import Mathlib.Analysis.SpecialFunctions.ExpDeriv
import Mathlib.Analysis.SpecialFunctions.Log.Deriv
import Mathlib.Analysis.SpecialFunctions.Pow.Deriv
/-
Functions that are Lipschitz continuous in a neighbourhood of a point.
-/
set_option autoImplicit false
set_option linter.unusedSectionVars false

namespace DLB
open scoped NNReal Topology

/-- `f` is Lipschitz continuous in a neighbourhood of `z`. -/
def LipAt {E F : Type} [PseudoEMetricSpace E] [PseudoEMetricSpace F] (f : E → F) (z : E) : Prop :=
  ∃ K : ℝ≥0, ∃ t ∈ 𝓝 z, LipschitzOnWith K f t

namespace LipAt
section
variable {E F G : Type} [PseudoEMetricSpace E] [PseudoEMetricSpace F] [PseudoEMetricSpace G] {z : E}

theorem continuousAt {f : E → F} (h : LipAt f z) : ContinuousAt f z := by
  obtain ⟨K, t, ht, h⟩ := h
  exact h.continuousOn.continuousAt ht

theorem comp {f : E → F} {g : F → G} (hg : LipAt g (f z)) (hf : LipAt f z) : LipAt (fun x => g (f x)) z := by
  have hc := hf.continuousAt
  obtain ⟨K, t, ht, h⟩ := hf
  obtain ⟨K', t', ht', h'⟩ := hg
  refine ⟨K' * K, t ∩ f ⁻¹' t', Filter.inter_mem ht (hc.preimage_mem_nhds ht'), ?_⟩
  exact h'.comp (h.mono Set.inter_subset_left) fun x hx => hx.2

theorem pair {f : E → F} {g : E → G} (hf : LipAt f z) (hg : LipAt g z) : LipAt (fun x => (f x, g x)) z := by
  obtain ⟨K, t, ht, h⟩ := hf
  obtain ⟨K', t', ht', h'⟩ := hg
  exact ⟨_, t ∩ t', Filter.inter_mem ht ht', (h.mono Set.inter_subset_left).prodMk (h'.mono Set.inter_subset_right)⟩

theorem congr {f g : E → F} (hf : LipAt f z) (h : g =ᶠ[𝓝 z] f) : LipAt g z := by
  obtain ⟨K, t, ht, hL⟩ := hf
  refine ⟨K, t ∩ {x | g x = f x}, Filter.inter_mem ht h, fun x hx y hy => ?_⟩
  have ex : g x = f x := hx.2
  have ey : g y = f y := hy.2
  rw [ex, ey]
  exact hL hx.1 hy.1

theorem of_lipschitz {f : E → F} {K : ℝ≥0} (h : LipschitzWith K f) (z : E) : LipAt f z :=
  ⟨K, Set.univ, Filter.univ_mem, h.lipschitzOnWith⟩

theorem const (c : F) (z : E) : LipAt (fun _ => c) z := of_lipschitz (LipschitzWith.const c) z

theorem pi {N : Nat} {f : E → Fin N → ℝ} (h : ∀ i, LipAt (fun x => f x i) z) : LipAt f z := by
  choose K t ht hL using h
  refine ⟨∑ i, K i, ⋂ i, t i, Filter.iInter_mem.2 ht, fun x hx y hy => ?_⟩
  rw [edist_pi_le_iff]
  intro i
  refine (hL i (Set.mem_iInter.1 hx i) (Set.mem_iInter.1 hy i)).trans ?_
  gcongr
  exact_mod_cast Finset.single_le_sum (f := K) (fun j _ => zero_le) (Finset.mem_univ i)

end

section
variable {E : Type} [PseudoEMetricSpace E] {z : E} {f g : E → ℝ}

theorem of_contDiff {g : ℝ → ℝ} {x : ℝ} (h : ContDiffAt ℝ 1 g x) : LipAt g x := h.exists_lipschitzOnWith

theorem smooth {g : ℝ → ℝ} (hg : ContDiffAt ℝ 1 g (f z)) (hf : LipAt f z) : LipAt (fun x => g (f x)) z :=
  comp (of_contDiff hg) hf

theorem smooth2 {h : ℝ × ℝ → ℝ} (hh : ContDiffAt ℝ 1 h (f z, g z)) (hf : LipAt f z) (hg : LipAt g z) :
    LipAt (fun x => h (f x, g x)) z :=
  comp (g := h) (f := fun x => (f x, g x)) hh.exists_lipschitzOnWith (pair hf hg)

theorem add (hf : LipAt f z) (hg : LipAt g z) : LipAt (fun x => f x + g x) z :=
  smooth2 (h := fun q => q.1 + q.2) (by fun_prop) hf hg

theorem sub (hf : LipAt f z) (hg : LipAt g z) : LipAt (fun x => f x - g x) z :=
  smooth2 (h := fun q => q.1 - q.2) (by fun_prop) hf hg

theorem mul (hf : LipAt f z) (hg : LipAt g z) : LipAt (fun x => f x * g x) z :=
  smooth2 (h := fun q => q.1 * q.2) (by fun_prop) hf hg

theorem div (hf : LipAt f z) (hg : LipAt g z) (h0 : g z ≠ 0) : LipAt (fun x => f x / g x) z :=
  smooth2 (h := fun q => q.1 / q.2) (by fun_prop (disch := exact h0)) hf hg

theorem neg (hf : LipAt f z) : LipAt (fun x => -f x) z := smooth (g := fun q => -q) (by fun_prop) hf

theorem abs (hf : LipAt f z) : LipAt (fun x => |f x|) z :=
  comp (g := fun q : ℝ => |q|) (of_lipschitz (by simpa using! (lipschitzWith_one_norm (E := ℝ))) _) hf

theorem max_const (hf : LipAt f z) (c : ℝ) : LipAt (fun x => max (f x) c) z :=
  comp (g := fun q : ℝ => max q c) (of_lipschitz (LipschitzWith.id.max_const c) _) hf

theorem sum {n : Nat} {f : Nat → E → ℝ} (h : ∀ i, i < n → LipAt (f i) z) :
    LipAt (fun x => ∑ i ∈ Finset.range n, f i x) z := by
  induction n with
  | zero => simpa using const (0 : ℝ) z
  | succ n ih =>
    simp only [Finset.sum_range_succ]
    exact (ih fun i hi => h i (by omega)).add (h n (by omega))

theorem list_sum {α : Type} {l : List α} {f : α → E → ℝ} (h : ∀ a ∈ l, LipAt (f a) z) :
    LipAt (fun x => (l.map fun a => f a x).sum) z := by
  induction l with
  | nil => simpa using const (0 : ℝ) z
  | cons a l ih =>
    simp only [List.map_cons, List.sum_cons]
    exact (h a (by simp)).add (ih fun b hb => h b (by simp [hb]))

theorem list_prod {l : List Nat} {f : Nat → E → ℝ} (h : ∀ a ∈ l, LipAt (f a) z) :
    LipAt (fun x => (l.map fun a => f a x).prod) z := by
  induction l with
  | nil => simpa using const (1 : ℝ) z
  | cons a l ih =>
    simp only [List.map_cons, List.prod_cons]
    exact (h a (by simp)).mul (ih fun b hb => h b (by simp [hb]))

theorem exp (hf : LipAt f z) : LipAt (fun x => Real.exp (f x)) z := smooth (g := Real.exp) (by fun_prop) hf

theorem log (hf : LipAt f z) (h0 : f z ≠ 0) : LipAt (fun x => Real.log (f x)) z :=
  smooth (g := Real.log) (Real.contDiffAt_log.2 h0) hf

theorem pow (hf : LipAt f z) (k : Nat) : LipAt (fun x => f x ^ k) z := smooth (g := fun q => q ^ k) (by fun_prop) hf

theorem rpow (hf : LipAt f z) (h0 : 0 < f z) (p : ℝ) : LipAt (fun x => f x ^ p) z :=
  smooth (g := fun q => q ^ p) (Real.contDiffAt_rpow_const_of_ne h0.ne') hf

end
end LipAt
end DLB
