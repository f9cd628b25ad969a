import Verif.Lemmas.CheckRatesDrm19
import Verif.Lemmas.CheckRatesGri30
import Verif.Lemmas.CheckRatesYao
/-
The rate laws of all shipped mechanisms are checked.
-/
set_option autoImplicit false

namespace DLB

/-- All shipped mechanisms pass. -/
theorem laws_of_shipped {D : Package} (h : D ∈ shipped) : LawsChecked D := by
  simp only [shipped, List.mem_cons, List.mem_nil_iff, or_false] at h
  rcases h with rfl | rfl | rfl
  · exact drm19_laws
  · exact gri30_laws
  · exact yao_laws

theorem bounds_of_shipped {D : Package} (h : D ∈ shipped) : boundsOk D = true := by
  simp only [shipped, List.mem_cons, List.mem_nil_iff, or_false] at h
  rcases h with rfl | rfl | rfl
  · exact drm19_bounds
  · exact gri30_bounds
  · exact yao_bounds

end DLB
