import Verif.Lemmas.CheckThermoDrm19
import Verif.Lemmas.CheckThermoGri30
import Verif.Lemmas.CheckThermoYao
/-
The thermodynamics of all shipped mechanisms is checked.
-/
set_option autoImplicit false

namespace DLB

/-- All shipped mechanisms pass. -/
theorem thermo_of_shipped {D : Package} (h : D ∈ shipped) : ThermoChecked D := by
  simp only [shipped, List.mem_cons, List.mem_nil_iff, or_false] at h
  rcases h with rfl | rfl | rfl
  · exact drm19_thermo
  · exact gri30_thermo
  · exact yao_thermo

end DLB
