/- Generated by tools/gen_mechanisms.py. Do not edit. -/
import Verif.Model.Jacobian
import Verif.Mech.Drm19Jacob
import Verif.Mech.Drm19Jacob0
import Verif.Mech.Drm19Jacob1
import Verif.Mech.Drm19Jacob2
import Verif.Mech.Drm19Jacob3
set_option autoImplicit false

namespace DLB.Mech.Drm19
open DLB

/-- utilities/mechanisms/drm19/lib/src/jacob.c and jacobs/jacob_<k>.c -/
def jacob : JacobSrc where
  pre := jacobPre
  dBdT := jacobDBdT
  parts := [⟨true, jacob0Start, jacob0Blocks⟩, ⟨true, jacob1Start, jacob1Blocks⟩, ⟨false, jacob2Start, jacob2Blocks⟩]
  cpAvg := jacobCpAvg
  endStart := jacobEndStart
  endRows := jacobEnd
  last := jacobLast

end DLB.Mech.Drm19
