/- Generated by tools/gen_mechanisms.py. Do not edit. -/
import Verif.Model.Jacobian
import Verif.Mech.Gri30Jacob
import Verif.Mech.Gri30Jacob0
import Verif.Mech.Gri30Jacob1
import Verif.Mech.Gri30Jacob2
import Verif.Mech.Gri30Jacob3
import Verif.Mech.Gri30Jacob4
import Verif.Mech.Gri30Jacob5
import Verif.Mech.Gri30Jacob6
import Verif.Mech.Gri30Jacob7
import Verif.Mech.Gri30Jacob8
set_option autoImplicit false

namespace DLB.Mech.Gri30
open DLB

/-- utilities/mechanisms/gri30/lib/src/jacob.c and jacobs/jacob_<k>.c. Simplified: only the statements on which the entries 0 to 52 of `jac` depend, that is without the
statements under "partial of rxn <r> wrt species" and without eval_jacob_9 to eval_jacob_10; the generator checks that what is left out
assigns no such entry and nothing that the statements kept read. An assignment to `*J_nplusone` is moved behind the assignments to
entries of `jac` in its block, which neither read nor assign what it does. -/
def jacobSlice : JacobSrc where
  pre := jacobPre
  dBdT := jacobDBdT
  parts := [⟨true, jacob0Start, jacob0Blocks⟩, ⟨true, jacob1Start, jacob1Blocks⟩, ⟨true, jacob2Start, jacob2Blocks⟩, ⟨true, jacob3Start, jacob3Blocks⟩, ⟨true, jacob4Start, jacob4Blocks⟩, ⟨true, jacob5Start, jacob5Blocks⟩, ⟨true, jacob6Start, jacob6Blocks⟩, ⟨true, jacob7Start, jacob7Blocks⟩, ⟨false, jacob8Start, jacob8Blocks⟩]
  cpAvg := jacobCpAvg
  endStart := []
  endRows := []
  last := jacobLast

end DLB.Mech.Gri30
