/- Generated by tools/gen_mechanisms.py from utilities/mechanisms/gri30/lib/src/jacobs/jacob_8.c. Do not edit. -/
import Verif.Model.CLang
set_option autoImplicit false
set_option maxRecDepth 1000000

namespace DLB.Mech.Gri30
open DLB

/-- utilities/mechanisms/gri30/lib/src/jacobs/jacob_8.c:5-10 -/
def jacob8Start : List CStmt := [
  .set (.var .logT) (.log (.rd (.var .T))),
  .set (.var .kf) (.num 0 0),
  .set (.var .jTemp) (.num 0 0),
  .set (.var .Kc) (.num 0 0),
  .set (.var .kr) (.num 0 0),
  .set (.var .rhoInv) (.div (.num 1 0) (.rd (.var .rho)))]

/-- utilities/mechanisms/gri30/lib/src/jacobs/jacob_8.c:11-17 -/
def jacobT320 : List CStmt := [
  .set (.var .jTemp) (.mul (.mul (.div (.num 1 0) (.rd (.var .T))) (.sub (.add (.mul (.sub (.rd (.arr .fwd 320)) (.rd (.arr .rev 305))) (.add (.num 21899999999999999 16) (.div (.num 44786541272465473 14) (.rd (.var .T))))) (.mul (.rd (.arr .fwd 320)) (.neg (.num 1 0)))) (.mul (.rd (.arr .rev 305)) (.add (.neg (.num 1 0)) (.mul (.neg (.rd (.var .T))) (.sub (.sub (.add (.rd (.arr .dBdT 25)) (.rd (.arr .dBdT 12))) (.rd (.arr .dBdT 48))) (.rd (.arr .dBdT 1)))))))) (.rd (.var .rhoInv))),
  .set (.arr .jac 49) (.add (.rd (.arr .jac 49)) (.mul (.neg (.rd (.var .jTemp))) (.num 4308858 5))),
  .set (.arr .jac 2) (.add (.rd (.arr .jac 2)) (.mul (.neg (.rd (.var .jTemp))) (.num 10079400000000001 16))),
  .set (.arr .jac 13) (.add (.rd (.arr .jac 13)) (.mul (.rd (.var .jTemp)) (.num 1503482 5))),
  .set (.arr .jac 26) (.add (.rd (.arr .jac 26)) (.mul (.rd (.var .jTemp)) (.num 29061699999999998 15)))]

/-- utilities/mechanisms/gri30/lib/src/jacobs/jacob_8.c:238-244 -/
def jacobT321 : List CStmt := [
  .set (.var .jTemp) (.mul (.mul (.div (.num 1 0) (.rd (.var .T))) (.sub (.mul (.rd (.arr .fwd 321)) (.neg (.num 1 0))) (.mul (.rd (.arr .rev 306)) (.add (.neg (.num 1 0)) (.mul (.neg (.rd (.var .T))) (.sub (.sub (.add (.rd (.arr .dBdT 18)) (.rd (.arr .dBdT 25))) (.rd (.arr .dBdT 48))) (.rd (.arr .dBdT 4)))))))) (.rd (.var .rhoInv))),
  .set (.arr .jac 49) (.add (.rd (.arr .jac 49)) (.mul (.neg (.rd (.var .jTemp))) (.num 4308858 5))),
  .set (.arr .jac 26) (.add (.rd (.arr .jac 26)) (.mul (.rd (.var .jTemp)) (.num 29061699999999998 15))),
  .set (.arr .jac 19) (.add (.rd (.arr .jac 19)) (.mul (.rd (.var .jTemp)) (.num 31034219999999998 15))),
  .set (.arr .jac 5) (.add (.rd (.arr .jac 5)) (.mul (.neg (.rd (.var .jTemp))) (.num 17007339999999999 15)))]

/-- utilities/mechanisms/gri30/lib/src/jacobs/jacob_8.c:465-471 -/
def jacobT322 : List CStmt := [
  .set (.var .jTemp) (.mul (.mul (.div (.num 1 0) (.rd (.var .T))) (.sub (.add (.mul (.sub (.rd (.arr .fwd 322)) (.rd (.arr .rev 307))) (.add (.num 255 3) (.div (.neg (.num 47453604966219035 14)) (.rd (.var .T))))) (.mul (.rd (.arr .fwd 322)) (.neg (.num 1 0)))) (.mul (.rd (.arr .rev 307)) (.add (.neg (.num 1 0)) (.mul (.neg (.rd (.var .T))) (.sub (.sub (.add (.rd (.arr .dBdT 3)) (.rd (.arr .dBdT 49))) (.rd (.arr .dBdT 48))) (.rd (.arr .dBdT 6)))))))) (.rd (.var .rhoInv))),
  .set (.arr .jac 49) (.add (.rd (.arr .jac 49)) (.mul (.neg (.rd (.var .jTemp))) (.num 4308858 5))),
  .set (.arr .jac 50) (.add (.rd (.arr .jac 50)) (.mul (.rd (.var .jTemp)) (.num 44096519999999998 15))),
  .set (.arr .jac 4) (.add (.rd (.arr .jac 4)) (.mul (.rd (.var .jTemp)) (.num 31998799999999999 15))),
  .set (.arr .jac 7) (.add (.rd (.arr .jac 7)) (.mul (.neg (.rd (.var .jTemp))) (.num 33006740000000001 15)))]

/-- utilities/mechanisms/gri30/lib/src/jacobs/jacob_8.c:692-699 -/
def jacobT323 : List CStmt := [
  .set (.var .jTemp) (.mul (.mul (.div (.num 1 0) (.rd (.var .T))) (.mul (.rd (.arr .fwd 323)) (.neg (.num 1 0)))) (.rd (.var .rhoInv))),
  .set (.arr .jac 49) (.add (.rd (.arr .jac 49)) (.mul (.neg (.rd (.var .jTemp))) (.num 4308858 5))),
  .set (.arr .jac 18) (.add (.rd (.arr .jac 18)) (.mul (.rd (.var .jTemp)) (.num 3002628 5))),
  .set (.arr .jac 5) (.add (.rd (.arr .jac 5)) (.mul (.rd (.var .jTemp)) (.num 17007339999999999 15))),
  .set (.arr .jac 7) (.add (.rd (.arr .jac 7)) (.mul (.neg (.rd (.var .jTemp))) (.num 33006740000000001 15))),
  .set (.arr .jac 26) (.add (.rd (.arr .jac 26)) (.mul (.rd (.var .jTemp)) (.num 29061699999999998 15)))]

/-- utilities/mechanisms/gri30/lib/src/jacobs/jacob_8.c:964-969 -/
def jacobT324 : List CStmt := [
  .set (.var .jTemp) (.mul (.mul (.div (.num 1 0) (.rd (.var .T))) (.sub (.add (.mul (.sub (.rd (.arr .fwd 324)) (.rd (.arr .rev 308))) (.neg (.num 32000000000000001 17))) (.mul (.rd (.arr .fwd 324)) (.neg (.num 1 0)))) (.mul (.rd (.arr .rev 308)) (.add (.neg (.num 1 0)) (.mul (.neg (.rd (.var .T))) (.sub (.sub (.mul (.num 2 0) (.rd (.arr .dBdT 25))) (.rd (.arr .dBdT 48))) (.rd (.arr .dBdT 12)))))))) (.rd (.var .rhoInv))),
  .set (.arr .jac 49) (.add (.rd (.arr .jac 49)) (.mul (.neg (.rd (.var .jTemp))) (.num 4308858 5))),
  .set (.arr .jac 26) (.add (.rd (.arr .jac 26)) (.mul (.mul (.rd (.var .jTemp)) (.num 2 0)) (.num 29061699999999998 15))),
  .set (.arr .jac 13) (.add (.rd (.arr .jac 13)) (.mul (.neg (.rd (.var .jTemp))) (.num 1503482 5)))]

/-- The derivatives with respect to the temperature in `eval_jacob_8`, one block per reaction, utilities/mechanisms/gri30/lib/src/jacobs/jacob_8.c:5-1137. -/
def jacob8Blocks : List (List CStmt × List CStmt) := [
  (jacobT320, []), (jacobT321, []), (jacobT322, []), (jacobT323, []), (jacobT324, [])]

end DLB.Mech.Gri30
