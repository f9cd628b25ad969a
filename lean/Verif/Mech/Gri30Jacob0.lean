/- Generated by tools/gen_mechanisms.py from utilities/mechanisms/gri30/lib/src/jacobs/jacob_0.c. Do not edit. -/
import Verif.Model.CLang
set_option autoImplicit false
set_option maxRecDepth 1000000

namespace DLB.Mech.Gri30
open DLB

/-- utilities/mechanisms/gri30/lib/src/jacobs/jacob_0.c:5-13 -/
def jacob0Start : List CStmt := [
  .set (.var .logT) (.log (.rd (.var .T))),
  .set (.var .kf) (.num 0 0),
  .set (.var .jTemp) (.num 0 0),
  .set (.var .presModTemp) (.num 0 0),
  .set (.var .Kc) (.num 0 0),
  .set (.var .kr) (.num 0 0),
  .set (.var .Pr) (.num 0 0),
  .set (.var .rhoInv) (.div (.num 1 0) (.rd (.var .rho)))]

/-- utilities/mechanisms/gri30/lib/src/jacobs/jacob_0.c:14-18 -/
def jacobT0 : List CStmt := [
  .set (.var .jTemp) (.mul (.add (.div (.mul (.neg (.rd (.arr .presMod 0))) (.sub (.rd (.arr .fwd 0)) (.rd (.arr .rev 0)))) (.rd (.var .T))) (.mul (.div (.rd (.arr .presMod 0)) (.rd (.var .T))) (.sub (.add (.mul (.sub (.rd (.arr .fwd 0)) (.rd (.arr .rev 0))) (.neg (.num 1 0))) (.mul (.rd (.arr .fwd 0)) (.neg (.num 1 0)))) (.mul (.rd (.arr .rev 0)) (.mul (.neg (.rd (.var .T))) (.sub (.rd (.arr .dBdT 3)) (.mul (.num 2 0) (.rd (.arr .dBdT 2))))))))) (.rd (.var .rhoInv))),
  .set (.arr .jac 3) (.mul (.mul (.rd (.var .jTemp)) (.neg (.num 2 0))) (.num 159994 4)),
  .set (.arr .jac 4) (.mul (.rd (.var .jTemp)) (.num 31998799999999999 15))]

/-- utilities/mechanisms/gri30/lib/src/jacobs/jacob_0.c:136-141 -/
def jacobT1 : List CStmt := [
  .set (.var .jTemp) (.mul (.add (.div (.mul (.neg (.rd (.arr .presMod 1))) (.sub (.rd (.arr .fwd 1)) (.rd (.arr .rev 1)))) (.rd (.var .T))) (.mul (.div (.rd (.arr .presMod 1)) (.rd (.var .T))) (.sub (.add (.mul (.sub (.rd (.arr .fwd 1)) (.rd (.arr .rev 1))) (.neg (.num 1 0))) (.mul (.rd (.arr .fwd 1)) (.neg (.num 1 0)))) (.mul (.rd (.arr .rev 1)) (.mul (.neg (.rd (.var .T))) (.sub (.sub (.rd (.arr .dBdT 4)) (.rd (.arr .dBdT 1))) (.rd (.arr .dBdT 2)))))))) (.rd (.var .rhoInv))),
  .set (.arr .jac 2) (.mul (.neg (.rd (.var .jTemp))) (.num 10079400000000001 16)),
  .set (.arr .jac 3) (.add (.rd (.arr .jac 3)) (.mul (.neg (.rd (.var .jTemp))) (.num 159994 4))),
  .set (.arr .jac 5) (.mul (.rd (.var .jTemp)) (.num 17007339999999999 15))]

/-- utilities/mechanisms/gri30/lib/src/jacobs/jacob_0.c:311-317 -/
def jacobT2 : List CStmt := [
  .set (.var .jTemp) (.mul (.mul (.div (.num 1 0) (.rd (.var .T))) (.sub (.add (.mul (.sub (.rd (.arr .fwd 2)) (.rd (.arr .rev 2))) (.add (.num 27000000000000002 16) (.div (.num 31501544760183583 13) (.rd (.var .T))))) (.mul (.rd (.arr .fwd 2)) (.neg (.num 1 0)))) (.mul (.rd (.arr .rev 2)) (.add (.neg (.num 1 0)) (.mul (.neg (.rd (.var .T))) (.sub (.sub (.add (.rd (.arr .dBdT 1)) (.rd (.arr .dBdT 4))) (.rd (.arr .dBdT 0))) (.rd (.arr .dBdT 2)))))))) (.rd (.var .rhoInv))),
  .set (.arr .jac 1) (.mul (.neg (.rd (.var .jTemp))) (.num 20158800000000001 16)),
  .set (.arr .jac 2) (.add (.rd (.arr .jac 2)) (.mul (.rd (.var .jTemp)) (.num 10079400000000001 16))),
  .set (.arr .jac 3) (.add (.rd (.arr .jac 3)) (.mul (.neg (.rd (.var .jTemp))) (.num 159994 4))),
  .set (.arr .jac 5) (.add (.rd (.arr .jac 5)) (.mul (.rd (.var .jTemp)) (.num 17007339999999999 15)))]

/-- utilities/mechanisms/gri30/lib/src/jacobs/jacob_0.c:538-544 -/
def jacobT3 : List CStmt := [
  .set (.var .jTemp) (.mul (.mul (.div (.num 1 0) (.rd (.var .T))) (.sub (.mul (.rd (.arr .fwd 3)) (.neg (.num 1 0))) (.mul (.rd (.arr .rev 3)) (.add (.neg (.num 1 0)) (.mul (.neg (.rd (.var .T))) (.sub (.sub (.add (.rd (.arr .dBdT 3)) (.rd (.arr .dBdT 4))) (.rd (.arr .dBdT 6))) (.rd (.arr .dBdT 2)))))))) (.rd (.var .rhoInv))),
  .set (.arr .jac 3) (.add (.rd (.arr .jac 3)) (.mul (.neg (.rd (.var .jTemp))) (.num 159994 4))),
  .set (.arr .jac 4) (.add (.rd (.arr .jac 4)) (.mul (.rd (.var .jTemp)) (.num 31998799999999999 15))),
  .set (.arr .jac 5) (.add (.rd (.arr .jac 5)) (.mul (.rd (.var .jTemp)) (.num 17007339999999999 15))),
  .set (.arr .jac 7) (.mul (.neg (.rd (.var .jTemp))) (.num 33006740000000001 15))]

/-- utilities/mechanisms/gri30/lib/src/jacobs/jacob_0.c:765-771 -/
def jacobT4 : List CStmt := [
  .set (.var .jTemp) (.mul (.mul (.div (.num 1 0) (.rd (.var .T))) (.sub (.add (.mul (.sub (.rd (.arr .fwd 4)) (.rd (.arr .rev 4))) (.add (.num 2 0) (.div (.num 20128782594366505 13) (.rd (.var .T))))) (.mul (.rd (.arr .fwd 4)) (.neg (.num 1 0)))) (.mul (.rd (.arr .rev 4)) (.add (.neg (.num 1 0)) (.mul (.neg (.rd (.var .T))) (.sub (.sub (.add (.rd (.arr .dBdT 6)) (.rd (.arr .dBdT 4))) (.rd (.arr .dBdT 7))) (.rd (.arr .dBdT 2)))))))) (.rd (.var .rhoInv))),
  .set (.arr .jac 3) (.add (.rd (.arr .jac 3)) (.mul (.neg (.rd (.var .jTemp))) (.num 159994 4))),
  .set (.arr .jac 5) (.add (.rd (.arr .jac 5)) (.mul (.rd (.var .jTemp)) (.num 17007339999999999 15))),
  .set (.arr .jac 7) (.add (.rd (.arr .jac 7)) (.mul (.rd (.var .jTemp)) (.num 33006740000000001 15))),
  .set (.arr .jac 8) (.mul (.neg (.rd (.var .jTemp))) (.num 34014679999999998 15))]

/-- utilities/mechanisms/gri30/lib/src/jacobs/jacob_0.c:992-998 -/
def jacobT5 : List CStmt := [
  .set (.var .jTemp) (.mul (.mul (.div (.num 1 0) (.rd (.var .T))) (.sub (.mul (.rd (.arr .fwd 5)) (.neg (.num 1 0))) (.mul (.rd (.arr .rev 5)) (.add (.neg (.num 1 0)) (.mul (.neg (.rd (.var .T))) (.sub (.sub (.add (.rd (.arr .dBdT 1)) (.rd (.arr .dBdT 14))) (.rd (.arr .dBdT 9))) (.rd (.arr .dBdT 2)))))))) (.rd (.var .rhoInv))),
  .set (.arr .jac 10) (.mul (.neg (.rd (.var .jTemp))) (.num 13018939999999999 15)),
  .set (.arr .jac 3) (.add (.rd (.arr .jac 3)) (.mul (.neg (.rd (.var .jTemp))) (.num 159994 4))),
  .set (.arr .jac 15) (.mul (.rd (.var .jTemp)) (.num 28010399999999997 15)),
  .set (.arr .jac 2) (.add (.rd (.arr .jac 2)) (.mul (.rd (.var .jTemp)) (.num 10079400000000001 16)))]

/-- utilities/mechanisms/gri30/lib/src/jacobs/jacob_0.c:1219-1225 -/
def jacobT6 : List CStmt := [
  .set (.var .jTemp) (.mul (.mul (.div (.num 1 0) (.rd (.var .T))) (.sub (.mul (.rd (.arr .fwd 6)) (.neg (.num 1 0))) (.mul (.rd (.arr .rev 6)) (.add (.neg (.num 1 0)) (.mul (.neg (.rd (.var .T))) (.sub (.sub (.add (.rd (.arr .dBdT 1)) (.rd (.arr .dBdT 16))) (.rd (.arr .dBdT 10))) (.rd (.arr .dBdT 2)))))))) (.rd (.var .rhoInv))),
  .set (.arr .jac 17) (.mul (.rd (.var .jTemp)) (.num 29018339999999998 15)),
  .set (.arr .jac 2) (.add (.rd (.arr .jac 2)) (.mul (.rd (.var .jTemp)) (.num 10079400000000001 16))),
  .set (.arr .jac 11) (.mul (.neg (.rd (.var .jTemp))) (.num 14026879999999998 15)),
  .set (.arr .jac 3) (.add (.rd (.arr .jac 3)) (.mul (.neg (.rd (.var .jTemp))) (.num 159994 4)))]

/-- utilities/mechanisms/gri30/lib/src/jacobs/jacob_0.c:1446-1452 -/
def jacobT7 : List CStmt := [
  .set (.var .jTemp) (.mul (.mul (.div (.num 1 0) (.rd (.var .T))) (.sub (.mul (.rd (.arr .fwd 7)) (.neg (.num 1 0))) (.mul (.rd (.arr .rev 7)) (.add (.neg (.num 1 0)) (.mul (.neg (.rd (.var .T))) (.sub (.sub (.add (.rd (.arr .dBdT 0)) (.rd (.arr .dBdT 14))) (.rd (.arr .dBdT 11))) (.rd (.arr .dBdT 2)))))))) (.rd (.var .rhoInv))),
  .set (.arr .jac 1) (.add (.rd (.arr .jac 1)) (.mul (.rd (.var .jTemp)) (.num 20158800000000001 16))),
  .set (.arr .jac 3) (.add (.rd (.arr .jac 3)) (.mul (.neg (.rd (.var .jTemp))) (.num 159994 4))),
  .set (.arr .jac 12) (.mul (.neg (.rd (.var .jTemp))) (.num 14026879999999998 15)),
  .set (.arr .jac 15) (.add (.rd (.arr .jac 15)) (.mul (.rd (.var .jTemp)) (.num 28010399999999997 15)))]

/-- utilities/mechanisms/gri30/lib/src/jacobs/jacob_0.c:1673-1679 -/
def jacobT8 : List CStmt := [
  .set (.var .jTemp) (.mul (.mul (.div (.num 1 0) (.rd (.var .T))) (.sub (.mul (.rd (.arr .fwd 8)) (.neg (.num 1 0))) (.mul (.rd (.arr .rev 8)) (.add (.neg (.num 1 0)) (.mul (.neg (.rd (.var .T))) (.sub (.sub (.add (.rd (.arr .dBdT 1)) (.rd (.arr .dBdT 16))) (.rd (.arr .dBdT 11))) (.rd (.arr .dBdT 2)))))))) (.rd (.var .rhoInv))),
  .set (.arr .jac 17) (.add (.rd (.arr .jac 17)) (.mul (.rd (.var .jTemp)) (.num 29018339999999998 15))),
  .set (.arr .jac 2) (.add (.rd (.arr .jac 2)) (.mul (.rd (.var .jTemp)) (.num 10079400000000001 16))),
  .set (.arr .jac 3) (.add (.rd (.arr .jac 3)) (.mul (.neg (.rd (.var .jTemp))) (.num 159994 4))),
  .set (.arr .jac 12) (.add (.rd (.arr .jac 12)) (.mul (.neg (.rd (.var .jTemp))) (.num 14026879999999998 15)))]

/-- utilities/mechanisms/gri30/lib/src/jacobs/jacob_0.c:1900-1906 -/
def jacobT9 : List CStmt := [
  .set (.var .jTemp) (.mul (.mul (.div (.num 1 0) (.rd (.var .T))) (.sub (.mul (.rd (.arr .fwd 9)) (.neg (.num 1 0))) (.mul (.rd (.arr .rev 9)) (.add (.neg (.num 1 0)) (.mul (.neg (.rd (.var .T))) (.sub (.sub (.add (.rd (.arr .dBdT 17)) (.rd (.arr .dBdT 1))) (.rd (.arr .dBdT 12))) (.rd (.arr .dBdT 2)))))))) (.rd (.var .rhoInv))),
  .set (.arr .jac 18) (.mul (.rd (.var .jTemp)) (.num 3002628 5)),
  .set (.arr .jac 3) (.add (.rd (.arr .jac 3)) (.mul (.neg (.rd (.var .jTemp))) (.num 159994 4))),
  .set (.arr .jac 13) (.mul (.neg (.rd (.var .jTemp))) (.num 1503482 5)),
  .set (.arr .jac 2) (.add (.rd (.arr .jac 2)) (.mul (.rd (.var .jTemp)) (.num 10079400000000001 16)))]

/-- utilities/mechanisms/gri30/lib/src/jacobs/jacob_0.c:2127-2133 -/
def jacobT10 : List CStmt := [
  .set (.var .jTemp) (.mul (.mul (.div (.num 1 0) (.rd (.var .T))) (.sub (.add (.mul (.sub (.rd (.arr .fwd 10)) (.rd (.arr .rev 10))) (.add (.num 15 1) (.div (.num 43276882577887991 13) (.rd (.var .T))))) (.mul (.rd (.arr .fwd 10)) (.neg (.num 1 0)))) (.mul (.rd (.arr .rev 10)) (.add (.neg (.num 1 0)) (.mul (.neg (.rd (.var .T))) (.sub (.sub (.add (.rd (.arr .dBdT 12)) (.rd (.arr .dBdT 4))) (.rd (.arr .dBdT 13))) (.rd (.arr .dBdT 2)))))))) (.rd (.var .rhoInv))),
  .set (.arr .jac 5) (.add (.rd (.arr .jac 5)) (.mul (.rd (.var .jTemp)) (.num 17007339999999999 15))),
  .set (.arr .jac 3) (.add (.rd (.arr .jac 3)) (.mul (.neg (.rd (.var .jTemp))) (.num 159994 4))),
  .set (.arr .jac 13) (.add (.rd (.arr .jac 13)) (.mul (.rd (.var .jTemp)) (.num 1503482 5))),
  .set (.arr .jac 14) (.mul (.neg (.rd (.var .jTemp))) (.num 16042760000000001 15))]

/-- utilities/mechanisms/gri30/lib/src/jacobs/jacob_0.c:2354-2361 -/
def jacobT11 : List CStmt := [
  .set (.var .concTemp) (.sub (.add (.add (.add (.add (.add (.add (.add (.rd (.var .m)) (.mul (.num 1 0) (.rd (.arr .C 0)))) (.mul (.num 5 0) (.rd (.arr .C 3)))) (.mul (.num 5 0) (.rd (.arr .C 5)))) (.mul (.num 1 0) (.rd (.arr .C 13)))) (.mul (.num 5 1) (.rd (.arr .C 14)))) (.mul (.num 25 1) (.rd (.arr .C 15)))) (.mul (.num 2 0) (.rd (.arr .C 26)))) (.mul (.num 5 1) (.rd (.arr .C 47)))),
  .set (.var .Pr) (.mul (.rd (.var .concTemp)) (.exp (.sub (.num 35098856874126563 16) (.div (.num 3094800323883851 13) (.rd (.var .T)))))),
  .set (.var .jTemp) (.mul (.add (.mul (.mul (.rd (.arr .presMod 2)) (.div (.sub (.add (.num 0 0) (.div (.num 3094800323883851 13) (.rd (.var .T)))) (.num 1 0)) (.mul (.rd (.var .T)) (.add (.num 1 0) (.rd (.var .Pr)))))) (.sub (.rd (.arr .fwd 11)) (.rd (.arr .rev 11)))) (.mul (.div (.rd (.arr .presMod 2)) (.rd (.var .T))) (.sub (.add (.mul (.sub (.rd (.arr .fwd 11)) (.rd (.arr .rev 11))) (.div (.num 12001786621891029 13) (.rd (.var .T)))) (.mul (.rd (.arr .fwd 11)) (.neg (.num 1 0)))) (.mul (.rd (.arr .rev 11)) (.mul (.neg (.rd (.var .T))) (.sub (.sub (.rd (.arr .dBdT 15)) (.rd (.arr .dBdT 14))) (.rd (.arr .dBdT 2)))))))) (.rd (.var .rhoInv))),
  .set (.arr .jac 3) (.add (.rd (.arr .jac 3)) (.mul (.neg (.rd (.var .jTemp))) (.num 159994 4))),
  .set (.arr .jac 15) (.add (.rd (.arr .jac 15)) (.mul (.neg (.rd (.var .jTemp))) (.num 28010399999999997 15))),
  .set (.arr .jac 16) (.mul (.rd (.var .jTemp)) (.num 44009799999999998 15))]

/-- utilities/mechanisms/gri30/lib/src/jacobs/jacob_0.c:2532-2538 -/
def jacobT12 : List CStmt := [
  .set (.var .jTemp) (.mul (.mul (.div (.num 1 0) (.rd (.var .T))) (.sub (.mul (.rd (.arr .fwd 12)) (.neg (.num 1 0))) (.mul (.rd (.arr .rev 12)) (.add (.neg (.num 1 0)) (.mul (.neg (.rd (.var .T))) (.sub (.sub (.add (.rd (.arr .dBdT 14)) (.rd (.arr .dBdT 4))) (.rd (.arr .dBdT 16))) (.rd (.arr .dBdT 2)))))))) (.rd (.var .rhoInv))),
  .set (.arr .jac 17) (.add (.rd (.arr .jac 17)) (.mul (.neg (.rd (.var .jTemp))) (.num 29018339999999998 15))),
  .set (.arr .jac 3) (.add (.rd (.arr .jac 3)) (.mul (.neg (.rd (.var .jTemp))) (.num 159994 4))),
  .set (.arr .jac 5) (.add (.rd (.arr .jac 5)) (.mul (.rd (.var .jTemp)) (.num 17007339999999999 15))),
  .set (.arr .jac 15) (.add (.rd (.arr .jac 15)) (.mul (.rd (.var .jTemp)) (.num 28010399999999997 15)))]

/-- utilities/mechanisms/gri30/lib/src/jacobs/jacob_0.c:2759-2765 -/
def jacobT13 : List CStmt := [
  .set (.var .jTemp) (.mul (.mul (.div (.num 1 0) (.rd (.var .T))) (.sub (.mul (.rd (.arr .fwd 13)) (.neg (.num 1 0))) (.mul (.rd (.arr .rev 13)) (.add (.neg (.num 1 0)) (.mul (.neg (.rd (.var .T))) (.sub (.sub (.add (.rd (.arr .dBdT 1)) (.rd (.arr .dBdT 15))) (.rd (.arr .dBdT 16))) (.rd (.arr .dBdT 2)))))))) (.rd (.var .rhoInv))),
  .set (.arr .jac 17) (.add (.rd (.arr .jac 17)) (.mul (.neg (.rd (.var .jTemp))) (.num 29018339999999998 15))),
  .set (.arr .jac 2) (.add (.rd (.arr .jac 2)) (.mul (.rd (.var .jTemp)) (.num 10079400000000001 16))),
  .set (.arr .jac 3) (.add (.rd (.arr .jac 3)) (.mul (.neg (.rd (.var .jTemp))) (.num 159994 4))),
  .set (.arr .jac 16) (.add (.rd (.arr .jac 16)) (.mul (.rd (.var .jTemp)) (.num 44009799999999998 15)))]

/-- utilities/mechanisms/gri30/lib/src/jacobs/jacob_0.c:2986-2992 -/
def jacobT14 : List CStmt := [
  .set (.var .jTemp) (.mul (.mul (.div (.num 1 0) (.rd (.var .T))) (.sub (.add (.mul (.sub (.rd (.arr .fwd 14)) (.rd (.arr .rev 14))) (.div (.num 17813972596014357 13) (.rd (.var .T)))) (.mul (.rd (.arr .fwd 14)) (.neg (.num 1 0)))) (.mul (.rd (.arr .rev 14)) (.add (.neg (.num 1 0)) (.mul (.neg (.rd (.var .T))) (.sub (.sub (.add (.rd (.arr .dBdT 16)) (.rd (.arr .dBdT 4))) (.rd (.arr .dBdT 17))) (.rd (.arr .dBdT 2)))))))) (.rd (.var .rhoInv))),
  .set (.arr .jac 17) (.add (.rd (.arr .jac 17)) (.mul (.rd (.var .jTemp)) (.num 29018339999999998 15))),
  .set (.arr .jac 18) (.add (.rd (.arr .jac 18)) (.mul (.neg (.rd (.var .jTemp))) (.num 3002628 5))),
  .set (.arr .jac 3) (.add (.rd (.arr .jac 3)) (.mul (.neg (.rd (.var .jTemp))) (.num 159994 4))),
  .set (.arr .jac 5) (.add (.rd (.arr .jac 5)) (.mul (.rd (.var .jTemp)) (.num 17007339999999999 15)))]

/-- utilities/mechanisms/gri30/lib/src/jacobs/jacob_0.c:3213-3219 -/
def jacobT15 : List CStmt := [
  .set (.var .jTemp) (.mul (.mul (.div (.num 1 0) (.rd (.var .T))) (.sub (.mul (.rd (.arr .fwd 15)) (.neg (.num 1 0))) (.mul (.rd (.arr .rev 15)) (.add (.neg (.num 1 0)) (.mul (.neg (.rd (.var .T))) (.sub (.sub (.add (.rd (.arr .dBdT 17)) (.rd (.arr .dBdT 4))) (.rd (.arr .dBdT 18))) (.rd (.arr .dBdT 2)))))))) (.rd (.var .rhoInv))),
  .set (.arr .jac 18) (.add (.rd (.arr .jac 18)) (.mul (.rd (.var .jTemp)) (.num 3002628 5))),
  .set (.arr .jac 19) (.mul (.neg (.rd (.var .jTemp))) (.num 31034219999999998 15)),
  .set (.arr .jac 5) (.add (.rd (.arr .jac 5)) (.mul (.rd (.var .jTemp)) (.num 17007339999999999 15))),
  .set (.arr .jac 3) (.add (.rd (.arr .jac 3)) (.mul (.neg (.rd (.var .jTemp))) (.num 159994 4)))]

/-- utilities/mechanisms/gri30/lib/src/jacobs/jacob_0.c:3440-3446 -/
def jacobT16 : List CStmt := [
  .set (.var .jTemp) (.mul (.mul (.div (.num 1 0) (.rd (.var .T))) (.sub (.mul (.rd (.arr .fwd 16)) (.neg (.num 1 0))) (.mul (.rd (.arr .rev 16)) (.add (.neg (.num 1 0)) (.mul (.neg (.rd (.var .T))) (.sub (.sub (.add (.rd (.arr .dBdT 17)) (.rd (.arr .dBdT 4))) (.rd (.arr .dBdT 19))) (.rd (.arr .dBdT 2)))))))) (.rd (.var .rhoInv))),
  .set (.arr .jac 18) (.add (.rd (.arr .jac 18)) (.mul (.rd (.var .jTemp)) (.num 3002628 5))),
  .set (.arr .jac 3) (.add (.rd (.arr .jac 3)) (.mul (.neg (.rd (.var .jTemp))) (.num 159994 4))),
  .set (.arr .jac 20) (.mul (.neg (.rd (.var .jTemp))) (.num 31034219999999998 15)),
  .set (.arr .jac 5) (.add (.rd (.arr .jac 5)) (.mul (.rd (.var .jTemp)) (.num 17007339999999999 15)))]

/-- utilities/mechanisms/gri30/lib/src/jacobs/jacob_0.c:3667-3673 -/
def jacobT17 : List CStmt := [
  .set (.var .jTemp) (.mul (.mul (.div (.num 1 0) (.rd (.var .T))) (.sub (.add (.mul (.sub (.rd (.arr .fwd 17)) (.rd (.arr .rev 17))) (.add (.num 25 1) (.div (.num 15599806510634041 13) (.rd (.var .T))))) (.mul (.rd (.arr .fwd 17)) (.neg (.num 1 0)))) (.mul (.rd (.arr .rev 17)) (.add (.neg (.num 1 0)) (.mul (.neg (.rd (.var .T))) (.sub (.sub (.add (.rd (.arr .dBdT 18)) (.rd (.arr .dBdT 4))) (.rd (.arr .dBdT 20))) (.rd (.arr .dBdT 2)))))))) (.rd (.var .rhoInv))),
  .set (.arr .jac 5) (.add (.rd (.arr .jac 5)) (.mul (.rd (.var .jTemp)) (.num 17007339999999999 15))),
  .set (.arr .jac 3) (.add (.rd (.arr .jac 3)) (.mul (.neg (.rd (.var .jTemp))) (.num 159994 4))),
  .set (.arr .jac 21) (.mul (.neg (.rd (.var .jTemp))) (.num 32042159999999996 15)),
  .set (.arr .jac 19) (.add (.rd (.arr .jac 19)) (.mul (.rd (.var .jTemp)) (.num 31034219999999998 15)))]

/-- utilities/mechanisms/gri30/lib/src/jacobs/jacob_0.c:3894-3900 -/
def jacobT18 : List CStmt := [
  .set (.var .jTemp) (.mul (.mul (.div (.num 1 0) (.rd (.var .T))) (.sub (.add (.mul (.sub (.rd (.arr .fwd 18)) (.rd (.arr .rev 18))) (.add (.num 25 1) (.div (.num 25160978242958131 13) (.rd (.var .T))))) (.mul (.rd (.arr .fwd 18)) (.neg (.num 1 0)))) (.mul (.rd (.arr .rev 18)) (.add (.neg (.num 1 0)) (.mul (.neg (.rd (.var .T))) (.sub (.sub (.add (.rd (.arr .dBdT 19)) (.rd (.arr .dBdT 4))) (.rd (.arr .dBdT 20))) (.rd (.arr .dBdT 2)))))))) (.rd (.var .rhoInv))),
  .set (.arr .jac 5) (.add (.rd (.arr .jac 5)) (.mul (.rd (.var .jTemp)) (.num 17007339999999999 15))),
  .set (.arr .jac 3) (.add (.rd (.arr .jac 3)) (.mul (.neg (.rd (.var .jTemp))) (.num 159994 4))),
  .set (.arr .jac 20) (.add (.rd (.arr .jac 20)) (.mul (.rd (.var .jTemp)) (.num 31034219999999998 15))),
  .set (.arr .jac 21) (.add (.rd (.arr .jac 21)) (.mul (.neg (.rd (.var .jTemp))) (.num 32042159999999996 15)))]

/-- utilities/mechanisms/gri30/lib/src/jacobs/jacob_0.c:4121-4127 -/
def jacobT19 : List CStmt := [
  .set (.var .jTemp) (.mul (.mul (.div (.num 1 0) (.rd (.var .T))) (.sub (.mul (.rd (.arr .fwd 19)) (.neg (.num 1 0))) (.mul (.rd (.arr .rev 19)) (.add (.neg (.num 1 0)) (.mul (.neg (.rd (.var .T))) (.sub (.sub (.add (.rd (.arr .dBdT 9)) (.rd (.arr .dBdT 14))) (.rd (.arr .dBdT 21))) (.rd (.arr .dBdT 2)))))))) (.rd (.var .rhoInv))),
  .set (.arr .jac 10) (.add (.rd (.arr .jac 10)) (.mul (.rd (.var .jTemp)) (.num 13018939999999999 15))),
  .set (.arr .jac 3) (.add (.rd (.arr .jac 3)) (.mul (.neg (.rd (.var .jTemp))) (.num 159994 4))),
  .set (.arr .jac 22) (.mul (.neg (.rd (.var .jTemp))) (.num 2502994 5)),
  .set (.arr .jac 15) (.add (.rd (.arr .jac 15)) (.mul (.rd (.var .jTemp)) (.num 28010399999999997 15)))]

/-- utilities/mechanisms/gri30/lib/src/jacobs/jacob_0.c:4348-4354 -/
def jacobT20 : List CStmt := [
  .set (.var .jTemp) (.mul (.mul (.div (.num 1 0) (.rd (.var .T))) (.sub (.add (.mul (.sub (.rd (.arr .fwd 20)) (.rd (.arr .rev 20))) (.add (.num 2 0) (.div (.num 95611717323240896 14) (.rd (.var .T))))) (.mul (.rd (.arr .fwd 20)) (.neg (.num 1 0)))) (.mul (.rd (.arr .rev 20)) (.add (.neg (.num 1 0)) (.mul (.neg (.rd (.var .T))) (.sub (.sub (.add (.rd (.arr .dBdT 1)) (.rd (.arr .dBdT 27))) (.rd (.arr .dBdT 22))) (.rd (.arr .dBdT 2)))))))) (.rd (.var .rhoInv))),
  .set (.arr .jac 2) (.add (.rd (.arr .jac 2)) (.mul (.rd (.var .jTemp)) (.num 10079400000000001 16))),
  .set (.arr .jac 3) (.add (.rd (.arr .jac 3)) (.mul (.neg (.rd (.var .jTemp))) (.num 159994 4))),
  .set (.arr .jac 28) (.mul (.rd (.var .jTemp)) (.num 41029339999999998 15)),
  .set (.arr .jac 23) (.mul (.neg (.rd (.var .jTemp))) (.num 26037879999999998 15))]

/-- utilities/mechanisms/gri30/lib/src/jacobs/jacob_0.c:4575-4581 -/
def jacobT21 : List CStmt := [
  .set (.var .jTemp) (.mul (.mul (.div (.num 1 0) (.rd (.var .T))) (.sub (.add (.mul (.sub (.rd (.arr .fwd 21)) (.rd (.arr .rev 21))) (.add (.neg (.num 14099999999999999 16)) (.div (.num 14568206402672758 12) (.rd (.var .T))))) (.mul (.rd (.arr .fwd 21)) (.neg (.num 1 0)))) (.mul (.rd (.arr .rev 21)) (.add (.neg (.num 1 0)) (.mul (.neg (.rd (.var .T))) (.sub (.sub (.add (.rd (.arr .dBdT 21)) (.rd (.arr .dBdT 4))) (.rd (.arr .dBdT 22))) (.rd (.arr .dBdT 2)))))))) (.rd (.var .rhoInv))),
  .set (.arr .jac 3) (.add (.rd (.arr .jac 3)) (.mul (.neg (.rd (.var .jTemp))) (.num 159994 4))),
  .set (.arr .jac 5) (.add (.rd (.arr .jac 5)) (.mul (.rd (.var .jTemp)) (.num 17007339999999999 15))),
  .set (.arr .jac 22) (.add (.rd (.arr .jac 22)) (.mul (.rd (.var .jTemp)) (.num 2502994 5))),
  .set (.arr .jac 23) (.add (.rd (.arr .jac 23)) (.mul (.neg (.rd (.var .jTemp))) (.num 26037879999999998 15)))]

/-- utilities/mechanisms/gri30/lib/src/jacobs/jacob_0.c:4802-4808 -/
def jacobT22 : List CStmt := [
  .set (.var .jTemp) (.mul (.mul (.div (.num 1 0) (.rd (.var .T))) (.sub (.add (.mul (.sub (.rd (.arr .fwd 22)) (.rd (.arr .rev 22))) (.add (.num 2 0) (.div (.num 95611717323240896 14) (.rd (.var .T))))) (.mul (.rd (.arr .fwd 22)) (.neg (.num 1 0)))) (.mul (.rd (.arr .rev 22)) (.add (.neg (.num 1 0)) (.mul (.neg (.rd (.var .T))) (.sub (.sub (.add (.rd (.arr .dBdT 10)) (.rd (.arr .dBdT 14))) (.rd (.arr .dBdT 22))) (.rd (.arr .dBdT 2)))))))) (.rd (.var .rhoInv))),
  .set (.arr .jac 3) (.add (.rd (.arr .jac 3)) (.mul (.neg (.rd (.var .jTemp))) (.num 159994 4))),
  .set (.arr .jac 15) (.add (.rd (.arr .jac 15)) (.mul (.rd (.var .jTemp)) (.num 28010399999999997 15))),
  .set (.arr .jac 11) (.add (.rd (.arr .jac 11)) (.mul (.rd (.var .jTemp)) (.num 14026879999999998 15))),
  .set (.arr .jac 23) (.add (.rd (.arr .jac 23)) (.mul (.neg (.rd (.var .jTemp))) (.num 26037879999999998 15)))]

/-- utilities/mechanisms/gri30/lib/src/jacobs/jacob_0.c:5029-5035 -/
def jacobT23 : List CStmt := [
  .set (.var .jTemp) (.mul (.mul (.div (.num 1 0) (.rd (.var .T))) (.sub (.mul (.rd (.arr .fwd 23)) (.neg (.num 1 0))) (.mul (.rd (.arr .rev 23)) (.add (.neg (.num 1 0)) (.mul (.neg (.rd (.var .T))) (.sub (.sub (.add (.rd (.arr .dBdT 1)) (.rd (.arr .dBdT 28))) (.rd (.arr .dBdT 23))) (.rd (.arr .dBdT 2)))))))) (.rd (.var .rhoInv))),
  .set (.arr .jac 2) (.add (.rd (.arr .jac 2)) (.mul (.rd (.var .jTemp)) (.num 10079400000000001 16))),
  .set (.arr .jac 3) (.add (.rd (.arr .jac 3)) (.mul (.neg (.rd (.var .jTemp))) (.num 159994 4))),
  .set (.arr .jac 29) (.mul (.rd (.var .jTemp)) (.num 42037279999999996 15)),
  .set (.arr .jac 24) (.mul (.neg (.rd (.var .jTemp))) (.num 27045819999999999 15))]

/-- utilities/mechanisms/gri30/lib/src/jacobs/jacob_0.c:5256-5262 -/
def jacobT24 : List CStmt := [
  .set (.var .jTemp) (.mul (.mul (.div (.num 1 0) (.rd (.var .T))) (.sub (.add (.mul (.sub (.rd (.arr .fwd 24)) (.rd (.arr .rev 24))) (.add (.num 18300000000000001 16) (.div (.num 11070830426901578 14) (.rd (.var .T))))) (.mul (.rd (.arr .fwd 24)) (.neg (.num 1 0)))) (.mul (.rd (.arr .rev 24)) (.add (.neg (.num 1 0)) (.mul (.neg (.rd (.var .T))) (.sub (.sub (.add (.rd (.arr .dBdT 12)) (.rd (.arr .dBdT 16))) (.rd (.arr .dBdT 24))) (.rd (.arr .dBdT 2)))))))) (.rd (.var .rhoInv))),
  .set (.arr .jac 25) (.mul (.neg (.rd (.var .jTemp))) (.num 28053759999999997 15)),
  .set (.arr .jac 17) (.add (.rd (.arr .jac 17)) (.mul (.rd (.var .jTemp)) (.num 29018339999999998 15))),
  .set (.arr .jac 3) (.add (.rd (.arr .jac 3)) (.mul (.neg (.rd (.var .jTemp))) (.num 159994 4))),
  .set (.arr .jac 13) (.add (.rd (.arr .jac 13)) (.mul (.rd (.var .jTemp)) (.num 1503482 5)))]

/-- utilities/mechanisms/gri30/lib/src/jacobs/jacob_0.c:5483-5489 -/
def jacobT25 : List CStmt := [
  .set (.var .jTemp) (.mul (.mul (.div (.num 1 0) (.rd (.var .T))) (.sub (.mul (.rd (.arr .fwd 25)) (.neg (.num 1 0))) (.mul (.rd (.arr .rev 25)) (.add (.neg (.num 1 0)) (.mul (.neg (.rd (.var .T))) (.sub (.sub (.add (.rd (.arr .dBdT 17)) (.rd (.arr .dBdT 12))) (.rd (.arr .dBdT 25))) (.rd (.arr .dBdT 2)))))))) (.rd (.var .rhoInv))),
  .set (.arr .jac 26) (.mul (.neg (.rd (.var .jTemp))) (.num 29061699999999998 15)),
  .set (.arr .jac 3) (.add (.rd (.arr .jac 3)) (.mul (.neg (.rd (.var .jTemp))) (.num 159994 4))),
  .set (.arr .jac 13) (.add (.rd (.arr .jac 13)) (.mul (.rd (.var .jTemp)) (.num 1503482 5))),
  .set (.arr .jac 18) (.add (.rd (.arr .jac 18)) (.mul (.rd (.var .jTemp)) (.num 3002628 5)))]

/-- utilities/mechanisms/gri30/lib/src/jacobs/jacob_0.c:5710-5716 -/
def jacobT26 : List CStmt := [
  .set (.var .jTemp) (.mul (.mul (.div (.num 1 0) (.rd (.var .T))) (.sub (.add (.mul (.sub (.rd (.arr .fwd 26)) (.rd (.arr .rev 26))) (.add (.num 19199999999999999 16) (.div (.num 28633193240486353 13) (.rd (.var .T))))) (.mul (.rd (.arr .fwd 26)) (.neg (.num 1 0)))) (.mul (.rd (.arr .rev 26)) (.add (.neg (.num 1 0)) (.mul (.neg (.rd (.var .T))) (.sub (.sub (.add (.rd (.arr .dBdT 25)) (.rd (.arr .dBdT 4))) (.rd (.arr .dBdT 26))) (.rd (.arr .dBdT 2)))))))) (.rd (.var .rhoInv))),
  .set (.arr .jac 26) (.add (.rd (.arr .jac 26)) (.mul (.rd (.var .jTemp)) (.num 29061699999999998 15))),
  .set (.arr .jac 27) (.mul (.neg (.rd (.var .jTemp))) (.num 3006964 5)),
  .set (.arr .jac 5) (.add (.rd (.arr .jac 5)) (.mul (.rd (.var .jTemp)) (.num 17007339999999999 15))),
  .set (.arr .jac 3) (.add (.rd (.arr .jac 3)) (.mul (.neg (.rd (.var .jTemp))) (.num 159994 4)))]

/-- utilities/mechanisms/gri30/lib/src/jacobs/jacob_0.c:5937-5943 -/
def jacobT27 : List CStmt := [
  .set (.var .jTemp) (.mul (.mul (.div (.num 1 0) (.rd (.var .T))) (.sub (.mul (.rd (.arr .fwd 27)) (.neg (.num 1 0))) (.mul (.rd (.arr .rev 27)) (.add (.neg (.num 2 0)) (.mul (.neg (.rd (.var .T))) (.sub (.sub (.add (.rd (.arr .dBdT 1)) (.mul (.num 2 0) (.rd (.arr .dBdT 14)))) (.rd (.arr .dBdT 27))) (.rd (.arr .dBdT 2)))))))) (.rd (.var .rhoInv))),
  .set (.arr .jac 2) (.add (.rd (.arr .jac 2)) (.mul (.rd (.var .jTemp)) (.num 10079400000000001 16))),
  .set (.arr .jac 3) (.add (.rd (.arr .jac 3)) (.mul (.neg (.rd (.var .jTemp))) (.num 159994 4))),
  .set (.arr .jac 28) (.add (.rd (.arr .jac 28)) (.mul (.neg (.rd (.var .jTemp))) (.num 41029339999999998 15))),
  .set (.arr .jac 15) (.add (.rd (.arr .jac 15)) (.mul (.mul (.rd (.var .jTemp)) (.num 2 0)) (.num 28010399999999997 15)))]

/-- utilities/mechanisms/gri30/lib/src/jacobs/jacob_0.c:6164-6170 -/
def jacobT28 : List CStmt := [
  .set (.var .jTemp) (.mul (.mul (.div (.num 1 0) (.rd (.var .T))) (.sub (.add (.mul (.sub (.rd (.arr .fwd 28)) (.rd (.arr .rev 28))) (.div (.num 4025756518873301 12) (.rd (.var .T)))) (.mul (.rd (.arr .fwd 28)) (.neg (.num 1 0)))) (.mul (.rd (.arr .rev 28)) (.add (.neg (.num 1 0)) (.mul (.neg (.rd (.var .T))) (.sub (.sub (.add (.rd (.arr .dBdT 27)) (.rd (.arr .dBdT 4))) (.rd (.arr .dBdT 28))) (.rd (.arr .dBdT 2)))))))) (.rd (.var .rhoInv))),
  .set (.arr .jac 5) (.add (.rd (.arr .jac 5)) (.mul (.rd (.var .jTemp)) (.num 17007339999999999 15))),
  .set (.arr .jac 3) (.add (.rd (.arr .jac 3)) (.mul (.neg (.rd (.var .jTemp))) (.num 159994 4))),
  .set (.arr .jac 28) (.add (.rd (.arr .jac 28)) (.mul (.rd (.var .jTemp)) (.num 41029339999999998 15))),
  .set (.arr .jac 29) (.add (.rd (.arr .jac 29)) (.mul (.neg (.rd (.var .jTemp))) (.num 42037279999999996 15)))]

/-- utilities/mechanisms/gri30/lib/src/jacobs/jacob_0.c:6391-6397 -/
def jacobT29 : List CStmt := [
  .set (.var .jTemp) (.mul (.mul (.div (.num 1 0) (.rd (.var .T))) (.sub (.add (.mul (.sub (.rd (.arr .fwd 29)) (.rd (.arr .rev 29))) (.div (.num 67934641255986958 14) (.rd (.var .T)))) (.mul (.rd (.arr .fwd 29)) (.neg (.num 1 0)))) (.mul (.rd (.arr .rev 29)) (.add (.neg (.num 1 0)) (.mul (.neg (.rd (.var .T))) (.sub (.sub (.add (.rd (.arr .dBdT 10)) (.rd (.arr .dBdT 15))) (.rd (.arr .dBdT 28))) (.rd (.arr .dBdT 2)))))))) (.rd (.var .rhoInv))),
  .set (.arr .jac 3) (.add (.rd (.arr .jac 3)) (.mul (.neg (.rd (.var .jTemp))) (.num 159994 4))),
  .set (.arr .jac 29) (.add (.rd (.arr .jac 29)) (.mul (.neg (.rd (.var .jTemp))) (.num 42037279999999996 15))),
  .set (.arr .jac 11) (.add (.rd (.arr .jac 11)) (.mul (.rd (.var .jTemp)) (.num 14026879999999998 15))),
  .set (.arr .jac 16) (.add (.rd (.arr .jac 16)) (.mul (.rd (.var .jTemp)) (.num 44009799999999998 15)))]

/-- utilities/mechanisms/gri30/lib/src/jacobs/jacob_0.c:6618-6624 -/
def jacobT30 : List CStmt := [
  .set (.var .jTemp) (.mul (.mul (.div (.num 1 0) (.rd (.var .T))) (.sub (.add (.mul (.sub (.rd (.arr .fwd 30)) (.rd (.arr .rev 30))) (.div (.num 24053895200267973 12) (.rd (.var .T)))) (.mul (.rd (.arr .fwd 30)) (.neg (.num 1 0)))) (.mul (.rd (.arr .rev 30)) (.add (.neg (.num 1 0)) (.mul (.neg (.rd (.var .T))) (.sub (.sub (.add (.rd (.arr .dBdT 15)) (.rd (.arr .dBdT 2))) (.rd (.arr .dBdT 14))) (.rd (.arr .dBdT 3)))))))) (.rd (.var .rhoInv))),
  .set (.arr .jac 3) (.add (.rd (.arr .jac 3)) (.mul (.rd (.var .jTemp)) (.num 159994 4))),
  .set (.arr .jac 4) (.add (.rd (.arr .jac 4)) (.mul (.neg (.rd (.var .jTemp))) (.num 31998799999999999 15))),
  .set (.arr .jac 15) (.add (.rd (.arr .jac 15)) (.mul (.neg (.rd (.var .jTemp))) (.num 28010399999999997 15))),
  .set (.arr .jac 16) (.add (.rd (.arr .jac 16)) (.mul (.rd (.var .jTemp)) (.num 44009799999999998 15)))]

/-- utilities/mechanisms/gri30/lib/src/jacobs/jacob_0.c:6845-6851 -/
def jacobT31 : List CStmt := [
  .set (.var .jTemp) (.mul (.mul (.div (.num 1 0) (.rd (.var .T))) (.sub (.add (.mul (.sub (.rd (.arr .fwd 31)) (.rd (.arr .rev 31))) (.div (.num 20128782594366505 12) (.rd (.var .T)))) (.mul (.rd (.arr .fwd 31)) (.neg (.num 1 0)))) (.mul (.rd (.arr .rev 31)) (.add (.neg (.num 1 0)) (.mul (.neg (.rd (.var .T))) (.sub (.sub (.add (.rd (.arr .dBdT 6)) (.rd (.arr .dBdT 16))) (.rd (.arr .dBdT 17))) (.rd (.arr .dBdT 3)))))))) (.rd (.var .rhoInv))),
  .set (.arr .jac 17) (.add (.rd (.arr .jac 17)) (.mul (.rd (.var .jTemp)) (.num 29018339999999998 15))),
  .set (.arr .jac 18) (.add (.rd (.arr .jac 18)) (.mul (.neg (.rd (.var .jTemp))) (.num 3002628 5))),
  .set (.arr .jac 4) (.add (.rd (.arr .jac 4)) (.mul (.neg (.rd (.var .jTemp))) (.num 31998799999999999 15))),
  .set (.arr .jac 7) (.add (.rd (.arr .jac 7)) (.mul (.rd (.var .jTemp)) (.num 33006740000000001 15)))]

/-- utilities/mechanisms/gri30/lib/src/jacobs/jacob_0.c:7072-7077 -/
def jacobT32 : List CStmt := [
  .set (.var .jTemp) (.mul (.add (.div (.mul (.neg (.rd (.arr .presMod 3))) (.sub (.rd (.arr .fwd 32)) (.rd (.arr .rev 32)))) (.rd (.var .T))) (.mul (.div (.rd (.arr .presMod 3)) (.rd (.var .T))) (.sub (.add (.mul (.sub (.rd (.arr .fwd 32)) (.rd (.arr .rev 32))) (.neg (.num 85999999999999999 17))) (.mul (.rd (.arr .fwd 32)) (.neg (.num 1 0)))) (.mul (.rd (.arr .rev 32)) (.mul (.neg (.rd (.var .T))) (.sub (.sub (.rd (.arr .dBdT 6)) (.rd (.arr .dBdT 1))) (.rd (.arr .dBdT 3)))))))) (.rd (.var .rhoInv))),
  .set (.arr .jac 2) (.add (.rd (.arr .jac 2)) (.mul (.neg (.rd (.var .jTemp))) (.num 10079400000000001 16))),
  .set (.arr .jac 4) (.add (.rd (.arr .jac 4)) (.mul (.neg (.rd (.var .jTemp))) (.num 31998799999999999 15))),
  .set (.arr .jac 7) (.add (.rd (.arr .jac 7)) (.mul (.rd (.var .jTemp)) (.num 33006740000000001 15)))]

/-- utilities/mechanisms/gri30/lib/src/jacobs/jacob_0.c:7247-7252 -/
def jacobT33 : List CStmt := [
  .set (.var .jTemp) (.mul (.mul (.div (.num 1 0) (.rd (.var .T))) (.sub (.add (.mul (.sub (.rd (.arr .fwd 33)) (.rd (.arr .rev 33))) (.neg (.num 124 2))) (.mul (.rd (.arr .fwd 33)) (.neg (.num 2 0)))) (.mul (.rd (.arr .rev 33)) (.add (.neg (.num 1 0)) (.mul (.neg (.rd (.var .T))) (.sub (.sub (.rd (.arr .dBdT 6)) (.rd (.arr .dBdT 3))) (.rd (.arr .dBdT 1)))))))) (.rd (.var .rhoInv))),
  .set (.arr .jac 2) (.add (.rd (.arr .jac 2)) (.mul (.neg (.rd (.var .jTemp))) (.num 10079400000000001 16))),
  .set (.arr .jac 4) (.add (.rd (.arr .jac 4)) (.mul (.neg (.rd (.var .jTemp))) (.num 31998799999999999 15))),
  .set (.arr .jac 7) (.add (.rd (.arr .jac 7)) (.mul (.rd (.var .jTemp)) (.num 33006740000000001 15)))]

/-- utilities/mechanisms/gri30/lib/src/jacobs/jacob_0.c:7421-7426 -/
def jacobT34 : List CStmt := [
  .set (.var .jTemp) (.mul (.mul (.div (.num 1 0) (.rd (.var .T))) (.sub (.add (.mul (.sub (.rd (.arr .fwd 34)) (.rd (.arr .rev 34))) (.neg (.num 76000000000000001 17))) (.mul (.rd (.arr .fwd 34)) (.neg (.num 2 0)))) (.mul (.rd (.arr .rev 34)) (.add (.neg (.num 1 0)) (.mul (.neg (.rd (.var .T))) (.sub (.sub (.rd (.arr .dBdT 6)) (.rd (.arr .dBdT 1))) (.rd (.arr .dBdT 3)))))))) (.rd (.var .rhoInv))),
  .set (.arr .jac 2) (.add (.rd (.arr .jac 2)) (.mul (.neg (.rd (.var .jTemp))) (.num 10079400000000001 16))),
  .set (.arr .jac 4) (.add (.rd (.arr .jac 4)) (.mul (.neg (.rd (.var .jTemp))) (.num 31998799999999999 15))),
  .set (.arr .jac 7) (.add (.rd (.arr .jac 7)) (.mul (.rd (.var .jTemp)) (.num 33006740000000001 15)))]

/-- utilities/mechanisms/gri30/lib/src/jacobs/jacob_0.c:7595-7600 -/
def jacobT35 : List CStmt := [
  .set (.var .jTemp) (.mul (.mul (.div (.num 1 0) (.rd (.var .T))) (.sub (.add (.mul (.sub (.rd (.arr .fwd 35)) (.rd (.arr .rev 35))) (.neg (.num 124 2))) (.mul (.rd (.arr .fwd 35)) (.neg (.num 2 0)))) (.mul (.rd (.arr .rev 35)) (.add (.neg (.num 1 0)) (.mul (.neg (.rd (.var .T))) (.sub (.sub (.rd (.arr .dBdT 6)) (.rd (.arr .dBdT 1))) (.rd (.arr .dBdT 3)))))))) (.rd (.var .rhoInv))),
  .set (.arr .jac 2) (.add (.rd (.arr .jac 2)) (.mul (.neg (.rd (.var .jTemp))) (.num 10079400000000001 16))),
  .set (.arr .jac 4) (.add (.rd (.arr .jac 4)) (.mul (.neg (.rd (.var .jTemp))) (.num 31998799999999999 15))),
  .set (.arr .jac 7) (.add (.rd (.arr .jac 7)) (.mul (.rd (.var .jTemp)) (.num 33006740000000001 15)))]

/-- utilities/mechanisms/gri30/lib/src/jacobs/jacob_0.c:7769-7774 -/
def jacobT36 : List CStmt := [
  .set (.var .jTemp) (.mul (.mul (.div (.num 1 0) (.rd (.var .T))) (.sub (.add (.mul (.sub (.rd (.arr .fwd 36)) (.rd (.arr .rev 36))) (.neg (.num 80000000000000004 17))) (.mul (.rd (.arr .fwd 36)) (.neg (.num 2 0)))) (.mul (.rd (.arr .rev 36)) (.add (.neg (.num 1 0)) (.mul (.neg (.rd (.var .T))) (.sub (.sub (.rd (.arr .dBdT 6)) (.rd (.arr .dBdT 1))) (.rd (.arr .dBdT 3)))))))) (.rd (.var .rhoInv))),
  .set (.arr .jac 2) (.add (.rd (.arr .jac 2)) (.mul (.neg (.rd (.var .jTemp))) (.num 10079400000000001 16))),
  .set (.arr .jac 4) (.add (.rd (.arr .jac 4)) (.mul (.neg (.rd (.var .jTemp))) (.num 31998799999999999 15))),
  .set (.arr .jac 7) (.add (.rd (.arr .jac 7)) (.mul (.rd (.var .jTemp)) (.num 33006740000000001 15)))]

/-- utilities/mechanisms/gri30/lib/src/jacobs/jacob_0.c:7943-7949 -/
def jacobT37 : List CStmt := [
  .set (.var .jTemp) (.mul (.mul (.div (.num 1 0) (.rd (.var .T))) (.sub (.add (.mul (.sub (.rd (.arr .fwd 37)) (.rd (.arr .rev 37))) (.add (.neg (.num 67069999999999996 17)) (.div (.num 85753646047649909 13) (.rd (.var .T))))) (.mul (.rd (.arr .fwd 37)) (.neg (.num 1 0)))) (.mul (.rd (.arr .rev 37)) (.add (.neg (.num 1 0)) (.mul (.neg (.rd (.var .T))) (.sub (.sub (.add (.rd (.arr .dBdT 2)) (.rd (.arr .dBdT 4))) (.rd (.arr .dBdT 1))) (.rd (.arr .dBdT 3)))))))) (.rd (.var .rhoInv))),
  .set (.arr .jac 2) (.add (.rd (.arr .jac 2)) (.mul (.neg (.rd (.var .jTemp))) (.num 10079400000000001 16))),
  .set (.arr .jac 3) (.add (.rd (.arr .jac 3)) (.mul (.rd (.var .jTemp)) (.num 159994 4))),
  .set (.arr .jac 4) (.add (.rd (.arr .jac 4)) (.mul (.neg (.rd (.var .jTemp))) (.num 31998799999999999 15))),
  .set (.arr .jac 5) (.add (.rd (.arr .jac 5)) (.mul (.rd (.var .jTemp)) (.num 17007339999999999 15)))]

/-- utilities/mechanisms/gri30/lib/src/jacobs/jacob_0.c:8170-8174 -/
def jacobT38 : List CStmt := [
  .set (.var .jTemp) (.mul (.add (.div (.mul (.neg (.rd (.arr .presMod 4))) (.sub (.rd (.arr .fwd 38)) (.rd (.arr .rev 38)))) (.rd (.var .T))) (.mul (.div (.rd (.arr .presMod 4)) (.rd (.var .T))) (.sub (.add (.mul (.sub (.rd (.arr .fwd 38)) (.rd (.arr .rev 38))) (.neg (.num 1 0))) (.mul (.rd (.arr .fwd 38)) (.neg (.num 1 0)))) (.mul (.rd (.arr .rev 38)) (.mul (.neg (.rd (.var .T))) (.sub (.rd (.arr .dBdT 0)) (.mul (.num 2 0) (.rd (.arr .dBdT 1))))))))) (.rd (.var .rhoInv))),
  .set (.arr .jac 1) (.add (.rd (.arr .jac 1)) (.mul (.rd (.var .jTemp)) (.num 20158800000000001 16))),
  .set (.arr .jac 2) (.add (.rd (.arr .jac 2)) (.mul (.mul (.rd (.var .jTemp)) (.neg (.num 2 0))) (.num 10079400000000001 16)))]

/-- utilities/mechanisms/gri30/lib/src/jacobs/jacob_0.c:8292-8296 -/
def jacobT39 : List CStmt := [
  .set (.var .jTemp) (.mul (.mul (.div (.num 1 0) (.rd (.var .T))) (.sub (.add (.mul (.sub (.rd (.arr .fwd 39)) (.rd (.arr .rev 39))) (.neg (.num 59999999999999998 17))) (.mul (.rd (.arr .fwd 39)) (.neg (.num 2 0)))) (.mul (.rd (.arr .rev 39)) (.add (.neg (.num 1 0)) (.mul (.neg (.rd (.var .T))) (.sub (.rd (.arr .dBdT 0)) (.mul (.num 2 0) (.rd (.arr .dBdT 1))))))))) (.rd (.var .rhoInv))),
  .set (.arr .jac 1) (.add (.rd (.arr .jac 1)) (.mul (.rd (.var .jTemp)) (.num 20158800000000001 16))),
  .set (.arr .jac 2) (.add (.rd (.arr .jac 2)) (.mul (.mul (.rd (.var .jTemp)) (.neg (.num 2 0))) (.num 10079400000000001 16)))]

/-- The derivatives with respect to the temperature in `eval_jacob_0`, one block per reaction, utilities/mechanisms/gri30/lib/src/jacobs/jacob_0.c:5-8412. -/
def jacob0Blocks : List (List CStmt × List CStmt) := [
  (jacobT0, []), (jacobT1, []), (jacobT2, []), (jacobT3, []), (jacobT4, []), (jacobT5, []), (jacobT6, []), (jacobT7, []), (jacobT8, []), (jacobT9, []), (jacobT10, []), (jacobT11, []), (jacobT12, []), (jacobT13, []), (jacobT14, []), (jacobT15, []), (jacobT16, []), (jacobT17, []), (jacobT18, []), (jacobT19, []), (jacobT20, []), (jacobT21, []), (jacobT22, []), (jacobT23, []), (jacobT24, []), (jacobT25, []), (jacobT26, []), (jacobT27, []), (jacobT28, []), (jacobT29, []), (jacobT30, []), (jacobT31, []), (jacobT32, []), (jacobT33, []), (jacobT34, []), (jacobT35, []), (jacobT36, []), (jacobT37, []), (jacobT38, []), (jacobT39, [])]

end DLB.Mech.Gri30
