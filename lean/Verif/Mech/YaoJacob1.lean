/- Generated by tools/gen_mechanisms.py from utilities/mechanisms/yao/lib/src/jacobs/jacob_1.c. Do not edit. -/
import Verif.Model.CLang
set_option autoImplicit false
set_option maxRecDepth 1000000

namespace DLB.Mech.Yao
open DLB

/-- utilities/mechanisms/yao/lib/src/jacobs/jacob_1.c:5-17 -/
def jacob1Start : List CStmt := [
  .set (.var .logT) (.log (.rd (.var .T))),
  .set (.var .kf) (.num 0 0),
  .set (.var .jTemp) (.num 0 0),
  .set (.var .presModTemp) (.num 0 0),
  .set (.var .Kc) (.num 0 0),
  .set (.var .kr) (.num 0 0),
  .set (.var .Pr) (.num 0 0),
  .set (.var .Fcent) (.num 0 0),
  .set (.var .A) (.num 0 0),
  .set (.var .B) (.num 0 0),
  .set (.var .lnFAB) (.num 0 0),
  .set (.var .rhoInv) (.div (.num 1 0) (.rd (.var .rho)))]

/-- utilities/mechanisms/yao/lib/src/jacobs/jacob_1.c:18-24 -/
def jacobT40 : List CStmt := [
  .set (.var .jTemp) (.mul (.mul (.div (.num 1 0) (.rd (.var .T))) (.sub (.mul (.rd (.arr .fwd 40)) (.neg (.num 1 0))) (.mul (.rd (.arr .rev 40)) (.add (.neg (.num 1 0)) (.mul (.neg (.rd (.var .T))) (.sub (.sub (.add (.rd (.arr .dBdT 1)) (.rd (.arr .dBdT 13))) (.rd (.arr .dBdT 9))) (.rd (.arr .dBdT 2)))))))) (.rd (.var .rhoInv))),
  .set (.arr .jac 10) (.add (.rd (.arr .jac 10)) (.mul (.neg (.rd (.var .jTemp))) (.num 14026879999999998 15))),
  .set (.arr .jac 3) (.add (.rd (.arr .jac 3)) (.mul (.neg (.rd (.var .jTemp))) (.num 159994 4))),
  .set (.arr .jac 14) (.add (.rd (.arr .jac 14)) (.mul (.rd (.var .jTemp)) (.num 29018339999999998 15))),
  .set (.arr .jac 2) (.add (.rd (.arr .jac 2)) (.mul (.rd (.var .jTemp)) (.num 10079400000000001 16)))]

/-- utilities/mechanisms/yao/lib/src/jacobs/jacob_1.c:249-255 -/
def jacobT41 : List CStmt := [
  .set (.var .jTemp) (.mul (.mul (.div (.num 1 0) (.rd (.var .T))) (.sub (.mul (.rd (.arr .fwd 41)) (.neg (.num 1 0))) (.mul (.rd (.arr .rev 41)) (.add (.neg (.num 1 0)) (.mul (.neg (.rd (.var .T))) (.sub (.sub (.add (.rd (.arr .dBdT 14)) (.rd (.arr .dBdT 1))) (.rd (.arr .dBdT 9))) (.rd (.arr .dBdT 3)))))))) (.rd (.var .rhoInv))),
  .set (.arr .jac 10) (.add (.rd (.arr .jac 10)) (.mul (.neg (.rd (.var .jTemp))) (.num 14026879999999998 15))),
  .set (.arr .jac 4) (.add (.rd (.arr .jac 4)) (.mul (.neg (.rd (.var .jTemp))) (.num 17007339999999999 15))),
  .set (.arr .jac 15) (.add (.rd (.arr .jac 15)) (.mul (.rd (.var .jTemp)) (.num 3002628 5))),
  .set (.arr .jac 2) (.add (.rd (.arr .jac 2)) (.mul (.rd (.var .jTemp)) (.num 10079400000000001 16)))]

/-- utilities/mechanisms/yao/lib/src/jacobs/jacob_1.c:480-486 -/
def jacobT42 : List CStmt := [
  .set (.var .jTemp) (.mul (.mul (.div (.num 1 0) (.rd (.var .T))) (.sub (.add (.mul (.sub (.rd (.arr .fwd 42)) (.rd (.arr .rev 42))) (.add (.num 2 0) (.div (.num 36382774539317456 13) (.rd (.var .T))))) (.mul (.rd (.arr .fwd 42)) (.neg (.num 1 0)))) (.mul (.rd (.arr .rev 42)) (.add (.neg (.num 1 0)) (.mul (.neg (.rd (.var .T))) (.sub (.sub (.add (.rd (.arr .dBdT 1)) (.rd (.arr .dBdT 11))) (.rd (.arr .dBdT 5))) (.rd (.arr .dBdT 9)))))))) (.rd (.var .rhoInv))),
  .set (.arr .jac 10) (.add (.rd (.arr .jac 10)) (.mul (.neg (.rd (.var .jTemp))) (.num 14026879999999998 15))),
  .set (.arr .jac 12) (.add (.rd (.arr .jac 12)) (.mul (.rd (.var .jTemp)) (.num 1503482 5))),
  .set (.arr .jac 6) (.add (.rd (.arr .jac 6)) (.mul (.neg (.rd (.var .jTemp))) (.num 20158800000000001 16))),
  .set (.arr .jac 2) (.add (.rd (.arr .jac 2)) (.mul (.rd (.var .jTemp)) (.num 10079400000000001 16)))]

/-- utilities/mechanisms/yao/lib/src/jacobs/jacob_1.c:711-717 -/
def jacobT43 : List CStmt := [
  .set (.var .jTemp) (.mul (.mul (.div (.num 1 0) (.rd (.var .T))) (.sub (.add (.mul (.sub (.rd (.arr .fwd 43)) (.rd (.arr .rev 43))) (.div (.num 75482934728874397 14) (.rd (.var .T)))) (.mul (.rd (.arr .fwd 43)) (.neg (.num 1 0)))) (.mul (.rd (.arr .rev 43)) (.add (.neg (.num 1 0)) (.mul (.neg (.rd (.var .T))) (.sub (.sub (.add (.rd (.arr .dBdT 13)) (.rd (.arr .dBdT 3))) (.rd (.arr .dBdT 9))) (.rd (.arr .dBdT 8)))))))) (.rd (.var .rhoInv))),
  .set (.arr .jac 9) (.add (.rd (.arr .jac 9)) (.mul (.neg (.rd (.var .jTemp))) (.num 31998799999999999 15))),
  .set (.arr .jac 10) (.add (.rd (.arr .jac 10)) (.mul (.neg (.rd (.var .jTemp))) (.num 14026879999999998 15))),
  .set (.arr .jac 4) (.add (.rd (.arr .jac 4)) (.mul (.rd (.var .jTemp)) (.num 17007339999999999 15))),
  .set (.arr .jac 14) (.add (.rd (.arr .jac 14)) (.mul (.rd (.var .jTemp)) (.num 29018339999999998 15)))]

/-- utilities/mechanisms/yao/lib/src/jacobs/jacob_1.c:942-948 -/
def jacobT44 : List CStmt := [
  .set (.var .jTemp) (.mul (.mul (.div (.num 1 0) (.rd (.var .T))) (.sub (.add (.mul (.sub (.rd (.arr .fwd 44)) (.rd (.arr .rev 44))) (.div (.num 75482934728874397 14) (.rd (.var .T)))) (.mul (.rd (.arr .fwd 44)) (.neg (.num 1 0)))) (.mul (.rd (.arr .rev 44)) (.add (.neg (.num 2 0)) (.mul (.neg (.rd (.var .T))) (.sub (.sub (.add (.mul (.num 2 0) (.rd (.arr .dBdT 1))) (.rd (.arr .dBdT 17))) (.rd (.arr .dBdT 9))) (.rd (.arr .dBdT 8)))))))) (.rd (.var .rhoInv))),
  .set (.arr .jac 9) (.add (.rd (.arr .jac 9)) (.mul (.neg (.rd (.var .jTemp))) (.num 31998799999999999 15))),
  .set (.arr .jac 10) (.add (.rd (.arr .jac 10)) (.mul (.neg (.rd (.var .jTemp))) (.num 14026879999999998 15))),
  .set (.arr .jac 18) (.add (.rd (.arr .jac 18)) (.mul (.rd (.var .jTemp)) (.num 44009799999999998 15))),
  .set (.arr .jac 2) (.add (.rd (.arr .jac 2)) (.mul (.mul (.rd (.var .jTemp)) (.num 2 0)) (.num 10079400000000001 16)))]

/-- utilities/mechanisms/yao/lib/src/jacobs/jacob_1.c:1173-1179 -/
def jacobT45 : List CStmt := [
  .set (.var .jTemp) (.mul (.mul (.div (.num 1 0) (.rd (.var .T))) (.sub (.mul (.rd (.arr .fwd 45)) (.neg (.num 1 0))) (.mul (.rd (.arr .rev 45)) (.add (.neg (.num 1 0)) (.mul (.neg (.rd (.var .T))) (.sub (.sub (.add (.rd (.arr .dBdT 14)) (.rd (.arr .dBdT 3))) (.rd (.arr .dBdT 9))) (.rd (.arr .dBdT 4)))))))) (.rd (.var .rhoInv))),
  .set (.arr .jac 10) (.add (.rd (.arr .jac 10)) (.mul (.neg (.rd (.var .jTemp))) (.num 14026879999999998 15))),
  .set (.arr .jac 4) (.add (.rd (.arr .jac 4)) (.mul (.rd (.var .jTemp)) (.num 17007339999999999 15))),
  .set (.arr .jac 5) (.add (.rd (.arr .jac 5)) (.mul (.neg (.rd (.var .jTemp))) (.num 33006740000000001 15))),
  .set (.arr .jac 15) (.add (.rd (.arr .jac 15)) (.mul (.rd (.var .jTemp)) (.num 3002628 5)))]

/-- utilities/mechanisms/yao/lib/src/jacobs/jacob_1.c:1404-1409 -/
def jacobT46 : List CStmt := [
  .set (.var .jTemp) (.mul (.mul (.div (.num 1 0) (.rd (.var .T))) (.sub (.mul (.rd (.arr .fwd 46)) (.neg (.num 1 0))) (.mul (.rd (.arr .rev 46)) (.add (.neg (.num 1 0)) (.mul (.neg (.rd (.var .T))) (.sub (.add (.rd (.arr .dBdT 5)) (.rd (.arr .dBdT 18))) (.mul (.num 2 0) (.rd (.arr .dBdT 9))))))))) (.rd (.var .rhoInv))),
  .set (.arr .jac 10) (.add (.rd (.arr .jac 10)) (.mul (.mul (.rd (.var .jTemp)) (.neg (.num 2 0))) (.num 14026879999999998 15))),
  .set (.arr .jac 19) (.mul (.rd (.var .jTemp)) (.num 26037879999999998 15)),
  .set (.arr .jac 6) (.add (.rd (.arr .jac 6)) (.mul (.rd (.var .jTemp)) (.num 20158800000000001 16)))]

/-- utilities/mechanisms/yao/lib/src/jacobs/jacob_1.c:1581-1585 -/
def jacobT47 : List CStmt := [
  .set (.var .jTemp) (.mul (.mul (.div (.num 1 0) (.rd (.var .T))) (.sub (.add (.mul (.sub (.rd (.arr .fwd 47)) (.rd (.arr .rev 47))) (.div (.num 30193173891549759 14) (.rd (.var .T)))) (.mul (.rd (.arr .fwd 47)) (.neg (.num 1 0)))) (.mul (.rd (.arr .rev 47)) (.add (.neg (.num 1 0)) (.mul (.neg (.rd (.var .T))) (.sub (.rd (.arr .dBdT 9)) (.rd (.arr .dBdT 10)))))))) (.rd (.var .rhoInv))),
  .set (.arr .jac 10) (.add (.rd (.arr .jac 10)) (.mul (.rd (.var .jTemp)) (.num 14026879999999998 15))),
  .set (.arr .jac 11) (.mul (.neg (.rd (.var .jTemp))) (.num 14026879999999998 15))]

/-- utilities/mechanisms/yao/lib/src/jacobs/jacob_1.c:1704-1708 -/
def jacobT48 : List CStmt := [
  .set (.var .jTemp) (.mul (.mul (.div (.num 1 0) (.rd (.var .T))) (.sub (.add (.mul (.sub (.rd (.arr .fwd 48)) (.rd (.arr .rev 48))) (.div (.num 30193173891549759 14) (.rd (.var .T)))) (.mul (.rd (.arr .fwd 48)) (.neg (.num 1 0)))) (.mul (.rd (.arr .rev 48)) (.add (.neg (.num 1 0)) (.mul (.neg (.rd (.var .T))) (.sub (.rd (.arr .dBdT 9)) (.rd (.arr .dBdT 10)))))))) (.rd (.var .rhoInv))),
  .set (.arr .jac 10) (.add (.rd (.arr .jac 10)) (.mul (.rd (.var .jTemp)) (.num 14026879999999998 15))),
  .set (.arr .jac 11) (.add (.rd (.arr .jac 11)) (.mul (.neg (.rd (.var .jTemp))) (.num 14026879999999998 15)))]

/-- utilities/mechanisms/yao/lib/src/jacobs/jacob_1.c:1827-1833 -/
def jacobT49 : List CStmt := [
  .set (.var .jTemp) (.mul (.mul (.div (.num 1 0) (.rd (.var .T))) (.sub (.mul (.rd (.arr .fwd 49)) (.neg (.num 1 0))) (.mul (.rd (.arr .rev 49)) (.add (.neg (.num 1 0)) (.mul (.neg (.rd (.var .T))) (.sub (.sub (.add (.rd (.arr .dBdT 5)) (.rd (.arr .dBdT 16))) (.rd (.arr .dBdT 10))) (.rd (.arr .dBdT 2)))))))) (.rd (.var .rhoInv))),
  .set (.arr .jac 17) (.add (.rd (.arr .jac 17)) (.mul (.rd (.var .jTemp)) (.num 28010399999999997 15))),
  .set (.arr .jac 11) (.add (.rd (.arr .jac 11)) (.mul (.neg (.rd (.var .jTemp))) (.num 14026879999999998 15))),
  .set (.arr .jac 3) (.add (.rd (.arr .jac 3)) (.mul (.neg (.rd (.var .jTemp))) (.num 159994 4))),
  .set (.arr .jac 6) (.add (.rd (.arr .jac 6)) (.mul (.rd (.var .jTemp)) (.num 20158800000000001 16)))]

/-- utilities/mechanisms/yao/lib/src/jacobs/jacob_1.c:2058-2064 -/
def jacobT50 : List CStmt := [
  .set (.var .jTemp) (.mul (.mul (.div (.num 1 0) (.rd (.var .T))) (.sub (.mul (.rd (.arr .fwd 50)) (.neg (.num 1 0))) (.mul (.rd (.arr .rev 50)) (.add (.neg (.num 1 0)) (.mul (.neg (.rd (.var .T))) (.sub (.sub (.add (.rd (.arr .dBdT 1)) (.rd (.arr .dBdT 13))) (.rd (.arr .dBdT 10))) (.rd (.arr .dBdT 2)))))))) (.rd (.var .rhoInv))),
  .set (.arr .jac 2) (.add (.rd (.arr .jac 2)) (.mul (.rd (.var .jTemp)) (.num 10079400000000001 16))),
  .set (.arr .jac 11) (.add (.rd (.arr .jac 11)) (.mul (.neg (.rd (.var .jTemp))) (.num 14026879999999998 15))),
  .set (.arr .jac 3) (.add (.rd (.arr .jac 3)) (.mul (.neg (.rd (.var .jTemp))) (.num 159994 4))),
  .set (.arr .jac 14) (.add (.rd (.arr .jac 14)) (.mul (.rd (.var .jTemp)) (.num 29018339999999998 15)))]

/-- utilities/mechanisms/yao/lib/src/jacobs/jacob_1.c:2289-2295 -/
def jacobT51 : List CStmt := [
  .set (.var .jTemp) (.mul (.mul (.div (.num 1 0) (.rd (.var .T))) (.sub (.mul (.rd (.arr .fwd 51)) (.neg (.num 1 0))) (.mul (.rd (.arr .rev 51)) (.add (.neg (.num 1 0)) (.mul (.neg (.rd (.var .T))) (.sub (.sub (.add (.rd (.arr .dBdT 14)) (.rd (.arr .dBdT 1))) (.rd (.arr .dBdT 10))) (.rd (.arr .dBdT 3)))))))) (.rd (.var .rhoInv))),
  .set (.arr .jac 2) (.add (.rd (.arr .jac 2)) (.mul (.rd (.var .jTemp)) (.num 10079400000000001 16))),
  .set (.arr .jac 11) (.add (.rd (.arr .jac 11)) (.mul (.neg (.rd (.var .jTemp))) (.num 14026879999999998 15))),
  .set (.arr .jac 4) (.add (.rd (.arr .jac 4)) (.mul (.neg (.rd (.var .jTemp))) (.num 17007339999999999 15))),
  .set (.arr .jac 15) (.add (.rd (.arr .jac 15)) (.mul (.rd (.var .jTemp)) (.num 3002628 5)))]

/-- utilities/mechanisms/yao/lib/src/jacobs/jacob_1.c:2520-2526 -/
def jacobT52 : List CStmt := [
  .set (.var .jTemp) (.mul (.mul (.div (.num 1 0) (.rd (.var .T))) (.sub (.mul (.rd (.arr .fwd 52)) (.neg (.num 1 0))) (.mul (.rd (.arr .rev 52)) (.add (.neg (.num 1 0)) (.mul (.neg (.rd (.var .T))) (.sub (.sub (.add (.rd (.arr .dBdT 1)) (.rd (.arr .dBdT 11))) (.rd (.arr .dBdT 5))) (.rd (.arr .dBdT 10)))))))) (.rd (.var .rhoInv))),
  .set (.arr .jac 2) (.add (.rd (.arr .jac 2)) (.mul (.rd (.var .jTemp)) (.num 10079400000000001 16))),
  .set (.arr .jac 11) (.add (.rd (.arr .jac 11)) (.mul (.neg (.rd (.var .jTemp))) (.num 14026879999999998 15))),
  .set (.arr .jac 12) (.add (.rd (.arr .jac 12)) (.mul (.rd (.var .jTemp)) (.num 1503482 5))),
  .set (.arr .jac 6) (.add (.rd (.arr .jac 6)) (.mul (.neg (.rd (.var .jTemp))) (.num 20158800000000001 16)))]

/-- utilities/mechanisms/yao/lib/src/jacobs/jacob_1.c:2751-2758 -/
def jacobT53 : List CStmt := [
  .set (.var .jTemp) (.mul (.mul (.div (.num 1 0) (.rd (.var .T))) (.sub (.mul (.rd (.arr .fwd 53)) (.neg (.num 1 0))) (.mul (.rd (.arr .rev 53)) (.add (.neg (.num 2 0)) (.mul (.neg (.rd (.var .T))) (.sub (.sub (.add (.add (.rd (.arr .dBdT 1)) (.rd (.arr .dBdT 16))) (.rd (.arr .dBdT 3))) (.rd (.arr .dBdT 10))) (.rd (.arr .dBdT 8)))))))) (.rd (.var .rhoInv))),
  .set (.arr .jac 9) (.add (.rd (.arr .jac 9)) (.mul (.neg (.rd (.var .jTemp))) (.num 31998799999999999 15))),
  .set (.arr .jac 2) (.add (.rd (.arr .jac 2)) (.mul (.rd (.var .jTemp)) (.num 10079400000000001 16))),
  .set (.arr .jac 11) (.add (.rd (.arr .jac 11)) (.mul (.neg (.rd (.var .jTemp))) (.num 14026879999999998 15))),
  .set (.arr .jac 4) (.add (.rd (.arr .jac 4)) (.mul (.rd (.var .jTemp)) (.num 17007339999999999 15))),
  .set (.arr .jac 17) (.add (.rd (.arr .jac 17)) (.mul (.rd (.var .jTemp)) (.num 28010399999999997 15)))]

/-- utilities/mechanisms/yao/lib/src/jacobs/jacob_1.c:3036-3042 -/
def jacobT54 : List CStmt := [
  .set (.var .jTemp) (.mul (.mul (.div (.num 1 0) (.rd (.var .T))) (.sub (.mul (.rd (.arr .fwd 54)) (.neg (.num 1 0))) (.mul (.rd (.arr .rev 54)) (.add (.neg (.num 1 0)) (.mul (.neg (.rd (.var .T))) (.sub (.sub (.add (.rd (.arr .dBdT 6)) (.rd (.arr .dBdT 16))) (.rd (.arr .dBdT 10))) (.rd (.arr .dBdT 8)))))))) (.rd (.var .rhoInv))),
  .set (.arr .jac 9) (.add (.rd (.arr .jac 9)) (.mul (.neg (.rd (.var .jTemp))) (.num 31998799999999999 15))),
  .set (.arr .jac 17) (.add (.rd (.arr .jac 17)) (.mul (.rd (.var .jTemp)) (.num 28010399999999997 15))),
  .set (.arr .jac 11) (.add (.rd (.arr .jac 11)) (.mul (.neg (.rd (.var .jTemp))) (.num 14026879999999998 15))),
  .set (.arr .jac 7) (.add (.rd (.arr .jac 7)) (.mul (.rd (.var .jTemp)) (.num 18015280000000001 15)))]

/-- utilities/mechanisms/yao/lib/src/jacobs/jacob_1.c:3267-3271 -/
def jacobT55 : List CStmt := [
  .set (.var .jTemp) (.mul (.mul (.div (.num 1 0) (.rd (.var .T))) (.sub (.mul (.rd (.arr .fwd 55)) (.neg (.num 1 0))) (.mul (.rd (.arr .rev 55)) (.add (.neg (.num 1 0)) (.mul (.neg (.rd (.var .T))) (.sub (.rd (.arr .dBdT 9)) (.rd (.arr .dBdT 10)))))))) (.rd (.var .rhoInv))),
  .set (.arr .jac 10) (.add (.rd (.arr .jac 10)) (.mul (.rd (.var .jTemp)) (.num 14026879999999998 15))),
  .set (.arr .jac 11) (.add (.rd (.arr .jac 11)) (.mul (.neg (.rd (.var .jTemp))) (.num 14026879999999998 15)))]

/-- utilities/mechanisms/yao/lib/src/jacobs/jacob_1.c:3390-3394 -/
def jacobT56 : List CStmt := [
  .set (.var .jTemp) (.mul (.mul (.div (.num 1 0) (.rd (.var .T))) (.sub (.mul (.rd (.arr .fwd 56)) (.neg (.num 1 0))) (.mul (.rd (.arr .rev 56)) (.add (.neg (.num 1 0)) (.mul (.neg (.rd (.var .T))) (.sub (.rd (.arr .dBdT 9)) (.rd (.arr .dBdT 10)))))))) (.rd (.var .rhoInv))),
  .set (.arr .jac 10) (.add (.rd (.arr .jac 10)) (.mul (.rd (.var .jTemp)) (.num 14026879999999998 15))),
  .set (.arr .jac 11) (.add (.rd (.arr .jac 11)) (.mul (.neg (.rd (.var .jTemp))) (.num 14026879999999998 15)))]

/-- utilities/mechanisms/yao/lib/src/jacobs/jacob_1.c:3513-3517 -/
def jacobT57 : List CStmt := [
  .set (.var .jTemp) (.mul (.mul (.div (.num 1 0) (.rd (.var .T))) (.sub (.mul (.rd (.arr .fwd 57)) (.neg (.num 1 0))) (.mul (.rd (.arr .rev 57)) (.add (.neg (.num 1 0)) (.mul (.neg (.rd (.var .T))) (.sub (.rd (.arr .dBdT 9)) (.rd (.arr .dBdT 10)))))))) (.rd (.var .rhoInv))),
  .set (.arr .jac 11) (.add (.rd (.arr .jac 11)) (.mul (.neg (.rd (.var .jTemp))) (.num 14026879999999998 15))),
  .set (.arr .jac 10) (.add (.rd (.arr .jac 10)) (.mul (.rd (.var .jTemp)) (.num 14026879999999998 15)))]

/-- utilities/mechanisms/yao/lib/src/jacobs/jacob_1.c:3636-3642 -/
def jacobT58 : List CStmt := [
  .set (.var .jTemp) (.mul (.mul (.div (.num 1 0) (.rd (.var .T))) (.sub (.mul (.rd (.arr .fwd 58)) (.neg (.num 1 0))) (.mul (.rd (.arr .rev 58)) (.add (.neg (.num 1 0)) (.mul (.neg (.rd (.var .T))) (.sub (.sub (.add (.rd (.arr .dBdT 14)) (.rd (.arr .dBdT 16))) (.rd (.arr .dBdT 17))) (.rd (.arr .dBdT 10)))))))) (.rd (.var .rhoInv))),
  .set (.arr .jac 17) (.add (.rd (.arr .jac 17)) (.mul (.rd (.var .jTemp)) (.num 28010399999999997 15))),
  .set (.arr .jac 18) (.add (.rd (.arr .jac 18)) (.mul (.neg (.rd (.var .jTemp))) (.num 44009799999999998 15))),
  .set (.arr .jac 11) (.add (.rd (.arr .jac 11)) (.mul (.neg (.rd (.var .jTemp))) (.num 14026879999999998 15))),
  .set (.arr .jac 15) (.add (.rd (.arr .jac 15)) (.mul (.rd (.var .jTemp)) (.num 3002628 5)))]

/-- utilities/mechanisms/yao/lib/src/jacobs/jacob_1.c:3867-3878 -/
def jacobT59 : List CStmt := [
  .set (.var .concTemp) (.add (.add (.add (.add (.add (.add (.rd (.var .m)) (.mul (.num 1 0) (.rd (.arr .C 5)))) (.mul (.num 5 0) (.rd (.arr .C 6)))) (.mul (.num 1 0) (.rd (.arr .C 12)))) (.mul (.num 5 1) (.rd (.arr .C 16)))) (.mul (.num 1 0) (.rd (.arr .C 17)))) (.mul (.num 2 0) (.rd (.arr .C 22)))),
  .set (.var .Pr) (.mul (.rd (.var .concTemp)) (.exp (.sub (.sub (.num 35943419894698771 15) (.mul (.num 5254 3) (.rd (.var .logT)))) (.div (.num 14895299119831213 13) (.rd (.var .T)))))),
  .set (.var .Fcent) (.add (.add (.mul (.num 24199999999999999 17) (.exp (.div (.rd (.var .T)) (.neg (.num 94 0))))) (.mul (.num 75800000000000001 17) (.exp (.div (.rd (.var .T)) (.neg (.num 1555 0)))))) (.exp (.div (.neg (.num 4200 0)) (.rd (.var .T))))),
  .set (.var .A) (.sub (.sub (.log10 (.fmax (.rd (.var .Pr)) (.num 1 300))) (.mul (.num 67 2) (.log10 (.fmax (.rd (.var .Fcent)) (.num 1 300))))) (.num 4 1)),
  .set (.var .B) (.sub (.sub (.num 806 3) (.mul (.num 11762 4) (.log10 (.fmax (.rd (.var .Fcent)) (.num 1 300))))) (.mul (.num 14 2) (.log10 (.fmax (.rd (.var .Pr)) (.num 1 300))))),
  .set (.var .lnFAB) (.div (.mul (.mul (.num 2 0) (.log (.fmax (.rd (.var .Fcent)) (.num 1 300)))) (.rd (.var .A))) (.mul (.mul (.mul (.mul (.rd (.var .B)) (.rd (.var .B))) (.rd (.var .B))) (.add (.num 1 0) (.div (.mul (.rd (.var .A)) (.rd (.var .A))) (.mul (.rd (.var .B)) (.rd (.var .B)))))) (.add (.num 1 0) (.div (.mul (.rd (.var .A)) (.rd (.var .A))) (.mul (.rd (.var .B)) (.rd (.var .B))))))),
  .set (.var .jTemp) (.mul (.add (.mul (.mul (.rd (.arr .presMod 11)) (.sub (.add (.div (.sub (.add (.neg (.num 5254 3)) (.div (.num 14895299119831213 13) (.rd (.var .T)))) (.num 1 0)) (.mul (.rd (.var .T)) (.add (.num 1 0) (.rd (.var .Pr))))) (.mul (.sub (.div (.num 1 0) (.mul (.rd (.var .Fcent)) (.add (.num 1 0) (.div (.mul (.rd (.var .A)) (.rd (.var .A))) (.mul (.rd (.var .B)) (.rd (.var .B))))))) (.div (.mul (.rd (.var .lnFAB)) (.add (.mul (.neg (.num 2909773028751787 16)) (.rd (.var .B))) (.mul (.num 51081716961460466 17) (.rd (.var .A))))) (.rd (.var .Fcent)))) (.add (.sub (.mul (.neg (.num 25744680851063828 19)) (.exp (.div (.rd (.var .T)) (.neg (.num 94 0))))) (.mul (.num 48745980707395501 20) (.exp (.div (.rd (.var .T)) (.neg (.num 1555 0)))))) (.mul (.div (.num 4200 0) (.mul (.rd (.var .T)) (.rd (.var .T)))) (.exp (.div (.neg (.num 4200 0)) (.rd (.var .T)))))))) (.div (.mul (.mul (.rd (.var .lnFAB)) (.add (.mul (.num 43429448190325176 17) (.rd (.var .B))) (.mul (.num 60801227466455256 18) (.rd (.var .A))))) (.sub (.add (.neg (.num 52539999999999996 16)) (.div (.num 14895299119831213 13) (.rd (.var .T)))) (.num 1 0))) (.rd (.var .T))))) (.sub (.rd (.arr .fwd 59)) (.rd (.arr .rev 59)))) (.mul (.div (.rd (.arr .presMod 11)) (.rd (.var .T))) (.sub (.add (.mul (.sub (.rd (.arr .fwd 59)) (.rd (.arr .rev 59))) (.add (.num 45400000000000001 17) (.div (.num 1308370868633823 12) (.rd (.var .T))))) (.mul (.rd (.arr .fwd 59)) (.neg (.num 1 0)))) (.mul (.rd (.arr .rev 59)) (.mul (.neg (.rd (.var .T))) (.sub (.sub (.rd (.arr .dBdT 15)) (.rd (.arr .dBdT 14))) (.rd (.arr .dBdT 1)))))))) (.rd (.var .rhoInv))),
  .set (.arr .jac 2) (.add (.rd (.arr .jac 2)) (.mul (.neg (.rd (.var .jTemp))) (.num 10079400000000001 16))),
  .set (.arr .jac 15) (.add (.rd (.arr .jac 15)) (.mul (.neg (.rd (.var .jTemp))) (.num 3002628 5))),
  .set (.arr .jac 16) (.mul (.rd (.var .jTemp)) (.num 31034219999999998 15))]

/-- utilities/mechanisms/yao/lib/src/jacobs/jacob_1.c:4052-4058 -/
def jacobT60 : List CStmt := [
  .set (.var .jTemp) (.mul (.mul (.div (.num 1 0) (.rd (.var .T))) (.sub (.add (.mul (.sub (.rd (.arr .fwd 60)) (.rd (.arr .rev 60))) (.add (.num 105 2) (.div (.num 16480440749137576 13) (.rd (.var .T))))) (.mul (.rd (.arr .fwd 60)) (.neg (.num 1 0)))) (.mul (.rd (.arr .rev 60)) (.add (.neg (.num 1 0)) (.mul (.neg (.rd (.var .T))) (.sub (.sub (.add (.rd (.arr .dBdT 5)) (.rd (.arr .dBdT 13))) (.rd (.arr .dBdT 14))) (.rd (.arr .dBdT 1)))))))) (.rd (.var .rhoInv))),
  .set (.arr .jac 2) (.add (.rd (.arr .jac 2)) (.mul (.neg (.rd (.var .jTemp))) (.num 10079400000000001 16))),
  .set (.arr .jac 6) (.add (.rd (.arr .jac 6)) (.mul (.rd (.var .jTemp)) (.num 20158800000000001 16))),
  .set (.arr .jac 15) (.add (.rd (.arr .jac 15)) (.mul (.neg (.rd (.var .jTemp))) (.num 3002628 5))),
  .set (.arr .jac 14) (.add (.rd (.arr .jac 14)) (.mul (.rd (.var .jTemp)) (.num 29018339999999998 15)))]

/-- utilities/mechanisms/yao/lib/src/jacobs/jacob_1.c:4283-4289 -/
def jacobT61 : List CStmt := [
  .set (.var .jTemp) (.mul (.mul (.div (.num 1 0) (.rd (.var .T))) (.sub (.add (.mul (.sub (.rd (.arr .fwd 61)) (.rd (.arr .rev 61))) (.div (.num 17813972596014357 13) (.rd (.var .T)))) (.mul (.rd (.arr .fwd 61)) (.neg (.num 1 0)))) (.mul (.rd (.arr .rev 61)) (.add (.neg (.num 1 0)) (.mul (.neg (.rd (.var .T))) (.sub (.sub (.add (.rd (.arr .dBdT 13)) (.rd (.arr .dBdT 3))) (.rd (.arr .dBdT 14))) (.rd (.arr .dBdT 2)))))))) (.rd (.var .rhoInv))),
  .set (.arr .jac 3) (.add (.rd (.arr .jac 3)) (.mul (.neg (.rd (.var .jTemp))) (.num 159994 4))),
  .set (.arr .jac 4) (.add (.rd (.arr .jac 4)) (.mul (.rd (.var .jTemp)) (.num 17007339999999999 15))),
  .set (.arr .jac 14) (.add (.rd (.arr .jac 14)) (.mul (.rd (.var .jTemp)) (.num 29018339999999998 15))),
  .set (.arr .jac 15) (.add (.rd (.arr .jac 15)) (.mul (.neg (.rd (.var .jTemp))) (.num 3002628 5)))]

/-- utilities/mechanisms/yao/lib/src/jacobs/jacob_1.c:4514-4520 -/
def jacobT62 : List CStmt := [
  .set (.var .jTemp) (.mul (.mul (.div (.num 1 0) (.rd (.var .T))) (.sub (.add (.mul (.sub (.rd (.arr .fwd 62)) (.rd (.arr .rev 62))) (.add (.num 11799999999999999 16) (.div (.neg (.num 2249391454920457 13)) (.rd (.var .T))))) (.mul (.rd (.arr .fwd 62)) (.neg (.num 1 0)))) (.mul (.rd (.arr .rev 62)) (.add (.neg (.num 1 0)) (.mul (.neg (.rd (.var .T))) (.sub (.sub (.add (.rd (.arr .dBdT 6)) (.rd (.arr .dBdT 13))) (.rd (.arr .dBdT 14))) (.rd (.arr .dBdT 3)))))))) (.rd (.var .rhoInv))),
  .set (.arr .jac 4) (.add (.rd (.arr .jac 4)) (.mul (.neg (.rd (.var .jTemp))) (.num 17007339999999999 15))),
  .set (.arr .jac 7) (.add (.rd (.arr .jac 7)) (.mul (.rd (.var .jTemp)) (.num 18015280000000001 15))),
  .set (.arr .jac 15) (.add (.rd (.arr .jac 15)) (.mul (.neg (.rd (.var .jTemp))) (.num 3002628 5))),
  .set (.arr .jac 14) (.add (.rd (.arr .jac 14)) (.mul (.rd (.var .jTemp)) (.num 29018339999999998 15)))]

/-- utilities/mechanisms/yao/lib/src/jacobs/jacob_1.c:4745-4751 -/
def jacobT63 : List CStmt := [
  .set (.var .jTemp) (.mul (.mul (.div (.num 1 0) (.rd (.var .T))) (.sub (.add (.mul (.sub (.rd (.arr .fwd 63)) (.rd (.arr .rev 63))) (.div (.num 20128782594366505 12) (.rd (.var .T)))) (.mul (.rd (.arr .fwd 63)) (.neg (.num 1 0)))) (.mul (.rd (.arr .rev 63)) (.add (.neg (.num 1 0)) (.mul (.neg (.rd (.var .T))) (.sub (.sub (.add (.rd (.arr .dBdT 4)) (.rd (.arr .dBdT 13))) (.rd (.arr .dBdT 14))) (.rd (.arr .dBdT 8)))))))) (.rd (.var .rhoInv))),
  .set (.arr .jac 9) (.add (.rd (.arr .jac 9)) (.mul (.neg (.rd (.var .jTemp))) (.num 31998799999999999 15))),
  .set (.arr .jac 5) (.add (.rd (.arr .jac 5)) (.mul (.rd (.var .jTemp)) (.num 33006740000000001 15))),
  .set (.arr .jac 14) (.add (.rd (.arr .jac 14)) (.mul (.rd (.var .jTemp)) (.num 29018339999999998 15))),
  .set (.arr .jac 15) (.add (.rd (.arr .jac 15)) (.mul (.neg (.rd (.var .jTemp))) (.num 3002628 5)))]

/-- utilities/mechanisms/yao/lib/src/jacobs/jacob_1.c:4976-4982 -/
def jacobT64 : List CStmt := [
  .set (.var .jTemp) (.mul (.mul (.div (.num 1 0) (.rd (.var .T))) (.sub (.add (.mul (.sub (.rd (.arr .fwd 64)) (.rd (.arr .rev 64))) (.div (.num 4025756518873301 12) (.rd (.var .T)))) (.mul (.rd (.arr .fwd 64)) (.neg (.num 1 0)))) (.mul (.rd (.arr .rev 64)) (.add (.neg (.num 1 0)) (.mul (.neg (.rd (.var .T))) (.sub (.sub (.add (.rd (.arr .dBdT 7)) (.rd (.arr .dBdT 13))) (.rd (.arr .dBdT 14))) (.rd (.arr .dBdT 4)))))))) (.rd (.var .rhoInv))),
  .set (.arr .jac 5) (.add (.rd (.arr .jac 5)) (.mul (.neg (.rd (.var .jTemp))) (.num 33006740000000001 15))),
  .set (.arr .jac 14) (.add (.rd (.arr .jac 14)) (.mul (.rd (.var .jTemp)) (.num 29018339999999998 15))),
  .set (.arr .jac 15) (.add (.rd (.arr .jac 15)) (.mul (.neg (.rd (.var .jTemp))) (.num 3002628 5))),
  .set (.arr .jac 8) (.add (.rd (.arr .jac 8)) (.mul (.rd (.var .jTemp)) (.num 34014679999999998 15)))]

/-- utilities/mechanisms/yao/lib/src/jacobs/jacob_1.c:5207-5218 -/
def jacobT65 : List CStmt := [
  .set (.var .concTemp) (.add (.rd (.var .concTemp)) (.mul (.neg (.num 3 1)) (.rd (.arr .C 0)))),
  .set (.var .Pr) (.mul (.rd (.var .concTemp)) (.exp (.sub (.sub (.num 3290422255195336 14) (.mul (.num 413 2) (.rd (.var .logT)))) (.div (.num 10351226449152975 13) (.rd (.var .T)))))),
  .set (.var .Fcent) (.add (.add (.mul (.num 21699999999999997 17) (.exp (.div (.rd (.var .T)) (.neg (.num 74 0))))) (.mul (.num 78300000000000003 17) (.exp (.div (.rd (.var .T)) (.neg (.num 2941 0)))))) (.exp (.div (.neg (.num 6964 0)) (.rd (.var .T))))),
  .set (.var .A) (.sub (.sub (.log10 (.fmax (.rd (.var .Pr)) (.num 1 300))) (.mul (.num 67 2) (.log10 (.fmax (.rd (.var .Fcent)) (.num 1 300))))) (.num 4 1)),
  .set (.var .B) (.sub (.sub (.num 806 3) (.mul (.num 11762 4) (.log10 (.fmax (.rd (.var .Fcent)) (.num 1 300))))) (.mul (.num 14 2) (.log10 (.fmax (.rd (.var .Pr)) (.num 1 300))))),
  .set (.var .lnFAB) (.div (.mul (.mul (.num 2 0) (.log (.fmax (.rd (.var .Fcent)) (.num 1 300)))) (.rd (.var .A))) (.mul (.mul (.mul (.mul (.rd (.var .B)) (.rd (.var .B))) (.rd (.var .B))) (.add (.num 1 0) (.div (.mul (.rd (.var .A)) (.rd (.var .A))) (.mul (.rd (.var .B)) (.rd (.var .B)))))) (.add (.num 1 0) (.div (.mul (.rd (.var .A)) (.rd (.var .A))) (.mul (.rd (.var .B)) (.rd (.var .B))))))),
  .set (.var .jTemp) (.mul (.add (.mul (.mul (.rd (.arr .presMod 12)) (.sub (.add (.div (.sub (.add (.neg (.num 413 2)) (.div (.num 10351226449152975 13) (.rd (.var .T)))) (.num 1 0)) (.mul (.rd (.var .T)) (.add (.num 1 0) (.rd (.var .Pr))))) (.mul (.sub (.div (.num 1 0) (.mul (.rd (.var .Fcent)) (.add (.num 1 0) (.div (.mul (.rd (.var .A)) (.rd (.var .A))) (.mul (.rd (.var .B)) (.rd (.var .B))))))) (.div (.mul (.rd (.var .lnFAB)) (.add (.mul (.neg (.num 2909773028751787 16)) (.rd (.var .B))) (.mul (.num 51081716961460466 17) (.rd (.var .A))))) (.rd (.var .Fcent)))) (.add (.sub (.mul (.neg (.num 29324324324324319 19)) (.exp (.div (.rd (.var .T)) (.neg (.num 74 0))))) (.mul (.num 26623597415844952 20) (.exp (.div (.rd (.var .T)) (.neg (.num 2941 0)))))) (.mul (.div (.num 6964 0) (.mul (.rd (.var .T)) (.rd (.var .T)))) (.exp (.div (.neg (.num 6964 0)) (.rd (.var .T)))))))) (.div (.mul (.mul (.rd (.var .lnFAB)) (.add (.mul (.num 43429448190325176 17) (.rd (.var .B))) (.mul (.num 60801227466455256 18) (.rd (.var .A))))) (.sub (.add (.neg (.num 41299999999999999 16)) (.div (.num 10351226449152975 13) (.rd (.var .T)))) (.num 1 0))) (.rd (.var .T))))) (.sub (.rd (.arr .fwd 65)) (.rd (.arr .rev 65)))) (.mul (.div (.rd (.arr .presMod 12)) (.rd (.var .T))) (.sub (.add (.mul (.sub (.rd (.arr .fwd 65)) (.rd (.arr .rev 65))) (.add (.neg (.num 63 2)) (.div (.num 19273309334105929 14) (.rd (.var .T))))) (.mul (.rd (.arr .fwd 65)) (.neg (.num 1 0)))) (.mul (.rd (.arr .rev 65)) (.mul (.neg (.rd (.var .T))) (.sub (.sub (.rd (.arr .dBdT 12)) (.rd (.arr .dBdT 1))) (.rd (.arr .dBdT 11)))))))) (.rd (.var .rhoInv))),
  .set (.arr .jac 2) (.add (.rd (.arr .jac 2)) (.mul (.neg (.rd (.var .jTemp))) (.num 10079400000000001 16))),
  .set (.arr .jac 12) (.add (.rd (.arr .jac 12)) (.mul (.neg (.rd (.var .jTemp))) (.num 1503482 5))),
  .set (.arr .jac 13) (.mul (.rd (.var .jTemp)) (.num 16042760000000001 15))]

/-- utilities/mechanisms/yao/lib/src/jacobs/jacob_1.c:5392-5398 -/
def jacobT66 : List CStmt := [
  .set (.var .jTemp) (.mul (.mul (.div (.num 1 0) (.rd (.var .T))) (.sub (.mul (.rd (.arr .fwd 66)) (.neg (.num 1 0))) (.mul (.rd (.arr .rev 66)) (.add (.neg (.num 1 0)) (.mul (.neg (.rd (.var .T))) (.sub (.sub (.add (.rd (.arr .dBdT 14)) (.rd (.arr .dBdT 1))) (.rd (.arr .dBdT 11))) (.rd (.arr .dBdT 2)))))))) (.rd (.var .rhoInv))),
  .set (.arr .jac 2) (.add (.rd (.arr .jac 2)) (.mul (.rd (.var .jTemp)) (.num 10079400000000001 16))),
  .set (.arr .jac 3) (.add (.rd (.arr .jac 3)) (.mul (.neg (.rd (.var .jTemp))) (.num 159994 4))),
  .set (.arr .jac 12) (.add (.rd (.arr .jac 12)) (.mul (.neg (.rd (.var .jTemp))) (.num 1503482 5))),
  .set (.arr .jac 15) (.add (.rd (.arr .jac 15)) (.mul (.rd (.var .jTemp)) (.num 3002628 5)))]

/-- utilities/mechanisms/yao/lib/src/jacobs/jacob_1.c:5623-5629 -/
def jacobT67 : List CStmt := [
  .set (.var .jTemp) (.mul (.mul (.div (.num 1 0) (.rd (.var .T))) (.sub (.add (.mul (.sub (.rd (.arr .fwd 67)) (.rd (.arr .rev 67))) (.add (.num 16000000000000001 16) (.div (.num 27274500415366615 13) (.rd (.var .T))))) (.mul (.rd (.arr .fwd 67)) (.neg (.num 1 0)))) (.mul (.rd (.arr .rev 67)) (.add (.neg (.num 1 0)) (.mul (.neg (.rd (.var .T))) (.sub (.sub (.add (.rd (.arr .dBdT 9)) (.rd (.arr .dBdT 6))) (.rd (.arr .dBdT 11))) (.rd (.arr .dBdT 3)))))))) (.rd (.var .rhoInv))),
  .set (.arr .jac 4) (.add (.rd (.arr .jac 4)) (.mul (.neg (.rd (.var .jTemp))) (.num 17007339999999999 15))),
  .set (.arr .jac 10) (.add (.rd (.arr .jac 10)) (.mul (.rd (.var .jTemp)) (.num 14026879999999998 15))),
  .set (.arr .jac 12) (.add (.rd (.arr .jac 12)) (.mul (.neg (.rd (.var .jTemp))) (.num 1503482 5))),
  .set (.arr .jac 7) (.add (.rd (.arr .jac 7)) (.mul (.rd (.var .jTemp)) (.num 18015280000000001 15)))]

/-- utilities/mechanisms/yao/lib/src/jacobs/jacob_1.c:5854-5860 -/
def jacobT68 : List CStmt := [
  .set (.var .jTemp) (.mul (.mul (.div (.num 1 0) (.rd (.var .T))) (.sub (.mul (.rd (.arr .fwd 68)) (.neg (.num 1 0))) (.mul (.rd (.arr .rev 68)) (.add (.neg (.num 1 0)) (.mul (.neg (.rd (.var .T))) (.sub (.sub (.add (.rd (.arr .dBdT 6)) (.rd (.arr .dBdT 10))) (.rd (.arr .dBdT 11))) (.rd (.arr .dBdT 3)))))))) (.rd (.var .rhoInv))),
  .set (.arr .jac 4) (.add (.rd (.arr .jac 4)) (.mul (.neg (.rd (.var .jTemp))) (.num 17007339999999999 15))),
  .set (.arr .jac 11) (.add (.rd (.arr .jac 11)) (.mul (.rd (.var .jTemp)) (.num 14026879999999998 15))),
  .set (.arr .jac 12) (.add (.rd (.arr .jac 12)) (.mul (.neg (.rd (.var .jTemp))) (.num 1503482 5))),
  .set (.arr .jac 7) (.add (.rd (.arr .jac 7)) (.mul (.rd (.var .jTemp)) (.num 18015280000000001 15)))]

/-- utilities/mechanisms/yao/lib/src/jacobs/jacob_1.c:6085-6091 -/
def jacobT69 : List CStmt := [
  .set (.var .jTemp) (.mul (.mul (.div (.num 1 0) (.rd (.var .T))) (.sub (.add (.mul (.sub (.rd (.arr .fwd 69)) (.rd (.arr .rev 69))) (.div (.num 14492723467943884 12) (.rd (.var .T)))) (.mul (.rd (.arr .fwd 69)) (.neg (.num 1 0)))) (.mul (.rd (.arr .rev 69)) (.add (.neg (.num 1 0)) (.mul (.neg (.rd (.var .T))) (.sub (.sub (.add (.rd (.arr .dBdT 15)) (.rd (.arr .dBdT 2))) (.rd (.arr .dBdT 11))) (.rd (.arr .dBdT 8)))))))) (.rd (.var .rhoInv))),
  .set (.arr .jac 9) (.add (.rd (.arr .jac 9)) (.mul (.neg (.rd (.var .jTemp))) (.num 31998799999999999 15))),
  .set (.arr .jac 3) (.add (.rd (.arr .jac 3)) (.mul (.rd (.var .jTemp)) (.num 159994 4))),
  .set (.arr .jac 12) (.add (.rd (.arr .jac 12)) (.mul (.neg (.rd (.var .jTemp))) (.num 1503482 5))),
  .set (.arr .jac 16) (.add (.rd (.arr .jac 16)) (.mul (.rd (.var .jTemp)) (.num 31034219999999998 15)))]

/-- utilities/mechanisms/yao/lib/src/jacobs/jacob_1.c:6316-6322 -/
def jacobT70 : List CStmt := [
  .set (.var .jTemp) (.mul (.mul (.div (.num 1 0) (.rd (.var .T))) (.sub (.add (.mul (.sub (.rd (.arr .fwd 70)) (.rd (.arr .rev 70))) (.div (.num 44987829098409138 13) (.rd (.var .T)))) (.mul (.rd (.arr .fwd 70)) (.neg (.num 1 0)))) (.mul (.rd (.arr .rev 70)) (.add (.neg (.num 1 0)) (.mul (.neg (.rd (.var .T))) (.sub (.sub (.add (.rd (.arr .dBdT 14)) (.rd (.arr .dBdT 3))) (.rd (.arr .dBdT 11))) (.rd (.arr .dBdT 8)))))))) (.rd (.var .rhoInv))),
  .set (.arr .jac 9) (.add (.rd (.arr .jac 9)) (.mul (.neg (.rd (.var .jTemp))) (.num 31998799999999999 15))),
  .set (.arr .jac 4) (.add (.rd (.arr .jac 4)) (.mul (.rd (.var .jTemp)) (.num 17007339999999999 15))),
  .set (.arr .jac 12) (.add (.rd (.arr .jac 12)) (.mul (.neg (.rd (.var .jTemp))) (.num 1503482 5))),
  .set (.arr .jac 15) (.add (.rd (.arr .jac 15)) (.mul (.rd (.var .jTemp)) (.num 3002628 5)))]

/-- utilities/mechanisms/yao/lib/src/jacobs/jacob_1.c:6547-6553 -/
def jacobT71 : List CStmt := [
  .set (.var .jTemp) (.mul (.mul (.div (.num 1 0) (.rd (.var .T))) (.sub (.mul (.rd (.arr .fwd 71)) (.neg (.num 1 0))) (.mul (.rd (.arr .rev 71)) (.add (.neg (.num 1 0)) (.mul (.neg (.rd (.var .T))) (.sub (.sub (.add (.rd (.arr .dBdT 12)) (.rd (.arr .dBdT 8))) (.rd (.arr .dBdT 11))) (.rd (.arr .dBdT 4)))))))) (.rd (.var .rhoInv))),
  .set (.arr .jac 9) (.add (.rd (.arr .jac 9)) (.mul (.rd (.var .jTemp)) (.num 31998799999999999 15))),
  .set (.arr .jac 13) (.add (.rd (.arr .jac 13)) (.mul (.rd (.var .jTemp)) (.num 16042760000000001 15))),
  .set (.arr .jac 12) (.add (.rd (.arr .jac 12)) (.mul (.neg (.rd (.var .jTemp))) (.num 1503482 5))),
  .set (.arr .jac 5) (.add (.rd (.arr .jac 5)) (.mul (.neg (.rd (.var .jTemp))) (.num 33006740000000001 15)))]

/-- utilities/mechanisms/yao/lib/src/jacobs/jacob_1.c:6778-6784 -/
def jacobT72 : List CStmt := [
  .set (.var .jTemp) (.mul (.mul (.div (.num 1 0) (.rd (.var .T))) (.sub (.mul (.rd (.arr .fwd 72)) (.neg (.num 1 0))) (.mul (.rd (.arr .rev 72)) (.add (.neg (.num 1 0)) (.mul (.neg (.rd (.var .T))) (.sub (.sub (.add (.rd (.arr .dBdT 15)) (.rd (.arr .dBdT 3))) (.rd (.arr .dBdT 11))) (.rd (.arr .dBdT 4)))))))) (.rd (.var .rhoInv))),
  .set (.arr .jac 4) (.add (.rd (.arr .jac 4)) (.mul (.rd (.var .jTemp)) (.num 17007339999999999 15))),
  .set (.arr .jac 12) (.add (.rd (.arr .jac 12)) (.mul (.neg (.rd (.var .jTemp))) (.num 1503482 5))),
  .set (.arr .jac 5) (.add (.rd (.arr .jac 5)) (.mul (.neg (.rd (.var .jTemp))) (.num 33006740000000001 15))),
  .set (.arr .jac 16) (.add (.rd (.arr .jac 16)) (.mul (.rd (.var .jTemp)) (.num 31034219999999998 15)))]

/-- utilities/mechanisms/yao/lib/src/jacobs/jacob_1.c:7009-7015 -/
def jacobT73 : List CStmt := [
  .set (.var .jTemp) (.mul (.mul (.div (.num 1 0) (.rd (.var .T))) (.sub (.add (.mul (.sub (.rd (.arr .fwd 73)) (.rd (.arr .rev 73))) (.add (.num 24700000000000002 16) (.div (.num 26066773459704623 13) (.rd (.var .T))))) (.mul (.rd (.arr .fwd 73)) (.neg (.num 1 0)))) (.mul (.rd (.arr .rev 73)) (.add (.neg (.num 1 0)) (.mul (.neg (.rd (.var .T))) (.sub (.sub (.add (.rd (.arr .dBdT 12)) (.rd (.arr .dBdT 4))) (.rd (.arr .dBdT 11))) (.rd (.arr .dBdT 7)))))))) (.rd (.var .rhoInv))),
  .set (.arr .jac 5) (.add (.rd (.arr .jac 5)) (.mul (.rd (.var .jTemp)) (.num 33006740000000001 15))),
  .set (.arr .jac 12) (.add (.rd (.arr .jac 12)) (.mul (.neg (.rd (.var .jTemp))) (.num 1503482 5))),
  .set (.arr .jac 13) (.add (.rd (.arr .jac 13)) (.mul (.rd (.var .jTemp)) (.num 16042760000000001 15))),
  .set (.arr .jac 8) (.add (.rd (.arr .jac 8)) (.mul (.neg (.rd (.var .jTemp))) (.num 34014679999999998 15)))]

/-- utilities/mechanisms/yao/lib/src/jacobs/jacob_1.c:7240-7246 -/
def jacobT74 : List CStmt := [
  .set (.var .jTemp) (.mul (.mul (.div (.num 1 0) (.rd (.var .T))) (.sub (.mul (.rd (.arr .fwd 74)) (.neg (.num 1 0))) (.mul (.rd (.arr .rev 74)) (.add (.neg (.num 1 0)) (.mul (.neg (.rd (.var .T))) (.sub (.sub (.add (.rd (.arr .dBdT 12)) (.rd (.arr .dBdT 16))) (.rd (.arr .dBdT 11))) (.rd (.arr .dBdT 13)))))))) (.rd (.var .rhoInv))),
  .set (.arr .jac 17) (.add (.rd (.arr .jac 17)) (.mul (.rd (.var .jTemp)) (.num 28010399999999997 15))),
  .set (.arr .jac 12) (.add (.rd (.arr .jac 12)) (.mul (.neg (.rd (.var .jTemp))) (.num 1503482 5))),
  .set (.arr .jac 13) (.add (.rd (.arr .jac 13)) (.mul (.rd (.var .jTemp)) (.num 16042760000000001 15))),
  .set (.arr .jac 14) (.add (.rd (.arr .jac 14)) (.mul (.neg (.rd (.var .jTemp))) (.num 29018339999999998 15)))]

/-- utilities/mechanisms/yao/lib/src/jacobs/jacob_1.c:7471-7477 -/
def jacobT75 : List CStmt := [
  .set (.var .jTemp) (.mul (.mul (.div (.num 1 0) (.rd (.var .T))) (.sub (.add (.mul (.sub (.rd (.arr .fwd 75)) (.rd (.arr .rev 75))) (.add (.num 28100000000000001 16) (.div (.num 29488666500746931 13) (.rd (.var .T))))) (.mul (.rd (.arr .fwd 75)) (.neg (.num 1 0)))) (.mul (.rd (.arr .rev 75)) (.add (.neg (.num 1 0)) (.mul (.neg (.rd (.var .T))) (.sub (.sub (.add (.rd (.arr .dBdT 12)) (.rd (.arr .dBdT 13))) (.rd (.arr .dBdT 14))) (.rd (.arr .dBdT 11)))))))) (.rd (.var .rhoInv))),
  .set (.arr .jac 12) (.add (.rd (.arr .jac 12)) (.mul (.neg (.rd (.var .jTemp))) (.num 1503482 5))),
  .set (.arr .jac 13) (.add (.rd (.arr .jac 13)) (.mul (.rd (.var .jTemp)) (.num 16042760000000001 15))),
  .set (.arr .jac 14) (.add (.rd (.arr .jac 14)) (.mul (.rd (.var .jTemp)) (.num 29018339999999998 15))),
  .set (.arr .jac 15) (.add (.rd (.arr .jac 15)) (.mul (.neg (.rd (.var .jTemp))) (.num 3002628 5)))]

/-- utilities/mechanisms/yao/lib/src/jacobs/jacob_1.c:7702-7708 -/
def jacobT76 : List CStmt := [
  .set (.var .jTemp) (.mul (.mul (.div (.num 1 0) (.rd (.var .T))) (.sub (.mul (.rd (.arr .fwd 76)) (.neg (.num 1 0))) (.mul (.rd (.arr .rev 76)) (.add (.neg (.num 1 0)) (.mul (.neg (.rd (.var .T))) (.sub (.sub (.add (.rd (.arr .dBdT 1)) (.rd (.arr .dBdT 20))) (.rd (.arr .dBdT 9))) (.rd (.arr .dBdT 11)))))))) (.rd (.var .rhoInv))),
  .set (.arr .jac 10) (.add (.rd (.arr .jac 10)) (.mul (.neg (.rd (.var .jTemp))) (.num 14026879999999998 15))),
  .set (.arr .jac 12) (.add (.rd (.arr .jac 12)) (.mul (.neg (.rd (.var .jTemp))) (.num 1503482 5))),
  .set (.arr .jac 21) (.mul (.rd (.var .jTemp)) (.num 28053759999999997 15)),
  .set (.arr .jac 2) (.add (.rd (.arr .jac 2)) (.mul (.rd (.var .jTemp)) (.num 10079400000000001 16)))]

/-- utilities/mechanisms/yao/lib/src/jacobs/jacob_1.c:7933-7939 -/
def jacobT77 : List CStmt := [
  .set (.var .jTemp) (.mul (.mul (.div (.num 1 0) (.rd (.var .T))) (.sub (.add (.mul (.sub (.rd (.arr .fwd 77)) (.rd (.arr .rev 77))) (.div (.neg (.num 28683515196972269 14)) (.rd (.var .T)))) (.mul (.rd (.arr .fwd 77)) (.neg (.num 1 0)))) (.mul (.rd (.arr .rev 77)) (.add (.neg (.num 1 0)) (.mul (.neg (.rd (.var .T))) (.sub (.sub (.add (.rd (.arr .dBdT 1)) (.rd (.arr .dBdT 20))) (.rd (.arr .dBdT 11))) (.rd (.arr .dBdT 10)))))))) (.rd (.var .rhoInv))),
  .set (.arr .jac 2) (.add (.rd (.arr .jac 2)) (.mul (.rd (.var .jTemp)) (.num 10079400000000001 16))),
  .set (.arr .jac 11) (.add (.rd (.arr .jac 11)) (.mul (.neg (.rd (.var .jTemp))) (.num 14026879999999998 15))),
  .set (.arr .jac 12) (.add (.rd (.arr .jac 12)) (.mul (.neg (.rd (.var .jTemp))) (.num 1503482 5))),
  .set (.arr .jac 21) (.add (.rd (.arr .jac 21)) (.mul (.rd (.var .jTemp)) (.num 28053759999999997 15)))]

/-- utilities/mechanisms/yao/lib/src/jacobs/jacob_1.c:8164-8173 -/
def jacobT78 : List CStmt := [
  .set (.var .Pr) (.mul (.rd (.var .concTemp)) (.exp (.sub (.sub (.num 71199701340717226 15) (.mul (.num 87 1) (.rd (.var .logT)))) (.div (.num 28180295632113107 13) (.rd (.var .T)))))),
  .set (.var .Fcent) (.add (.add (.mul (.num 46750000000000003 17) (.exp (.div (.rd (.var .T)) (.neg (.num 151 0))))) (.mul (.num 53249999999999997 17) (.exp (.div (.rd (.var .T)) (.neg (.num 1038 0)))))) (.exp (.div (.neg (.num 4970 0)) (.rd (.var .T))))),
  .set (.var .A) (.sub (.sub (.log10 (.fmax (.rd (.var .Pr)) (.num 1 300))) (.mul (.num 67 2) (.log10 (.fmax (.rd (.var .Fcent)) (.num 1 300))))) (.num 4 1)),
  .set (.var .B) (.sub (.sub (.num 806 3) (.mul (.num 11762 4) (.log10 (.fmax (.rd (.var .Fcent)) (.num 1 300))))) (.mul (.num 14 2) (.log10 (.fmax (.rd (.var .Pr)) (.num 1 300))))),
  .set (.var .lnFAB) (.div (.mul (.mul (.num 2 0) (.log (.fmax (.rd (.var .Fcent)) (.num 1 300)))) (.rd (.var .A))) (.mul (.mul (.mul (.mul (.rd (.var .B)) (.rd (.var .B))) (.rd (.var .B))) (.add (.num 1 0) (.div (.mul (.rd (.var .A)) (.rd (.var .A))) (.mul (.rd (.var .B)) (.rd (.var .B)))))) (.add (.num 1 0) (.div (.mul (.rd (.var .A)) (.rd (.var .A))) (.mul (.rd (.var .B)) (.rd (.var .B))))))),
  .set (.var .jTemp) (.mul (.add (.mul (.mul (.rd (.arr .presMod 13)) (.sub (.add (.div (.sub (.add (.neg (.num 87 1)) (.div (.num 28180295632113107 13) (.rd (.var .T)))) (.num 1 0)) (.mul (.rd (.var .T)) (.add (.num 1 0) (.rd (.var .Pr))))) (.mul (.sub (.div (.num 1 0) (.mul (.rd (.var .Fcent)) (.add (.num 1 0) (.div (.mul (.rd (.var .A)) (.rd (.var .A))) (.mul (.rd (.var .B)) (.rd (.var .B))))))) (.div (.mul (.rd (.var .lnFAB)) (.add (.mul (.neg (.num 2909773028751787 16)) (.rd (.var .B))) (.mul (.num 51081716961460466 17) (.rd (.var .A))))) (.rd (.var .Fcent)))) (.add (.sub (.mul (.neg (.num 30960264900662254 19)) (.exp (.div (.rd (.var .T)) (.neg (.num 151 0))))) (.mul (.num 51300578034682077 20) (.exp (.div (.rd (.var .T)) (.neg (.num 1038 0)))))) (.mul (.div (.num 4970 0) (.mul (.rd (.var .T)) (.rd (.var .T)))) (.exp (.div (.neg (.num 4970 0)) (.rd (.var .T)))))))) (.div (.mul (.mul (.rd (.var .lnFAB)) (.add (.mul (.num 43429448190325176 17) (.rd (.var .B))) (.mul (.num 60801227466455256 18) (.rd (.var .A))))) (.sub (.add (.neg (.num 86999999999999993 16)) (.div (.num 28180295632113107 13) (.rd (.var .T)))) (.num 1 0))) (.rd (.var .T))))) (.sub (.rd (.arr .fwd 78)) (.rd (.arr .rev 78)))) (.mul (.div (.rd (.arr .presMod 13)) (.rd (.var .T))) (.sub (.add (.mul (.sub (.rd (.arr .fwd 78)) (.rd (.arr .rev 78))) (.add (.neg (.num 96999999999999997 17)) (.div (.num 31199613021268084 14) (.rd (.var .T))))) (.mul (.rd (.arr .fwd 78)) (.neg (.num 1 0)))) (.mul (.rd (.arr .rev 78)) (.mul (.neg (.rd (.var .T))) (.sub (.rd (.arr .dBdT 22)) (.mul (.num 2 0) (.rd (.arr .dBdT 11))))))))) (.rd (.var .rhoInv))),
  .set (.arr .jac 12) (.add (.rd (.arr .jac 12)) (.mul (.mul (.rd (.var .jTemp)) (.neg (.num 2 0))) (.num 1503482 5))),
  .set (.arr .jac 23) (.mul (.rd (.var .jTemp)) (.num 3006964 5))]

/-- utilities/mechanisms/yao/lib/src/jacobs/jacob_1.c:8294-8299 -/
def jacobT79 : List CStmt := [
  .set (.var .jTemp) (.mul (.mul (.div (.num 1 0) (.rd (.var .T))) (.sub (.add (.mul (.sub (.rd (.arr .fwd 79)) (.rd (.arr .rev 79))) (.add (.num 10000000000000001 17) (.div (.num 53341273875071238 13) (.rd (.var .T))))) (.mul (.rd (.arr .fwd 79)) (.neg (.num 1 0)))) (.mul (.rd (.arr .rev 79)) (.add (.neg (.num 1 0)) (.mul (.neg (.rd (.var .T))) (.sub (.add (.rd (.arr .dBdT 1)) (.rd (.arr .dBdT 21))) (.mul (.num 2 0) (.rd (.arr .dBdT 11))))))))) (.rd (.var .rhoInv))),
  .set (.arr .jac 2) (.add (.rd (.arr .jac 2)) (.mul (.rd (.var .jTemp)) (.num 10079400000000001 16))),
  .set (.arr .jac 12) (.add (.rd (.arr .jac 12)) (.mul (.mul (.rd (.var .jTemp)) (.neg (.num 2 0))) (.num 1503482 5))),
  .set (.arr .jac 22) (.mul (.rd (.var .jTemp)) (.num 29061699999999998 15))]

/-- The derivatives with respect to the temperature in `eval_jacob_1`, one block per reaction, utilities/mechanisms/yao/lib/src/jacobs/jacob_1.c:5-8470. -/
def jacob1Blocks : List (List CStmt × List CStmt) := [
  (jacobT40, []), (jacobT41, []), (jacobT42, []), (jacobT43, []), (jacobT44, []), (jacobT45, []), (jacobT46, []), (jacobT47, []), (jacobT48, []), (jacobT49, []), (jacobT50, []), (jacobT51, []), (jacobT52, []), (jacobT53, []), (jacobT54, []), (jacobT55, []), (jacobT56, []), (jacobT57, []), (jacobT58, []), (jacobT59, []), (jacobT60, []), (jacobT61, []), (jacobT62, []), (jacobT63, []), (jacobT64, []), (jacobT65, []), (jacobT66, []), (jacobT67, []), (jacobT68, []), (jacobT69, []), (jacobT70, []), (jacobT71, []), (jacobT72, []), (jacobT73, []), (jacobT74, []), (jacobT75, []), (jacobT76, []), (jacobT77, []), (jacobT78, []), (jacobT79, [])]

end DLB.Mech.Yao
