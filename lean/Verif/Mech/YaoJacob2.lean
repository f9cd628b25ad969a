/- Generated by tools/gen_mechanisms.py from utilities/mechanisms/yao/lib/src/jacobs/jacob_2.c. Do not edit. -/
import Verif.Model.CLang
set_option autoImplicit false
set_option maxRecDepth 1000000

namespace DLB.Mech.Yao
open DLB

/-- utilities/mechanisms/yao/lib/src/jacobs/jacob_2.c:5-17 -/
def jacob2Start : List CStmt := [
  .set (.var .logT) (.log (.rd (.var .T))),
  .set (.var .kf) (.num 0 0),
  .set (.var .jTemp) (.num 0 0),
  .set (.var .presModTemp) (.num 0 0),
  .set (.var .Kc) (.num 0 0),
  .set (.var .kr) (.num 0 0),
  .set (.var .Pr) (.num 0 0),
  .set (.var .Fcent) (.num 0 0),
  .set (.var .A) (.num 0 0),
  .set (.var .B) (.num 0 0),
  .set (.var .lnFAB) (.num 0 0),
  .set (.var .rhoInv) (.div (.num 1 0) (.rd (.var .rho)))]

/-- utilities/mechanisms/yao/lib/src/jacobs/jacob_2.c:18-24 -/
def jacobT80 : List CStmt := [
  .set (.var .jTemp) (.mul (.mul (.div (.num 1 0) (.rd (.var .T))) (.sub (.mul (.rd (.arr .fwd 80)) (.neg (.num 1 0))) (.mul (.rd (.arr .rev 80)) (.add (.neg (.num 1 0)) (.mul (.neg (.rd (.var .T))) (.sub (.sub (.add (.rd (.arr .dBdT 14)) (.rd (.arr .dBdT 5))) (.rd (.arr .dBdT 1))) (.rd (.arr .dBdT 15)))))))) (.rd (.var .rhoInv))),
  .set (.arr .jac 2) (.add (.rd (.arr .jac 2)) (.mul (.neg (.rd (.var .jTemp))) (.num 10079400000000001 16))),
  .set (.arr .jac 6) (.add (.rd (.arr .jac 6)) (.mul (.rd (.var .jTemp)) (.num 20158800000000001 16))),
  .set (.arr .jac 15) (.add (.rd (.arr .jac 15)) (.mul (.rd (.var .jTemp)) (.num 3002628 5))),
  .set (.arr .jac 16) (.add (.rd (.arr .jac 16)) (.mul (.neg (.rd (.var .jTemp))) (.num 31034219999999998 15)))]

/-- utilities/mechanisms/yao/lib/src/jacobs/jacob_2.c:249-255 -/
def jacobT81 : List CStmt := [
  .set (.var .jTemp) (.mul (.mul (.div (.num 1 0) (.rd (.var .T))) (.sub (.mul (.rd (.arr .fwd 81)) (.neg (.num 1 0))) (.mul (.rd (.arr .rev 81)) (.add (.neg (.num 1 0)) (.mul (.neg (.rd (.var .T))) (.sub (.sub (.add (.rd (.arr .dBdT 11)) (.rd (.arr .dBdT 3))) (.rd (.arr .dBdT 1))) (.rd (.arr .dBdT 15)))))))) (.rd (.var .rhoInv))),
  .set (.arr .jac 4) (.add (.rd (.arr .jac 4)) (.mul (.rd (.var .jTemp)) (.num 17007339999999999 15))),
  .set (.arr .jac 2) (.add (.rd (.arr .jac 2)) (.mul (.neg (.rd (.var .jTemp))) (.num 10079400000000001 16))),
  .set (.arr .jac 12) (.add (.rd (.arr .jac 12)) (.mul (.rd (.var .jTemp)) (.num 1503482 5))),
  .set (.arr .jac 16) (.add (.rd (.arr .jac 16)) (.mul (.neg (.rd (.var .jTemp))) (.num 31034219999999998 15)))]

/-- utilities/mechanisms/yao/lib/src/jacobs/jacob_2.c:480-486 -/
def jacobT82 : List CStmt := [
  .set (.var .jTemp) (.mul (.mul (.div (.num 1 0) (.rd (.var .T))) (.sub (.mul (.rd (.arr .fwd 82)) (.neg (.num 1 0))) (.mul (.rd (.arr .rev 82)) (.add (.neg (.num 1 0)) (.mul (.neg (.rd (.var .T))) (.sub (.sub (.add (.rd (.arr .dBdT 6)) (.rd (.arr .dBdT 10))) (.rd (.arr .dBdT 1))) (.rd (.arr .dBdT 15)))))))) (.rd (.var .rhoInv))),
  .set (.arr .jac 2) (.add (.rd (.arr .jac 2)) (.mul (.neg (.rd (.var .jTemp))) (.num 10079400000000001 16))),
  .set (.arr .jac 11) (.add (.rd (.arr .jac 11)) (.mul (.rd (.var .jTemp)) (.num 14026879999999998 15))),
  .set (.arr .jac 7) (.add (.rd (.arr .jac 7)) (.mul (.rd (.var .jTemp)) (.num 18015280000000001 15))),
  .set (.arr .jac 16) (.add (.rd (.arr .jac 16)) (.mul (.neg (.rd (.var .jTemp))) (.num 31034219999999998 15)))]

/-- utilities/mechanisms/yao/lib/src/jacobs/jacob_2.c:711-717 -/
def jacobT83 : List CStmt := [
  .set (.var .jTemp) (.mul (.mul (.div (.num 1 0) (.rd (.var .T))) (.sub (.mul (.rd (.arr .fwd 83)) (.neg (.num 1 0))) (.mul (.rd (.arr .rev 83)) (.add (.neg (.num 1 0)) (.mul (.neg (.rd (.var .T))) (.sub (.sub (.add (.rd (.arr .dBdT 14)) (.rd (.arr .dBdT 3))) (.rd (.arr .dBdT 15))) (.rd (.arr .dBdT 2)))))))) (.rd (.var .rhoInv))),
  .set (.arr .jac 3) (.add (.rd (.arr .jac 3)) (.mul (.neg (.rd (.var .jTemp))) (.num 159994 4))),
  .set (.arr .jac 4) (.add (.rd (.arr .jac 4)) (.mul (.rd (.var .jTemp)) (.num 17007339999999999 15))),
  .set (.arr .jac 15) (.add (.rd (.arr .jac 15)) (.mul (.rd (.var .jTemp)) (.num 3002628 5))),
  .set (.arr .jac 16) (.add (.rd (.arr .jac 16)) (.mul (.neg (.rd (.var .jTemp))) (.num 31034219999999998 15)))]

/-- utilities/mechanisms/yao/lib/src/jacobs/jacob_2.c:942-948 -/
def jacobT84 : List CStmt := [
  .set (.var .jTemp) (.mul (.mul (.div (.num 1 0) (.rd (.var .T))) (.sub (.mul (.rd (.arr .fwd 84)) (.neg (.num 1 0))) (.mul (.rd (.arr .rev 84)) (.add (.neg (.num 1 0)) (.mul (.neg (.rd (.var .T))) (.sub (.sub (.add (.rd (.arr .dBdT 14)) (.rd (.arr .dBdT 6))) (.rd (.arr .dBdT 15))) (.rd (.arr .dBdT 3)))))))) (.rd (.var .rhoInv))),
  .set (.arr .jac 4) (.add (.rd (.arr .jac 4)) (.mul (.neg (.rd (.var .jTemp))) (.num 17007339999999999 15))),
  .set (.arr .jac 7) (.add (.rd (.arr .jac 7)) (.mul (.rd (.var .jTemp)) (.num 18015280000000001 15))),
  .set (.arr .jac 15) (.add (.rd (.arr .jac 15)) (.mul (.rd (.var .jTemp)) (.num 3002628 5))),
  .set (.arr .jac 16) (.add (.rd (.arr .jac 16)) (.mul (.neg (.rd (.var .jTemp))) (.num 31034219999999998 15)))]

/-- utilities/mechanisms/yao/lib/src/jacobs/jacob_2.c:1173-1179 -/
def jacobT85 : List CStmt := [
  .set (.var .jTemp) (.mul (.mul (.div (.num 1 0) (.rd (.var .T))) (.sub (.add (.mul (.sub (.rd (.arr .fwd 85)) (.rd (.arr .rev 85))) (.add (.num 75999999999999996 16) (.div (.neg (.num 17763650639528441 13)) (.rd (.var .T))))) (.mul (.rd (.arr .fwd 85)) (.neg (.num 1 0)))) (.mul (.rd (.arr .rev 85)) (.add (.neg (.num 1 0)) (.mul (.neg (.rd (.var .T))) (.sub (.sub (.add (.rd (.arr .dBdT 14)) (.rd (.arr .dBdT 4))) (.rd (.arr .dBdT 15))) (.rd (.arr .dBdT 8)))))))) (.rd (.var .rhoInv))),
  .set (.arr .jac 9) (.add (.rd (.arr .jac 9)) (.mul (.neg (.rd (.var .jTemp))) (.num 31998799999999999 15))),
  .set (.arr .jac 5) (.add (.rd (.arr .jac 5)) (.mul (.rd (.var .jTemp)) (.num 33006740000000001 15))),
  .set (.arr .jac 15) (.add (.rd (.arr .jac 15)) (.mul (.rd (.var .jTemp)) (.num 3002628 5))),
  .set (.arr .jac 16) (.add (.rd (.arr .jac 16)) (.mul (.neg (.rd (.var .jTemp))) (.num 31034219999999998 15)))]

/-- utilities/mechanisms/yao/lib/src/jacobs/jacob_2.c:1404-1410 -/
def jacobT86 : List CStmt := [
  .set (.var .jTemp) (.mul (.mul (.div (.num 1 0) (.rd (.var .T))) (.sub (.add (.mul (.sub (.rd (.arr .fwd 86)) (.rd (.arr .rev 86))) (.add (.num 16200000000000001 16) (.div (.num 5454900083073323 12) (.rd (.var .T))))) (.mul (.rd (.arr .fwd 86)) (.neg (.num 1 0)))) (.mul (.rd (.arr .rev 86)) (.add (.neg (.num 1 0)) (.mul (.neg (.rd (.var .T))) (.sub (.sub (.add (.rd (.arr .dBdT 5)) (.rd (.arr .dBdT 11))) (.rd (.arr .dBdT 1))) (.rd (.arr .dBdT 12)))))))) (.rd (.var .rhoInv))),
  .set (.arr .jac 2) (.add (.rd (.arr .jac 2)) (.mul (.neg (.rd (.var .jTemp))) (.num 10079400000000001 16))),
  .set (.arr .jac 12) (.add (.rd (.arr .jac 12)) (.mul (.rd (.var .jTemp)) (.num 1503482 5))),
  .set (.arr .jac 13) (.add (.rd (.arr .jac 13)) (.mul (.neg (.rd (.var .jTemp))) (.num 16042760000000001 15))),
  .set (.arr .jac 6) (.add (.rd (.arr .jac 6)) (.mul (.rd (.var .jTemp)) (.num 20158800000000001 16)))]

/-- utilities/mechanisms/yao/lib/src/jacobs/jacob_2.c:1635-1641 -/
def jacobT87 : List CStmt := [
  .set (.var .jTemp) (.mul (.mul (.div (.num 1 0) (.rd (.var .T))) (.sub (.add (.mul (.sub (.rd (.arr .fwd 87)) (.rd (.arr .rev 87))) (.add (.num 15 1) (.div (.num 43276882577887991 13) (.rd (.var .T))))) (.mul (.rd (.arr .fwd 87)) (.neg (.num 1 0)))) (.mul (.rd (.arr .rev 87)) (.add (.neg (.num 1 0)) (.mul (.neg (.rd (.var .T))) (.sub (.sub (.add (.rd (.arr .dBdT 11)) (.rd (.arr .dBdT 3))) (.rd (.arr .dBdT 12))) (.rd (.arr .dBdT 2)))))))) (.rd (.var .rhoInv))),
  .set (.arr .jac 4) (.add (.rd (.arr .jac 4)) (.mul (.rd (.var .jTemp)) (.num 17007339999999999 15))),
  .set (.arr .jac 3) (.add (.rd (.arr .jac 3)) (.mul (.neg (.rd (.var .jTemp))) (.num 159994 4))),
  .set (.arr .jac 12) (.add (.rd (.arr .jac 12)) (.mul (.rd (.var .jTemp)) (.num 1503482 5))),
  .set (.arr .jac 13) (.add (.rd (.arr .jac 13)) (.mul (.neg (.rd (.var .jTemp))) (.num 16042760000000001 15)))]

/-- utilities/mechanisms/yao/lib/src/jacobs/jacob_2.c:1866-1872 -/
def jacobT88 : List CStmt := [
  .set (.var .jTemp) (.mul (.mul (.div (.num 1 0) (.rd (.var .T))) (.sub (.add (.mul (.sub (.rd (.arr .fwd 88)) (.rd (.arr .rev 88))) (.add (.num 16000000000000001 16) (.div (.num 15700450423605873 13) (.rd (.var .T))))) (.mul (.rd (.arr .fwd 88)) (.neg (.num 1 0)))) (.mul (.rd (.arr .rev 88)) (.add (.neg (.num 1 0)) (.mul (.neg (.rd (.var .T))) (.sub (.sub (.add (.rd (.arr .dBdT 6)) (.rd (.arr .dBdT 11))) (.rd (.arr .dBdT 12))) (.rd (.arr .dBdT 3)))))))) (.rd (.var .rhoInv))),
  .set (.arr .jac 12) (.add (.rd (.arr .jac 12)) (.mul (.rd (.var .jTemp)) (.num 1503482 5))),
  .set (.arr .jac 4) (.add (.rd (.arr .jac 4)) (.mul (.neg (.rd (.var .jTemp))) (.num 17007339999999999 15))),
  .set (.arr .jac 13) (.add (.rd (.arr .jac 13)) (.mul (.neg (.rd (.var .jTemp))) (.num 16042760000000001 15))),
  .set (.arr .jac 7) (.add (.rd (.arr .jac 7)) (.mul (.rd (.var .jTemp)) (.num 18015280000000001 15)))]

/-- utilities/mechanisms/yao/lib/src/jacobs/jacob_2.c:2097-2102 -/
def jacobT89 : List CStmt := [
  .set (.var .jTemp) (.mul (.mul (.div (.num 1 0) (.rd (.var .T))) (.sub (.add (.mul (.sub (.rd (.arr .fwd 89)) (.rd (.arr .rev 89))) (.add (.num 2 0) (.div (.num 41616258013852748 13) (.rd (.var .T))))) (.mul (.rd (.arr .fwd 89)) (.neg (.num 1 0)))) (.mul (.rd (.arr .rev 89)) (.add (.neg (.num 1 0)) (.mul (.neg (.rd (.var .T))) (.sub (.sub (.mul (.num 2 0) (.rd (.arr .dBdT 11))) (.rd (.arr .dBdT 9))) (.rd (.arr .dBdT 12)))))))) (.rd (.var .rhoInv))),
  .set (.arr .jac 10) (.add (.rd (.arr .jac 10)) (.mul (.neg (.rd (.var .jTemp))) (.num 14026879999999998 15))),
  .set (.arr .jac 12) (.add (.rd (.arr .jac 12)) (.mul (.mul (.rd (.var .jTemp)) (.num 2 0)) (.num 1503482 5))),
  .set (.arr .jac 13) (.add (.rd (.arr .jac 13)) (.mul (.neg (.rd (.var .jTemp))) (.num 16042760000000001 15)))]

/-- utilities/mechanisms/yao/lib/src/jacobs/jacob_2.c:2274-2279 -/
def jacobT90 : List CStmt := [
  .set (.var .jTemp) (.mul (.mul (.div (.num 1 0) (.rd (.var .T))) (.sub (.add (.mul (.sub (.rd (.arr .fwd 90)) (.rd (.arr .rev 90))) (.div (.neg (.num 28683515196972269 14)) (.rd (.var .T)))) (.mul (.rd (.arr .fwd 90)) (.neg (.num 1 0)))) (.mul (.rd (.arr .rev 90)) (.add (.neg (.num 1 0)) (.mul (.neg (.rd (.var .T))) (.sub (.sub (.mul (.num 2 0) (.rd (.arr .dBdT 11))) (.rd (.arr .dBdT 12))) (.rd (.arr .dBdT 10)))))))) (.rd (.var .rhoInv))),
  .set (.arr .jac 11) (.add (.rd (.arr .jac 11)) (.mul (.neg (.rd (.var .jTemp))) (.num 14026879999999998 15))),
  .set (.arr .jac 12) (.add (.rd (.arr .jac 12)) (.mul (.mul (.rd (.var .jTemp)) (.num 2 0)) (.num 1503482 5))),
  .set (.arr .jac 13) (.add (.rd (.arr .jac 13)) (.mul (.neg (.rd (.var .jTemp))) (.num 16042760000000001 15)))]

/-- utilities/mechanisms/yao/lib/src/jacobs/jacob_2.c:2451-2462 -/
def jacobT91 : List CStmt := [
  .set (.var .concTemp) (.add (.add (.add (.add (.add (.add (.add (.add (.sub (.rd (.var .m)) (.mul (.num 3 1) (.rd (.arr .C 0)))) (.mul (.num 1 0) (.rd (.arr .C 5)))) (.mul (.num 5 0) (.rd (.arr .C 6)))) (.mul (.num 1 0) (.rd (.arr .C 12)))) (.mul (.num 5 1) (.rd (.arr .C 16)))) (.mul (.num 1 0) (.rd (.arr .C 17)))) (.mul (.num 2 0) (.rd (.arr .C 18)))) (.mul (.num 2 0) (.rd (.arr .C 20)))) (.mul (.num 2 0) (.rd (.arr .C 22)))),
  .set (.var .Pr) (.mul (.rd (.var .concTemp)) (.exp (.sub (.sub (.num 38735237876044771 15) (.mul (.num 502 2) (.rd (.var .logT)))) (.div (.neg (.num 62876278190022276 14)) (.rd (.var .T)))))),
  .set (.var .Fcent) (.add (.add (.mul (.neg (.num 98160000000000003 17)) (.exp (.div (.rd (.var .T)) (.neg (.num 53836999999999998 13))))) (.mul (.num 19816 4) (.exp (.div (.rd (.var .T)) (.neg (.num 42931999999999997 16)))))) (.exp (.div (.num 79500000000000001 18) (.rd (.var .T))))),
  .set (.var .A) (.sub (.sub (.log10 (.fmax (.rd (.var .Pr)) (.num 1 300))) (.mul (.num 67 2) (.log10 (.fmax (.rd (.var .Fcent)) (.num 1 300))))) (.num 4 1)),
  .set (.var .B) (.sub (.sub (.num 806 3) (.mul (.num 11762 4) (.log10 (.fmax (.rd (.var .Fcent)) (.num 1 300))))) (.mul (.num 14 2) (.log10 (.fmax (.rd (.var .Pr)) (.num 1 300))))),
  .set (.var .lnFAB) (.div (.mul (.mul (.num 2 0) (.log (.fmax (.rd (.var .Fcent)) (.num 1 300)))) (.rd (.var .A))) (.mul (.mul (.mul (.mul (.rd (.var .B)) (.rd (.var .B))) (.rd (.var .B))) (.add (.num 1 0) (.div (.mul (.rd (.var .A)) (.rd (.var .A))) (.mul (.rd (.var .B)) (.rd (.var .B)))))) (.add (.num 1 0) (.div (.mul (.rd (.var .A)) (.rd (.var .A))) (.mul (.rd (.var .B)) (.rd (.var .B))))))),
  .set (.var .jTemp) (.mul (.add (.mul (.mul (.rd (.arr .presMod 14)) (.sub (.add (.div (.sub (.add (.neg (.num 502 2)) (.div (.neg (.num 62876278190022276 14)) (.rd (.var .T)))) (.num 1 0)) (.mul (.rd (.var .T)) (.add (.num 1 0) (.rd (.var .Pr))))) (.mul (.sub (.div (.num 1 0) (.mul (.rd (.var .Fcent)) (.add (.num 1 0) (.div (.mul (.rd (.var .A)) (.rd (.var .A))) (.mul (.rd (.var .B)) (.rd (.var .B))))))) (.div (.mul (.rd (.var .lnFAB)) (.add (.mul (.neg (.num 2909773028751787 16)) (.rd (.var .B))) (.mul (.num 51081716961460466 17) (.rd (.var .A))))) (.rd (.var .Fcent)))) (.add (.sub (.mul (.num 18232813864071178 20) (.exp (.div (.rd (.var .T)) (.neg (.num 53836999999999998 13))))) (.mul (.num 461567129413957 15) (.exp (.div (.rd (.var .T)) (.neg (.num 42931999999999997 16)))))) (.mul (.div (.neg (.num 79500000000000001 18)) (.mul (.rd (.var .T)) (.rd (.var .T)))) (.exp (.div (.num 79500000000000001 18) (.rd (.var .T)))))))) (.div (.mul (.mul (.rd (.var .lnFAB)) (.add (.mul (.num 43429448190325176 17) (.rd (.var .B))) (.mul (.num 60801227466455256 18) (.rd (.var .A))))) (.sub (.add (.neg (.num 50199999999999996 16)) (.div (.neg (.num 62876278190022276 14)) (.rd (.var .T)))) (.num 1 0))) (.rd (.var .T))))) (.sub (.rd (.arr .fwd 91)) (.rd (.arr .rev 91)))) (.mul (.div (.rd (.arr .presMod 14)) (.rd (.var .T))) (.sub (.mul (.sub (.rd (.arr .fwd 91)) (.rd (.arr .rev 91))) (.add (.num 16200000000000001 16) (.div (.num 18643379082815227 12) (.rd (.var .T))))) (.mul (.rd (.arr .rev 91)) (.add (.neg (.num 1 0)) (.mul (.neg (.rd (.var .T))) (.sub (.add (.rd (.arr .dBdT 1)) (.rd (.arr .dBdT 18))) (.rd (.arr .dBdT 19))))))))) (.rd (.var .rhoInv))),
  .set (.arr .jac 2) (.add (.rd (.arr .jac 2)) (.mul (.rd (.var .jTemp)) (.num 10079400000000001 16))),
  .set (.arr .jac 19) (.add (.rd (.arr .jac 19)) (.mul (.rd (.var .jTemp)) (.num 26037879999999998 15))),
  .set (.arr .jac 20) (.mul (.neg (.rd (.var .jTemp))) (.num 27045819999999999 15))]

/-- utilities/mechanisms/yao/lib/src/jacobs/jacob_2.c:2636-2642 -/
def jacobT92 : List CStmt := [
  .set (.var .jTemp) (.mul (.mul (.div (.num 1 0) (.rd (.var .T))) (.sub (.add (.mul (.sub (.rd (.arr .fwd 92)) (.rd (.arr .rev 92))) (.add (.num 2 0) (.div (.num 95611717323240896 14) (.rd (.var .T))))) (.mul (.rd (.arr .fwd 92)) (.neg (.num 1 0)))) (.mul (.rd (.arr .rev 92)) (.add (.neg (.num 1 0)) (.mul (.neg (.rd (.var .T))) (.sub (.sub (.add (.rd (.arr .dBdT 9)) (.rd (.arr .dBdT 16))) (.rd (.arr .dBdT 18))) (.rd (.arr .dBdT 2)))))))) (.rd (.var .rhoInv))),
  .set (.arr .jac 17) (.add (.rd (.arr .jac 17)) (.mul (.rd (.var .jTemp)) (.num 28010399999999997 15))),
  .set (.arr .jac 10) (.add (.rd (.arr .jac 10)) (.mul (.rd (.var .jTemp)) (.num 14026879999999998 15))),
  .set (.arr .jac 19) (.add (.rd (.arr .jac 19)) (.mul (.neg (.rd (.var .jTemp))) (.num 26037879999999998 15))),
  .set (.arr .jac 3) (.add (.rd (.arr .jac 3)) (.mul (.neg (.rd (.var .jTemp))) (.num 159994 4)))]

/-- utilities/mechanisms/yao/lib/src/jacobs/jacob_2.c:2867-2873 -/
def jacobT93 : List CStmt := [
  .set (.var .jTemp) (.mul (.mul (.div (.num 1 0) (.rd (.var .T))) (.sub (.add (.mul (.sub (.rd (.arr .fwd 93)) (.rd (.arr .rev 93))) (.add (.num 4 0) (.div (.neg (.num 10064391297183253 13)) (.rd (.var .T))))) (.mul (.rd (.arr .fwd 93)) (.neg (.num 1 0)))) (.mul (.rd (.arr .rev 93)) (.add (.neg (.num 1 0)) (.mul (.neg (.rd (.var .T))) (.sub (.sub (.add (.rd (.arr .dBdT 11)) (.rd (.arr .dBdT 16))) (.rd (.arr .dBdT 18))) (.rd (.arr .dBdT 3)))))))) (.rd (.var .rhoInv))),
  .set (.arr .jac 12) (.add (.rd (.arr .jac 12)) (.mul (.rd (.var .jTemp)) (.num 1503482 5))),
  .set (.arr .jac 17) (.add (.rd (.arr .jac 17)) (.mul (.rd (.var .jTemp)) (.num 28010399999999997 15))),
  .set (.arr .jac 19) (.add (.rd (.arr .jac 19)) (.mul (.neg (.rd (.var .jTemp))) (.num 26037879999999998 15))),
  .set (.arr .jac 4) (.add (.rd (.arr .jac 4)) (.mul (.neg (.rd (.var .jTemp))) (.num 17007339999999999 15)))]

/-- utilities/mechanisms/yao/lib/src/jacobs/jacob_2.c:3098-3104 -/
def jacobT94 : List CStmt := [
  .set (.var .jTemp) (.mul (.mul (.div (.num 1 0) (.rd (.var .T))) (.sub (.add (.mul (.sub (.rd (.arr .fwd 94)) (.rd (.arr .rev 94))) (.add (.num 2 0) (.div (.num 30193173891549759 13) (.rd (.var .T))))) (.mul (.rd (.arr .fwd 94)) (.neg (.num 1 0)))) (.mul (.rd (.arr .rev 94)) (.add (.neg (.num 1 0)) (.mul (.neg (.rd (.var .T))) (.sub (.sub (.add (.rd (.arr .dBdT 19)) (.rd (.arr .dBdT 16))) (.rd (.arr .dBdT 18))) (.rd (.arr .dBdT 13)))))))) (.rd (.var .rhoInv))),
  .set (.arr .jac 17) (.add (.rd (.arr .jac 17)) (.mul (.rd (.var .jTemp)) (.num 28010399999999997 15))),
  .set (.arr .jac 19) (.add (.rd (.arr .jac 19)) (.mul (.neg (.rd (.var .jTemp))) (.num 26037879999999998 15))),
  .set (.arr .jac 20) (.add (.rd (.arr .jac 20)) (.mul (.rd (.var .jTemp)) (.num 27045819999999999 15))),
  .set (.arr .jac 14) (.add (.rd (.arr .jac 14)) (.mul (.neg (.rd (.var .jTemp))) (.num 29018339999999998 15)))]

/-- utilities/mechanisms/yao/lib/src/jacobs/jacob_2.c:3329-3334 -/
def jacobT95 : List CStmt := [
  .set (.var .jTemp) (.mul (.mul (.div (.num 1 0) (.rd (.var .T))) (.sub (.add (.mul (.sub (.rd (.arr .fwd 95)) (.rd (.arr .rev 95))) (.add (.neg (.num 1282 2)) (.div (.num 17980035052417879 12) (.rd (.var .T))))) (.mul (.rd (.arr .fwd 95)) (.neg (.num 1 0)))) (.mul (.rd (.arr .rev 95)) (.mul (.neg (.rd (.var .T))) (.sub (.sub (.rd (.arr .dBdT 24)) (.rd (.arr .dBdT 11))) (.rd (.arr .dBdT 18))))))) (.rd (.var .rhoInv))),
  .set (.arr .jac 25) (.mul (.rd (.var .jTemp)) (.num 41072699999999998 15)),
  .set (.arr .jac 19) (.add (.rd (.arr .jac 19)) (.mul (.neg (.rd (.var .jTemp))) (.num 26037879999999998 15))),
  .set (.arr .jac 12) (.add (.rd (.arr .jac 12)) (.mul (.neg (.rd (.var .jTemp))) (.num 1503482 5)))]

/-- utilities/mechanisms/yao/lib/src/jacobs/jacob_2.c:3506-3516 -/
def jacobT96 : List CStmt := [
  .set (.var .Pr) (.mul (.rd (.var .concTemp)) (.exp (.sub (.sub (.num 33070243935553826 15) (.mul (.num 413 2) (.rd (.var .logT)))) (.div (.num 15297874771718543 13) (.rd (.var .T)))))),
  .set (.var .Fcent) (.add (.add (.mul (.num 21799999999999997 17) (.exp (.div (.rd (.var .T)) (.neg (.num 20749999999999997 14))))) (.mul (.num 78200000000000003 17) (.exp (.div (.rd (.var .T)) (.neg (.num 2663 0)))))) (.exp (.div (.neg (.num 6095 0)) (.rd (.var .T))))),
  .set (.var .A) (.sub (.sub (.log10 (.fmax (.rd (.var .Pr)) (.num 1 300))) (.mul (.num 67 2) (.log10 (.fmax (.rd (.var .Fcent)) (.num 1 300))))) (.num 4 1)),
  .set (.var .B) (.sub (.sub (.num 806 3) (.mul (.num 11762 4) (.log10 (.fmax (.rd (.var .Fcent)) (.num 1 300))))) (.mul (.num 14 2) (.log10 (.fmax (.rd (.var .Pr)) (.num 1 300))))),
  .set (.var .lnFAB) (.div (.mul (.mul (.num 2 0) (.log (.fmax (.rd (.var .Fcent)) (.num 1 300)))) (.rd (.var .A))) (.mul (.mul (.mul (.mul (.rd (.var .B)) (.rd (.var .B))) (.rd (.var .B))) (.add (.num 1 0) (.div (.mul (.rd (.var .A)) (.rd (.var .A))) (.mul (.rd (.var .B)) (.rd (.var .B)))))) (.add (.num 1 0) (.div (.mul (.rd (.var .A)) (.rd (.var .A))) (.mul (.rd (.var .B)) (.rd (.var .B))))))),
  .set (.var .jTemp) (.mul (.add (.mul (.mul (.rd (.arr .presMod 15)) (.sub (.add (.div (.sub (.add (.neg (.num 413 2)) (.div (.num 15297874771718543 13) (.rd (.var .T)))) (.num 1 0)) (.mul (.rd (.var .T)) (.add (.num 1 0) (.rd (.var .Pr))))) (.mul (.sub (.div (.num 1 0) (.mul (.rd (.var .Fcent)) (.add (.num 1 0) (.div (.mul (.rd (.var .A)) (.rd (.var .A))) (.mul (.rd (.var .B)) (.rd (.var .B))))))) (.div (.mul (.rd (.var .lnFAB)) (.add (.mul (.neg (.num 2909773028751787 16)) (.rd (.var .B))) (.mul (.num 51081716961460466 17) (.rd (.var .A))))) (.rd (.var .Fcent)))) (.add (.sub (.mul (.neg (.num 10506024096385543 19)) (.exp (.div (.rd (.var .T)) (.neg (.num 20749999999999997 14))))) (.mul (.num 29365377393916639 20) (.exp (.div (.rd (.var .T)) (.neg (.num 2663 0)))))) (.mul (.div (.num 6095 0) (.mul (.rd (.var .T)) (.rd (.var .T)))) (.exp (.div (.neg (.num 6095 0)) (.rd (.var .T)))))))) (.div (.mul (.mul (.rd (.var .lnFAB)) (.add (.mul (.num 43429448190325176 17) (.rd (.var .B))) (.mul (.num 60801227466455256 18) (.rd (.var .A))))) (.sub (.add (.neg (.num 41299999999999999 16)) (.div (.num 15297874771718543 13) (.rd (.var .T)))) (.num 1 0))) (.rd (.var .T))))) (.sub (.rd (.arr .fwd 96)) (.rd (.arr .rev 96)))) (.mul (.div (.rd (.arr .presMod 15)) (.rd (.var .T))) (.sub (.add (.mul (.sub (.rd (.arr .fwd 96)) (.rd (.arr .rev 96))) (.add (.num 27000000000000002 17) (.div (.num 14090147816056555 14) (.rd (.var .T))))) (.mul (.rd (.arr .fwd 96)) (.neg (.num 1 0)))) (.mul (.rd (.arr .rev 96)) (.mul (.neg (.rd (.var .T))) (.sub (.sub (.rd (.arr .dBdT 20)) (.rd (.arr .dBdT 1))) (.rd (.arr .dBdT 19)))))))) (.rd (.var .rhoInv))),
  .set (.arr .jac 2) (.add (.rd (.arr .jac 2)) (.mul (.neg (.rd (.var .jTemp))) (.num 10079400000000001 16))),
  .set (.arr .jac 20) (.add (.rd (.arr .jac 20)) (.mul (.neg (.rd (.var .jTemp))) (.num 27045819999999999 15))),
  .set (.arr .jac 21) (.add (.rd (.arr .jac 21)) (.mul (.rd (.var .jTemp)) (.num 28053759999999997 15)))]

/-- utilities/mechanisms/yao/lib/src/jacobs/jacob_2.c:3690-3696 -/
def jacobT97 : List CStmt := [
  .set (.var .jTemp) (.mul (.mul (.div (.num 1 0) (.rd (.var .T))) (.sub (.mul (.rd (.arr .fwd 97)) (.neg (.num 1 0))) (.mul (.rd (.arr .rev 97)) (.add (.neg (.num 1 0)) (.mul (.neg (.rd (.var .T))) (.sub (.sub (.add (.rd (.arr .dBdT 5)) (.rd (.arr .dBdT 18))) (.rd (.arr .dBdT 1))) (.rd (.arr .dBdT 19)))))))) (.rd (.var .rhoInv))),
  .set (.arr .jac 2) (.add (.rd (.arr .jac 2)) (.mul (.neg (.rd (.var .jTemp))) (.num 10079400000000001 16))),
  .set (.arr .jac 19) (.add (.rd (.arr .jac 19)) (.mul (.rd (.var .jTemp)) (.num 26037879999999998 15))),
  .set (.arr .jac 20) (.add (.rd (.arr .jac 20)) (.mul (.neg (.rd (.var .jTemp))) (.num 27045819999999999 15))),
  .set (.arr .jac 6) (.add (.rd (.arr .jac 6)) (.mul (.rd (.var .jTemp)) (.num 20158800000000001 16)))]

/-- utilities/mechanisms/yao/lib/src/jacobs/jacob_2.c:3921-3927 -/
def jacobT98 : List CStmt := [
  .set (.var .jTemp) (.mul (.mul (.div (.num 1 0) (.rd (.var .T))) (.sub (.mul (.rd (.arr .fwd 98)) (.neg (.num 1 0))) (.mul (.rd (.arr .rev 98)) (.add (.neg (.num 1 0)) (.mul (.neg (.rd (.var .T))) (.sub (.sub (.add (.rd (.arr .dBdT 11)) (.rd (.arr .dBdT 16))) (.rd (.arr .dBdT 19))) (.rd (.arr .dBdT 2)))))))) (.rd (.var .rhoInv))),
  .set (.arr .jac 12) (.add (.rd (.arr .jac 12)) (.mul (.rd (.var .jTemp)) (.num 1503482 5))),
  .set (.arr .jac 17) (.add (.rd (.arr .jac 17)) (.mul (.rd (.var .jTemp)) (.num 28010399999999997 15))),
  .set (.arr .jac 3) (.add (.rd (.arr .jac 3)) (.mul (.neg (.rd (.var .jTemp))) (.num 159994 4))),
  .set (.arr .jac 20) (.add (.rd (.arr .jac 20)) (.mul (.neg (.rd (.var .jTemp))) (.num 27045819999999999 15)))]

/-- utilities/mechanisms/yao/lib/src/jacobs/jacob_2.c:4152-4158 -/
def jacobT99 : List CStmt := [
  .set (.var .jTemp) (.mul (.mul (.div (.num 1 0) (.rd (.var .T))) (.sub (.mul (.rd (.arr .fwd 99)) (.neg (.num 1 0))) (.mul (.rd (.arr .rev 99)) (.add (.neg (.num 1 0)) (.mul (.neg (.rd (.var .T))) (.sub (.sub (.add (.rd (.arr .dBdT 6)) (.rd (.arr .dBdT 18))) (.rd (.arr .dBdT 19))) (.rd (.arr .dBdT 3)))))))) (.rd (.var .rhoInv))),
  .set (.arr .jac 4) (.add (.rd (.arr .jac 4)) (.mul (.neg (.rd (.var .jTemp))) (.num 17007339999999999 15))),
  .set (.arr .jac 19) (.add (.rd (.arr .jac 19)) (.mul (.rd (.var .jTemp)) (.num 26037879999999998 15))),
  .set (.arr .jac 20) (.add (.rd (.arr .jac 20)) (.mul (.neg (.rd (.var .jTemp))) (.num 27045819999999999 15))),
  .set (.arr .jac 7) (.add (.rd (.arr .jac 7)) (.mul (.rd (.var .jTemp)) (.num 18015280000000001 15)))]

/-- utilities/mechanisms/yao/lib/src/jacobs/jacob_2.c:4383-4389 -/
def jacobT100 : List CStmt := [
  .set (.var .jTemp) (.mul (.mul (.div (.num 1 0) (.rd (.var .T))) (.sub (.add (.mul (.sub (.rd (.arr .fwd 100)) (.rd (.arr .rev 100))) (.add (.num 16100000000000001 16) (.div (.neg (.num 19293438116700293 14)) (.rd (.var .T))))) (.mul (.rd (.arr .fwd 100)) (.neg (.num 1 0)))) (.mul (.rd (.arr .rev 100)) (.add (.neg (.num 1 0)) (.mul (.neg (.rd (.var .T))) (.sub (.sub (.add (.rd (.arr .dBdT 4)) (.rd (.arr .dBdT 18))) (.rd (.arr .dBdT 19))) (.rd (.arr .dBdT 8)))))))) (.rd (.var .rhoInv))),
  .set (.arr .jac 9) (.add (.rd (.arr .jac 9)) (.mul (.neg (.rd (.var .jTemp))) (.num 31998799999999999 15))),
  .set (.arr .jac 19) (.add (.rd (.arr .jac 19)) (.mul (.rd (.var .jTemp)) (.num 26037879999999998 15))),
  .set (.arr .jac 20) (.add (.rd (.arr .jac 20)) (.mul (.neg (.rd (.var .jTemp))) (.num 27045819999999999 15))),
  .set (.arr .jac 5) (.add (.rd (.arr .jac 5)) (.mul (.rd (.var .jTemp)) (.num 33006740000000001 15)))]

/-- utilities/mechanisms/yao/lib/src/jacobs/jacob_2.c:4614-4620 -/
def jacobT101 : List CStmt := [
  .set (.var .jTemp) (.mul (.mul (.div (.num 1 0) (.rd (.var .T))) (.sub (.add (.mul (.sub (.rd (.arr .fwd 101)) (.rd (.arr .rev 101))) (.add (.num 28999999999999998 17) (.div (.num 5535415213450789 15) (.rd (.var .T))))) (.mul (.rd (.arr .fwd 101)) (.neg (.num 1 0)))) (.mul (.rd (.arr .rev 101)) (.add (.neg (.num 1 0)) (.mul (.neg (.rd (.var .T))) (.sub (.sub (.add (.rd (.arr .dBdT 23)) (.rd (.arr .dBdT 2))) (.rd (.arr .dBdT 19))) (.rd (.arr .dBdT 8)))))))) (.rd (.var .rhoInv))),
  .set (.arr .jac 9) (.add (.rd (.arr .jac 9)) (.mul (.neg (.rd (.var .jTemp))) (.num 31998799999999999 15))),
  .set (.arr .jac 3) (.add (.rd (.arr .jac 3)) (.mul (.rd (.var .jTemp)) (.num 159994 4))),
  .set (.arr .jac 20) (.add (.rd (.arr .jac 20)) (.mul (.neg (.rd (.var .jTemp))) (.num 27045819999999999 15))),
  .set (.arr .jac 24) (.mul (.rd (.var .jTemp)) (.num 4304522 5))]

/-- utilities/mechanisms/yao/lib/src/jacobs/jacob_2.c:4845-4851 -/
def jacobT102 : List CStmt := [
  .set (.var .jTemp) (.mul (.mul (.div (.num 1 0) (.rd (.var .T))) (.sub (.add (.mul (.sub (.rd (.arr .fwd 102)) (.rd (.arr .rev 102))) (.add (.neg (.num 13899999999999999 16)) (.div (.num 50825176050775428 14) (.rd (.var .T))))) (.mul (.rd (.arr .fwd 102)) (.neg (.num 1 0)))) (.mul (.rd (.arr .rev 102)) (.add (.neg (.num 1 0)) (.mul (.neg (.rd (.var .T))) (.sub (.sub (.add (.rd (.arr .dBdT 14)) (.rd (.arr .dBdT 13))) (.rd (.arr .dBdT 19))) (.rd (.arr .dBdT 8)))))))) (.rd (.var .rhoInv))),
  .set (.arr .jac 9) (.add (.rd (.arr .jac 9)) (.mul (.neg (.rd (.var .jTemp))) (.num 31998799999999999 15))),
  .set (.arr .jac 20) (.add (.rd (.arr .jac 20)) (.mul (.neg (.rd (.var .jTemp))) (.num 27045819999999999 15))),
  .set (.arr .jac 14) (.add (.rd (.arr .jac 14)) (.mul (.rd (.var .jTemp)) (.num 29018339999999998 15))),
  .set (.arr .jac 15) (.add (.rd (.arr .jac 15)) (.mul (.rd (.var .jTemp)) (.num 3002628 5)))]

/-- utilities/mechanisms/yao/lib/src/jacobs/jacob_2.c:5076-5082 -/
def jacobT103 : List CStmt := [
  .set (.var .jTemp) (.mul (.mul (.div (.num 1 0) (.rd (.var .T))) (.sub (.mul (.rd (.arr .fwd 103)) (.neg (.num 1 0))) (.mul (.rd (.arr .rev 103)) (.add (.neg (.num 1 0)) (.mul (.neg (.rd (.var .T))) (.sub (.sub (.add (.rd (.arr .dBdT 23)) (.rd (.arr .dBdT 3))) (.rd (.arr .dBdT 19))) (.rd (.arr .dBdT 4)))))))) (.rd (.var .rhoInv))),
  .set (.arr .jac 4) (.add (.rd (.arr .jac 4)) (.mul (.rd (.var .jTemp)) (.num 17007339999999999 15))),
  .set (.arr .jac 20) (.add (.rd (.arr .jac 20)) (.mul (.neg (.rd (.var .jTemp))) (.num 27045819999999999 15))),
  .set (.arr .jac 5) (.add (.rd (.arr .jac 5)) (.mul (.neg (.rd (.var .jTemp))) (.num 33006740000000001 15))),
  .set (.arr .jac 24) (.add (.rd (.arr .jac 24)) (.mul (.rd (.var .jTemp)) (.num 4304522 5)))]

/-- utilities/mechanisms/yao/lib/src/jacobs/jacob_2.c:5307-5313 -/
def jacobT104 : List CStmt := [
  .set (.var .jTemp) (.mul (.mul (.div (.num 1 0) (.rd (.var .T))) (.sub (.add (.mul (.sub (.rd (.arr .fwd 104)) (.rd (.arr .rev 104))) (.div (.neg (.num 29991886065606093 14)) (.rd (.var .T)))) (.mul (.rd (.arr .fwd 104)) (.neg (.num 1 0)))) (.mul (.rd (.arr .rev 104)) (.add (.neg (.num 1 0)) (.mul (.neg (.rd (.var .T))) (.sub (.sub (.add (.rd (.arr .dBdT 20)) (.rd (.arr .dBdT 4))) (.rd (.arr .dBdT 19))) (.rd (.arr .dBdT 7)))))))) (.rd (.var .rhoInv))),
  .set (.arr .jac 5) (.add (.rd (.arr .jac 5)) (.mul (.rd (.var .jTemp)) (.num 33006740000000001 15))),
  .set (.arr .jac 20) (.add (.rd (.arr .jac 20)) (.mul (.neg (.rd (.var .jTemp))) (.num 27045819999999999 15))),
  .set (.arr .jac 21) (.add (.rd (.arr .jac 21)) (.mul (.rd (.var .jTemp)) (.num 28053759999999997 15))),
  .set (.arr .jac 8) (.add (.rd (.arr .jac 8)) (.mul (.neg (.rd (.var .jTemp))) (.num 34014679999999998 15)))]

/-- utilities/mechanisms/yao/lib/src/jacobs/jacob_2.c:5538-5544 -/
def jacobT105 : List CStmt := [
  .set (.var .jTemp) (.mul (.mul (.div (.num 1 0) (.rd (.var .T))) (.sub (.mul (.rd (.arr .fwd 105)) (.neg (.num 1 0))) (.mul (.rd (.arr .rev 105)) (.add (.neg (.num 1 0)) (.mul (.neg (.rd (.var .T))) (.sub (.sub (.add (.rd (.arr .dBdT 20)) (.rd (.arr .dBdT 16))) (.rd (.arr .dBdT 19))) (.rd (.arr .dBdT 13)))))))) (.rd (.var .rhoInv))),
  .set (.arr .jac 17) (.add (.rd (.arr .jac 17)) (.mul (.rd (.var .jTemp)) (.num 28010399999999997 15))),
  .set (.arr .jac 20) (.add (.rd (.arr .jac 20)) (.mul (.neg (.rd (.var .jTemp))) (.num 27045819999999999 15))),
  .set (.arr .jac 21) (.add (.rd (.arr .jac 21)) (.mul (.rd (.var .jTemp)) (.num 28053759999999997 15))),
  .set (.arr .jac 14) (.add (.rd (.arr .jac 14)) (.mul (.neg (.rd (.var .jTemp))) (.num 29018339999999998 15)))]

/-- utilities/mechanisms/yao/lib/src/jacobs/jacob_2.c:5769-5774 -/
def jacobT106 : List CStmt := [
  .set (.var .jTemp) (.mul (.mul (.div (.num 1 0) (.rd (.var .T))) (.sub (.mul (.rd (.arr .fwd 106)) (.neg (.num 1 0))) (.mul (.rd (.arr .rev 106)) (.mul (.neg (.rd (.var .T))) (.sub (.sub (.rd (.arr .dBdT 27)) (.rd (.arr .dBdT 19))) (.rd (.arr .dBdT 13))))))) (.rd (.var .rhoInv))),
  .set (.arr .jac 28) (.mul (.rd (.var .jTemp)) (.num 56064160000000001 15)),
  .set (.arr .jac 20) (.add (.rd (.arr .jac 20)) (.mul (.neg (.rd (.var .jTemp))) (.num 27045819999999999 15))),
  .set (.arr .jac 14) (.add (.rd (.arr .jac 14)) (.mul (.neg (.rd (.var .jTemp))) (.num 29018339999999998 15)))]

/-- utilities/mechanisms/yao/lib/src/jacobs/jacob_2.c:5946-5952 -/
def jacobT107 : List CStmt := [
  .set (.var .jTemp) (.mul (.mul (.div (.num 1 0) (.rd (.var .T))) (.sub (.mul (.rd (.arr .fwd 107)) (.neg (.num 1 0))) (.mul (.rd (.arr .rev 107)) (.add (.neg (.num 1 0)) (.mul (.neg (.rd (.var .T))) (.sub (.sub (.add (.rd (.arr .dBdT 12)) (.rd (.arr .dBdT 18))) (.rd (.arr .dBdT 11))) (.rd (.arr .dBdT 19)))))))) (.rd (.var .rhoInv))),
  .set (.arr .jac 20) (.add (.rd (.arr .jac 20)) (.mul (.neg (.rd (.var .jTemp))) (.num 27045819999999999 15))),
  .set (.arr .jac 19) (.add (.rd (.arr .jac 19)) (.mul (.rd (.var .jTemp)) (.num 26037879999999998 15))),
  .set (.arr .jac 12) (.add (.rd (.arr .jac 12)) (.mul (.neg (.rd (.var .jTemp))) (.num 1503482 5))),
  .set (.arr .jac 13) (.add (.rd (.arr .jac 13)) (.mul (.rd (.var .jTemp)) (.num 16042760000000001 15)))]

/-- utilities/mechanisms/yao/lib/src/jacobs/jacob_2.c:6177-6187 -/
def jacobT108 : List CStmt := [
  .set (.var .Pr) (.mul (.rd (.var .concTemp)) (.exp (.sub (.sub (.num 97243897001116295 15) (.mul (.num 1194 2) (.rd (.var .logT)))) (.div (.num 49163545047610469 13) (.rd (.var .T)))))),
  .set (.var .Fcent) (.add (.add (.mul (.num 82499999999999996 17) (.exp (.div (.rd (.var .T)) (.neg (.num 13405999999999999 13))))) (.mul (.num 17499999999999999 17) (.exp (.div (.rd (.var .T)) (.neg (.num 60000 0)))))) (.exp (.div (.neg (.num 10139799999999999 12)) (.rd (.var .T))))),
  .set (.var .A) (.sub (.sub (.log10 (.fmax (.rd (.var .Pr)) (.num 1 300))) (.mul (.num 67 2) (.log10 (.fmax (.rd (.var .Fcent)) (.num 1 300))))) (.num 4 1)),
  .set (.var .B) (.sub (.sub (.num 806 3) (.mul (.num 11762 4) (.log10 (.fmax (.rd (.var .Fcent)) (.num 1 300))))) (.mul (.num 14 2) (.log10 (.fmax (.rd (.var .Pr)) (.num 1 300))))),
  .set (.var .lnFAB) (.div (.mul (.mul (.num 2 0) (.log (.fmax (.rd (.var .Fcent)) (.num 1 300)))) (.rd (.var .A))) (.mul (.mul (.mul (.mul (.rd (.var .B)) (.rd (.var .B))) (.rd (.var .B))) (.add (.num 1 0) (.div (.mul (.rd (.var .A)) (.rd (.var .A))) (.mul (.rd (.var .B)) (.rd (.var .B)))))) (.add (.num 1 0) (.div (.mul (.rd (.var .A)) (.rd (.var .A))) (.mul (.rd (.var .B)) (.rd (.var .B))))))),
  .set (.var .jTemp) (.mul (.add (.mul (.mul (.rd (.arr .presMod 16)) (.sub (.add (.div (.sub (.add (.neg (.num 1194 2)) (.div (.num 49163545047610469 13) (.rd (.var .T)))) (.num 1 0)) (.mul (.rd (.var .T)) (.add (.num 1 0) (.rd (.var .Pr))))) (.mul (.sub (.div (.num 1 0) (.mul (.rd (.var .Fcent)) (.add (.num 1 0) (.div (.mul (.rd (.var .A)) (.rd (.var .A))) (.mul (.rd (.var .B)) (.rd (.var .B))))))) (.div (.mul (.rd (.var .lnFAB)) (.add (.mul (.neg (.num 2909773028751787 16)) (.rd (.var .B))) (.mul (.num 51081716961460466 17) (.rd (.var .A))))) (.rd (.var .Fcent)))) (.add (.sub (.mul (.neg (.num 61539609130240188 20)) (.exp (.div (.rd (.var .T)) (.neg (.num 13405999999999999 13))))) (.mul (.num 29166666666666666 22) (.exp (.div (.rd (.var .T)) (.neg (.num 60000 0)))))) (.mul (.div (.num 10139799999999999 12) (.mul (.rd (.var .T)) (.rd (.var .T)))) (.exp (.div (.neg (.num 10139799999999999 12)) (.rd (.var .T)))))))) (.div (.mul (.mul (.rd (.var .lnFAB)) (.add (.mul (.num 43429448190325176 17) (.rd (.var .B))) (.mul (.num 60801227466455256 18) (.rd (.var .A))))) (.sub (.add (.neg (.num 1194 2)) (.div (.num 49163545047610469 13) (.rd (.var .T)))) (.num 1 0))) (.rd (.var .T))))) (.sub (.rd (.arr .fwd 108)) (.rd (.arr .rev 108)))) (.mul (.div (.rd (.arr .presMod 16)) (.rd (.var .T))) (.sub (.mul (.rd (.arr .fwd 108)) (.neg (.num 1 0))) (.mul (.rd (.arr .rev 108)) (.mul (.neg (.rd (.var .T))) (.sub (.sub (.rd (.arr .dBdT 25)) (.rd (.arr .dBdT 11))) (.rd (.arr .dBdT 19)))))))) (.rd (.var .rhoInv))),
  .set (.arr .jac 20) (.add (.rd (.arr .jac 20)) (.mul (.neg (.rd (.var .jTemp))) (.num 27045819999999999 15))),
  .set (.arr .jac 26) (.mul (.rd (.var .jTemp)) (.num 42080640000000002 15)),
  .set (.arr .jac 12) (.add (.rd (.arr .jac 12)) (.mul (.neg (.rd (.var .jTemp))) (.num 1503482 5)))]

/-- utilities/mechanisms/yao/lib/src/jacobs/jacob_2.c:6361-6367 -/
def jacobT109 : List CStmt := [
  .set (.var .jTemp) (.mul (.mul (.div (.num 1 0) (.rd (.var .T))) (.sub (.add (.mul (.sub (.rd (.arr .fwd 109)) (.rd (.arr .rev 109))) (.add (.neg (.num 28300000000000001 16)) (.div (.num 93689418585478907 13) (.rd (.var .T))))) (.mul (.rd (.arr .fwd 109)) (.neg (.num 1 0)))) (.mul (.rd (.arr .rev 109)) (.add (.neg (.num 1 0)) (.mul (.neg (.rd (.var .T))) (.sub (.sub (.add (.rd (.arr .dBdT 1)) (.rd (.arr .dBdT 24))) (.rd (.arr .dBdT 11))) (.rd (.arr .dBdT 19)))))))) (.rd (.var .rhoInv))),
  .set (.arr .jac 20) (.add (.rd (.arr .jac 20)) (.mul (.neg (.rd (.var .jTemp))) (.num 27045819999999999 15))),
  .set (.arr .jac 2) (.add (.rd (.arr .jac 2)) (.mul (.rd (.var .jTemp)) (.num 10079400000000001 16))),
  .set (.arr .jac 12) (.add (.rd (.arr .jac 12)) (.mul (.neg (.rd (.var .jTemp))) (.num 1503482 5))),
  .set (.arr .jac 25) (.add (.rd (.arr .jac 25)) (.mul (.rd (.var .jTemp)) (.num 41072699999999998 15)))]

/-- utilities/mechanisms/yao/lib/src/jacobs/jacob_2.c:6592-6597 -/
def jacobT110 : List CStmt := [
  .set (.var .jTemp) (.mul (.mul (.div (.num 1 0) (.rd (.var .T))) (.sub (.mul (.rd (.arr .fwd 110)) (.neg (.num 1 0))) (.mul (.rd (.arr .rev 110)) (.add (.neg (.num 1 0)) (.mul (.neg (.rd (.var .T))) (.sub (.add (.rd (.arr .dBdT 20)) (.rd (.arr .dBdT 18))) (.mul (.num 2 0) (.rd (.arr .dBdT 19))))))))) (.rd (.var .rhoInv))),
  .set (.arr .jac 19) (.add (.rd (.arr .jac 19)) (.mul (.rd (.var .jTemp)) (.num 26037879999999998 15))),
  .set (.arr .jac 20) (.add (.rd (.arr .jac 20)) (.mul (.mul (.rd (.var .jTemp)) (.neg (.num 2 0))) (.num 27045819999999999 15))),
  .set (.arr .jac 21) (.add (.rd (.arr .jac 21)) (.mul (.rd (.var .jTemp)) (.num 28053759999999997 15)))]

/-- utilities/mechanisms/yao/lib/src/jacobs/jacob_2.c:6769-6774 -/
def jacobT111 : List CStmt := [
  .set (.var .jTemp) (.mul (.mul (.div (.num 1 0) (.rd (.var .T))) (.sub (.mul (.sub (.rd (.arr .fwd 111)) (.rd (.arr .rev 111))) (.add (.neg (.num 91470000000000002 16)) (.div (.num 23600997591894728 12) (.rd (.var .T))))) (.mul (.rd (.arr .rev 111)) (.add (.neg (.num 1 0)) (.mul (.neg (.rd (.var .T))) (.sub (.add (.rd (.arr .dBdT 11)) (.rd (.arr .dBdT 16))) (.rd (.arr .dBdT 23)))))))) (.rd (.var .rhoInv))),
  .set (.arr .jac 17) (.add (.rd (.arr .jac 17)) (.mul (.rd (.var .jTemp)) (.num 28010399999999997 15))),
  .set (.arr .jac 12) (.add (.rd (.arr .jac 12)) (.mul (.rd (.var .jTemp)) (.num 1503482 5))),
  .set (.arr .jac 24) (.add (.rd (.arr .jac 24)) (.mul (.neg (.rd (.var .jTemp))) (.num 4304522 5)))]

/-- utilities/mechanisms/yao/lib/src/jacobs/jacob_2.c:6946-6952 -/
def jacobT112 : List CStmt := [
  .set (.var .jTemp) (.mul (.mul (.div (.num 1 0) (.rd (.var .T))) (.sub (.mul (.rd (.arr .fwd 112)) (.neg (.num 1 0))) (.mul (.rd (.arr .rev 112)) (.add (.neg (.num 1 0)) (.mul (.neg (.rd (.var .T))) (.sub (.sub (.add (.rd (.arr .dBdT 11)) (.rd (.arr .dBdT 13))) (.rd (.arr .dBdT 23))) (.rd (.arr .dBdT 1)))))))) (.rd (.var .rhoInv))),
  .set (.arr .jac 2) (.add (.rd (.arr .jac 2)) (.mul (.neg (.rd (.var .jTemp))) (.num 10079400000000001 16))),
  .set (.arr .jac 12) (.add (.rd (.arr .jac 12)) (.mul (.rd (.var .jTemp)) (.num 1503482 5))),
  .set (.arr .jac 14) (.add (.rd (.arr .jac 14)) (.mul (.rd (.var .jTemp)) (.num 29018339999999998 15))),
  .set (.arr .jac 24) (.add (.rd (.arr .jac 24)) (.mul (.neg (.rd (.var .jTemp))) (.num 4304522 5)))]

/-- utilities/mechanisms/yao/lib/src/jacobs/jacob_2.c:7177-7184 -/
def jacobT113 : List CStmt := [
  .set (.var .jTemp) (.mul (.mul (.div (.num 1 0) (.rd (.var .T))) (.sub (.mul (.rd (.arr .fwd 113)) (.neg (.num 1 0))) (.mul (.rd (.arr .rev 113)) (.add (.neg (.num 2 0)) (.mul (.neg (.rd (.var .T))) (.sub (.sub (.add (.add (.rd (.arr .dBdT 14)) (.rd (.arr .dBdT 16))) (.rd (.arr .dBdT 3))) (.rd (.arr .dBdT 23))) (.rd (.arr .dBdT 8)))))))) (.rd (.var .rhoInv))),
  .set (.arr .jac 9) (.add (.rd (.arr .jac 9)) (.mul (.neg (.rd (.var .jTemp))) (.num 31998799999999999 15))),
  .set (.arr .jac 17) (.add (.rd (.arr .jac 17)) (.mul (.rd (.var .jTemp)) (.num 28010399999999997 15))),
  .set (.arr .jac 4) (.add (.rd (.arr .jac 4)) (.mul (.rd (.var .jTemp)) (.num 17007339999999999 15))),
  .set (.arr .jac 15) (.add (.rd (.arr .jac 15)) (.mul (.rd (.var .jTemp)) (.num 3002628 5))),
  .set (.arr .jac 24) (.add (.rd (.arr .jac 24)) (.mul (.neg (.rd (.var .jTemp))) (.num 4304522 5)))]

/-- utilities/mechanisms/yao/lib/src/jacobs/jacob_2.c:7462-7473 -/
def jacobT114 : List CStmt := [
  .set (.var .concTemp) (.add (.rd (.var .concTemp)) (.sub (.mul (.neg (.num 2 0)) (.rd (.arr .C 18))) (.mul (.num 2 0) (.rd (.arr .C 20))))),
  .set (.var .Pr) (.mul (.rd (.var .concTemp)) (.exp (.sub (.sub (.num 13986234725943399 15) (.mul (.num 128 2) (.rd (.var .logT)))) (.div (.neg (.num 26940865843865004 14)) (.rd (.var .T)))))),
  .set (.var .Fcent) (.add (.mul (.num 23999999999999999 17) (.exp (.div (.rd (.var .T)) (.neg (.num 40 0))))) (.mul (.num 76000000000000001 17) (.exp (.div (.rd (.var .T)) (.neg (.num 1025 0)))))),
  .set (.var .A) (.sub (.sub (.log10 (.fmax (.rd (.var .Pr)) (.num 1 300))) (.mul (.num 67 2) (.log10 (.fmax (.rd (.var .Fcent)) (.num 1 300))))) (.num 4 1)),
  .set (.var .B) (.sub (.sub (.num 806 3) (.mul (.num 11762 4) (.log10 (.fmax (.rd (.var .Fcent)) (.num 1 300))))) (.mul (.num 14 2) (.log10 (.fmax (.rd (.var .Pr)) (.num 1 300))))),
  .set (.var .lnFAB) (.div (.mul (.mul (.num 2 0) (.log (.fmax (.rd (.var .Fcent)) (.num 1 300)))) (.rd (.var .A))) (.mul (.mul (.mul (.mul (.rd (.var .B)) (.rd (.var .B))) (.rd (.var .B))) (.add (.num 1 0) (.div (.mul (.rd (.var .A)) (.rd (.var .A))) (.mul (.rd (.var .B)) (.rd (.var .B)))))) (.add (.num 1 0) (.div (.mul (.rd (.var .A)) (.rd (.var .A))) (.mul (.rd (.var .B)) (.rd (.var .B))))))),
  .set (.var .jTemp) (.mul (.add (.mul (.mul (.rd (.arr .presMod 17)) (.sub (.add (.div (.sub (.add (.neg (.num 128 2)) (.div (.neg (.num 26940865843865004 14)) (.rd (.var .T)))) (.num 1 0)) (.mul (.rd (.var .T)) (.add (.num 1 0) (.rd (.var .Pr))))) (.mul (.sub (.div (.num 1 0) (.mul (.rd (.var .Fcent)) (.add (.num 1 0) (.div (.mul (.rd (.var .A)) (.rd (.var .A))) (.mul (.rd (.var .B)) (.rd (.var .B))))))) (.div (.mul (.rd (.var .lnFAB)) (.add (.mul (.neg (.num 2909773028751787 16)) (.rd (.var .B))) (.mul (.num 51081716961460466 17) (.rd (.var .A))))) (.rd (.var .Fcent)))) (.sub (.mul (.neg (.num 60000000000000001 19)) (.exp (.div (.rd (.var .T)) (.neg (.num 40 0))))) (.mul (.num 74146341463414639 20) (.exp (.div (.rd (.var .T)) (.neg (.num 1025 0)))))))) (.div (.mul (.mul (.rd (.var .lnFAB)) (.add (.mul (.num 43429448190325176 17) (.rd (.var .B))) (.mul (.num 60801227466455256 18) (.rd (.var .A))))) (.sub (.add (.neg (.num 128 2)) (.div (.neg (.num 26940865843865004 14)) (.rd (.var .T)))) (.num 1 0))) (.rd (.var .T))))) (.sub (.rd (.arr .fwd 114)) (.rd (.arr .rev 114)))) (.mul (.div (.rd (.arr .presMod 17)) (.rd (.var .T))) (.sub (.add (.mul (.sub (.rd (.arr .fwd 114)) (.rd (.arr .rev 114))) (.add (.num 128 2) (.div (.num 6494702669941812 13) (.rd (.var .T))))) (.mul (.rd (.arr .fwd 114)) (.neg (.num 1 0)))) (.mul (.rd (.arr .rev 114)) (.mul (.neg (.rd (.var .T))) (.sub (.sub (.rd (.arr .dBdT 21)) (.rd (.arr .dBdT 1))) (.rd (.arr .dBdT 20)))))))) (.rd (.var .rhoInv))),
  .set (.arr .jac 2) (.add (.rd (.arr .jac 2)) (.mul (.neg (.rd (.var .jTemp))) (.num 10079400000000001 16))),
  .set (.arr .jac 21) (.add (.rd (.arr .jac 21)) (.mul (.neg (.rd (.var .jTemp))) (.num 28053759999999997 15))),
  .set (.arr .jac 22) (.add (.rd (.arr .jac 22)) (.mul (.rd (.var .jTemp)) (.num 29061699999999998 15)))]

/-- utilities/mechanisms/yao/lib/src/jacobs/jacob_2.c:7647-7653 -/
def jacobT115 : List CStmt := [
  .set (.var .jTemp) (.mul (.mul (.div (.num 1 0) (.rd (.var .T))) (.sub (.add (.mul (.sub (.rd (.arr .fwd 115)) (.rd (.arr .rev 115))) (.add (.num 18999999999999999 16) (.div (.num 65166933649261564 13) (.rd (.var .T))))) (.mul (.rd (.arr .fwd 115)) (.neg (.num 1 0)))) (.mul (.rd (.arr .rev 115)) (.add (.neg (.num 1 0)) (.mul (.neg (.rd (.var .T))) (.sub (.sub (.add (.rd (.arr .dBdT 5)) (.rd (.arr .dBdT 19))) (.rd (.arr .dBdT 1))) (.rd (.arr .dBdT 20)))))))) (.rd (.var .rhoInv))),
  .set (.arr .jac 2) (.add (.rd (.arr .jac 2)) (.mul (.neg (.rd (.var .jTemp))) (.num 10079400000000001 16))),
  .set (.arr .jac 20) (.add (.rd (.arr .jac 20)) (.mul (.rd (.var .jTemp)) (.num 27045819999999999 15))),
  .set (.arr .jac 21) (.add (.rd (.arr .jac 21)) (.mul (.neg (.rd (.var .jTemp))) (.num 28053759999999997 15))),
  .set (.arr .jac 6) (.add (.rd (.arr .jac 6)) (.mul (.rd (.var .jTemp)) (.num 20158800000000001 16)))]

/-- utilities/mechanisms/yao/lib/src/jacobs/jacob_2.c:7878-7884 -/
def jacobT116 : List CStmt := [
  .set (.var .jTemp) (.mul (.mul (.div (.num 1 0) (.rd (.var .T))) (.sub (.add (.mul (.sub (.rd (.arr .fwd 116)) (.rd (.arr .rev 116))) (.add (.num 18999999999999999 16) (.div (.num 18820411725732683 13) (.rd (.var .T))))) (.mul (.rd (.arr .fwd 116)) (.neg (.num 1 0)))) (.mul (.rd (.arr .rev 116)) (.add (.neg (.num 1 0)) (.mul (.neg (.rd (.var .T))) (.sub (.sub (.add (.rd (.arr .dBdT 19)) (.rd (.arr .dBdT 3))) (.rd (.arr .dBdT 20))) (.rd (.arr .dBdT 2)))))))) (.rd (.var .rhoInv))),
  .set (.arr .jac 4) (.add (.rd (.arr .jac 4)) (.mul (.rd (.var .jTemp)) (.num 17007339999999999 15))),
  .set (.arr .jac 3) (.add (.rd (.arr .jac 3)) (.mul (.neg (.rd (.var .jTemp))) (.num 159994 4))),
  .set (.arr .jac 20) (.add (.rd (.arr .jac 20)) (.mul (.rd (.var .jTemp)) (.num 27045819999999999 15))),
  .set (.arr .jac 21) (.add (.rd (.arr .jac 21)) (.mul (.neg (.rd (.var .jTemp))) (.num 28053759999999997 15)))]

/-- utilities/mechanisms/yao/lib/src/jacobs/jacob_2.c:8109-8115 -/
def jacobT117 : List CStmt := [
  .set (.var .jTemp) (.mul (.mul (.div (.num 1 0) (.rd (.var .T))) (.sub (.add (.mul (.sub (.rd (.arr .fwd 117)) (.rd (.arr .rev 117))) (.add (.num 18300000000000001 16) (.div (.num 11070830426901578 14) (.rd (.var .T))))) (.mul (.rd (.arr .fwd 117)) (.neg (.num 1 0)))) (.mul (.rd (.arr .rev 117)) (.add (.neg (.num 1 0)) (.mul (.neg (.rd (.var .T))) (.sub (.sub (.add (.rd (.arr .dBdT 11)) (.rd (.arr .dBdT 13))) (.rd (.arr .dBdT 20))) (.rd (.arr .dBdT 2)))))))) (.rd (.var .rhoInv))),
  .set (.arr .jac 3) (.add (.rd (.arr .jac 3)) (.mul (.neg (.rd (.var .jTemp))) (.num 159994 4))),
  .set (.arr .jac 12) (.add (.rd (.arr .jac 12)) (.mul (.rd (.var .jTemp)) (.num 1503482 5))),
  .set (.arr .jac 21) (.add (.rd (.arr .jac 21)) (.mul (.neg (.rd (.var .jTemp))) (.num 28053759999999997 15))),
  .set (.arr .jac 14) (.add (.rd (.arr .jac 14)) (.mul (.rd (.var .jTemp)) (.num 29018339999999998 15)))]

/-- utilities/mechanisms/yao/lib/src/jacobs/jacob_2.c:8340-8346 -/
def jacobT118 : List CStmt := [
  .set (.var .jTemp) (.mul (.mul (.div (.num 1 0) (.rd (.var .T))) (.sub (.add (.mul (.sub (.rd (.arr .fwd 118)) (.rd (.arr .rev 118))) (.add (.num 18300000000000001 16) (.div (.num 11070830426901578 14) (.rd (.var .T))))) (.mul (.rd (.arr .fwd 118)) (.neg (.num 1 0)))) (.mul (.rd (.arr .rev 118)) (.add (.neg (.num 1 0)) (.mul (.neg (.rd (.var .T))) (.sub (.sub (.add (.rd (.arr .dBdT 14)) (.rd (.arr .dBdT 9))) (.rd (.arr .dBdT 20))) (.rd (.arr .dBdT 2)))))))) (.rd (.var .rhoInv))),
  .set (.arr .jac 10) (.add (.rd (.arr .jac 10)) (.mul (.rd (.var .jTemp)) (.num 14026879999999998 15))),
  .set (.arr .jac 3) (.add (.rd (.arr .jac 3)) (.mul (.neg (.rd (.var .jTemp))) (.num 159994 4))),
  .set (.arr .jac 21) (.add (.rd (.arr .jac 21)) (.mul (.neg (.rd (.var .jTemp))) (.num 28053759999999997 15))),
  .set (.arr .jac 15) (.add (.rd (.arr .jac 15)) (.mul (.rd (.var .jTemp)) (.num 3002628 5)))]

/-- utilities/mechanisms/yao/lib/src/jacobs/jacob_2.c:8571-8577 -/
def jacobT119 : List CStmt := [
  .set (.var .jTemp) (.mul (.mul (.div (.num 1 0) (.rd (.var .T))) (.sub (.add (.mul (.sub (.rd (.arr .fwd 119)) (.rd (.arr .rev 119))) (.add (.num 2 0) (.div (.num 12580489121479065 13) (.rd (.var .T))))) (.mul (.rd (.arr .fwd 119)) (.neg (.num 1 0)))) (.mul (.rd (.arr .rev 119)) (.add (.neg (.num 1 0)) (.mul (.neg (.rd (.var .T))) (.sub (.sub (.add (.rd (.arr .dBdT 6)) (.rd (.arr .dBdT 19))) (.rd (.arr .dBdT 20))) (.rd (.arr .dBdT 3)))))))) (.rd (.var .rhoInv))),
  .set (.arr .jac 20) (.add (.rd (.arr .jac 20)) (.mul (.rd (.var .jTemp)) (.num 27045819999999999 15))),
  .set (.arr .jac 4) (.add (.rd (.arr .jac 4)) (.mul (.neg (.rd (.var .jTemp))) (.num 17007339999999999 15))),
  .set (.arr .jac 21) (.add (.rd (.arr .jac 21)) (.mul (.neg (.rd (.var .jTemp))) (.num 28053759999999997 15))),
  .set (.arr .jac 7) (.add (.rd (.arr .jac 7)) (.mul (.rd (.var .jTemp)) (.num 18015280000000001 15)))]

/-- The derivatives with respect to the temperature in `eval_jacob_2`, one block per reaction, utilities/mechanisms/yao/lib/src/jacobs/jacob_2.c:5-8801. -/
def jacob2Blocks : List (List CStmt × List CStmt) := [
  (jacobT80, []), (jacobT81, []), (jacobT82, []), (jacobT83, []), (jacobT84, []), (jacobT85, []), (jacobT86, []), (jacobT87, []), (jacobT88, []), (jacobT89, []), (jacobT90, []), (jacobT91, []), (jacobT92, []), (jacobT93, []), (jacobT94, []), (jacobT95, []), (jacobT96, []), (jacobT97, []), (jacobT98, []), (jacobT99, []), (jacobT100, []), (jacobT101, []), (jacobT102, []), (jacobT103, []), (jacobT104, []), (jacobT105, []), (jacobT106, []), (jacobT107, []), (jacobT108, []), (jacobT109, []), (jacobT110, []), (jacobT111, []), (jacobT112, []), (jacobT113, []), (jacobT114, []), (jacobT115, []), (jacobT116, []), (jacobT117, []), (jacobT118, []), (jacobT119, [])]

end DLB.Mech.Yao
