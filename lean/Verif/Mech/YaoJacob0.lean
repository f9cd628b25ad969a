/- Generated by tools/gen_mechanisms.py from utilities/mechanisms/yao/lib/src/jacobs/jacob_0.c. Do not edit. -/
import Verif.Model.CLang
set_option autoImplicit false
set_option maxRecDepth 1000000

namespace DLB.Mech.Yao
open DLB

/-- utilities/mechanisms/yao/lib/src/jacobs/jacob_0.c:5-17 -/
def jacob0Start : List CStmt := [
  .set (.var .logT) (.log (.rd (.var .T))),
  .set (.var .kf) (.num 0 0),
  .set (.var .jTemp) (.num 0 0),
  .set (.var .presModTemp) (.num 0 0),
  .set (.var .Kc) (.num 0 0),
  .set (.var .kr) (.num 0 0),
  .set (.var .Pr) (.num 0 0),
  .set (.var .Fcent) (.num 0 0),
  .set (.var .A) (.num 0 0),
  .set (.var .B) (.num 0 0),
  .set (.var .lnFAB) (.num 0 0),
  .set (.var .rhoInv) (.div (.num 1 0) (.rd (.var .rho)))]

/-- utilities/mechanisms/yao/lib/src/jacobs/jacob_0.c:18-24 -/
def jacobT0 : List CStmt := [
  .set (.var .jTemp) (.mul (.mul (.div (.num 1 0) (.rd (.var .T))) (.sub (.add (.mul (.sub (.rd (.arr .fwd 0)) (.rd (.arr .rev 0))) (.div (.num 74689156187265553 13) (.rd (.var .T)))) (.mul (.rd (.arr .fwd 0)) (.neg (.num 1 0)))) (.mul (.rd (.arr .rev 0)) (.add (.neg (.num 1 0)) (.mul (.neg (.rd (.var .T))) (.sub (.sub (.add (.rd (.arr .dBdT 2)) (.rd (.arr .dBdT 3))) (.rd (.arr .dBdT 1))) (.rd (.arr .dBdT 8)))))))) (.rd (.var .rhoInv))),
  .set (.arr .jac 9) (.mul (.neg (.rd (.var .jTemp))) (.num 31998799999999999 15)),
  .set (.arr .jac 2) (.mul (.neg (.rd (.var .jTemp))) (.num 10079400000000001 16)),
  .set (.arr .jac 3) (.mul (.rd (.var .jTemp)) (.num 159994 4)),
  .set (.arr .jac 4) (.mul (.rd (.var .jTemp)) (.num 17007339999999999 15))]

/-- utilities/mechanisms/yao/lib/src/jacobs/jacob_0.c:249-255 -/
def jacobT1 : List CStmt := [
  .set (.var .jTemp) (.mul (.mul (.div (.num 1 0) (.rd (.var .T))) (.sub (.add (.mul (.sub (.rd (.arr .fwd 1)) (.rd (.arr .rev 1))) (.add (.num 27000000000000002 16) (.div (.num 31501544760183583 13) (.rd (.var .T))))) (.mul (.rd (.arr .fwd 1)) (.neg (.num 1 0)))) (.mul (.rd (.arr .rev 1)) (.add (.neg (.num 1 0)) (.mul (.neg (.rd (.var .T))) (.sub (.sub (.add (.rd (.arr .dBdT 1)) (.rd (.arr .dBdT 3))) (.rd (.arr .dBdT 5))) (.rd (.arr .dBdT 2)))))))) (.rd (.var .rhoInv))),
  .set (.arr .jac 2) (.add (.rd (.arr .jac 2)) (.mul (.rd (.var .jTemp)) (.num 10079400000000001 16))),
  .set (.arr .jac 3) (.add (.rd (.arr .jac 3)) (.mul (.neg (.rd (.var .jTemp))) (.num 159994 4))),
  .set (.arr .jac 4) (.add (.rd (.arr .jac 4)) (.mul (.rd (.var .jTemp)) (.num 17007339999999999 15))),
  .set (.arr .jac 6) (.mul (.neg (.rd (.var .jTemp))) (.num 20158800000000001 16))]

/-- utilities/mechanisms/yao/lib/src/jacobs/jacob_0.c:480-486 -/
def jacobT2 : List CStmt := [
  .set (.var .jTemp) (.mul (.mul (.div (.num 1 0) (.rd (.var .T))) (.sub (.add (.mul (.sub (.rd (.arr .fwd 2)) (.rd (.arr .rev 2))) (.add (.num 16000000000000001 16) (.div (.num 16597590263836792 13) (.rd (.var .T))))) (.mul (.rd (.arr .fwd 2)) (.neg (.num 1 0)))) (.mul (.rd (.arr .rev 2)) (.add (.neg (.num 1 0)) (.mul (.neg (.rd (.var .T))) (.sub (.sub (.add (.rd (.arr .dBdT 1)) (.rd (.arr .dBdT 6))) (.rd (.arr .dBdT 5))) (.rd (.arr .dBdT 3)))))))) (.rd (.var .rhoInv))),
  .set (.arr .jac 2) (.add (.rd (.arr .jac 2)) (.mul (.rd (.var .jTemp)) (.num 10079400000000001 16))),
  .set (.arr .jac 4) (.add (.rd (.arr .jac 4)) (.mul (.neg (.rd (.var .jTemp))) (.num 17007339999999999 15))),
  .set (.arr .jac 6) (.add (.rd (.arr .jac 6)) (.mul (.neg (.rd (.var .jTemp))) (.num 20158800000000001 16))),
  .set (.arr .jac 7) (.mul (.rd (.var .jTemp)) (.num 18015280000000001 15))]

/-- utilities/mechanisms/yao/lib/src/jacobs/jacob_0.c:711-716 -/
def jacobT3 : List CStmt := [
  .set (.var .jTemp) (.mul (.mul (.div (.num 1 0) (.rd (.var .T))) (.sub (.add (.mul (.sub (.rd (.arr .fwd 3)) (.rd (.arr .rev 3))) (.add (.num 23999999999999999 16) (.div (.neg (.num 10617932818528332 13)) (.rd (.var .T))))) (.mul (.rd (.arr .fwd 3)) (.neg (.num 1 0)))) (.mul (.rd (.arr .rev 3)) (.add (.neg (.num 1 0)) (.mul (.neg (.rd (.var .T))) (.sub (.add (.rd (.arr .dBdT 6)) (.rd (.arr .dBdT 2))) (.mul (.num 2 0) (.rd (.arr .dBdT 3))))))))) (.rd (.var .rhoInv))),
  .set (.arr .jac 3) (.add (.rd (.arr .jac 3)) (.mul (.rd (.var .jTemp)) (.num 159994 4))),
  .set (.arr .jac 4) (.add (.rd (.arr .jac 4)) (.mul (.mul (.rd (.var .jTemp)) (.neg (.num 2 0))) (.num 17007339999999999 15))),
  .set (.arr .jac 7) (.add (.rd (.arr .jac 7)) (.mul (.rd (.var .jTemp)) (.num 18015280000000001 15)))]

/-- utilities/mechanisms/yao/lib/src/jacobs/jacob_0.c:888-899 -/
def jacobT4 : List CStmt := [
  .set (.var .concTemp) (.add (.add (.sub (.add (.sub (.rd (.var .m)) (.mul (.num 6 1) (.rd (.arr .C 0)))) (.mul (.num 1089 2) (.rd (.arr .C 6)))) (.mul (.num 15 2) (.rd (.arr .C 8)))) (.mul (.num 9 2) (.rd (.arr .C 16)))) (.mul (.num 118 2) (.rd (.arr .C 17)))),
  .set (.var .Pr) (.mul (.rd (.var .concTemp)) (.exp (.sub (.num 94229517187249385 16) (.mul (.num 184 2) (.rd (.var .logT)))))),
  .set (.var .Fcent) (.add (.mul (.num 5 1) (.exp (.div (.rd (.var .T)) (.neg (.num 10000000000000001 46))))) (.mul (.num 5 1) (.exp (.div (.rd (.var .T)) (.neg (.num 1000000000000000200000000000000 0)))))),
  .set (.var .A) (.sub (.sub (.log10 (.fmax (.rd (.var .Pr)) (.num 1 300))) (.mul (.num 67 2) (.log10 (.fmax (.rd (.var .Fcent)) (.num 1 300))))) (.num 4 1)),
  .set (.var .B) (.sub (.sub (.num 806 3) (.mul (.num 11762 4) (.log10 (.fmax (.rd (.var .Fcent)) (.num 1 300))))) (.mul (.num 14 2) (.log10 (.fmax (.rd (.var .Pr)) (.num 1 300))))),
  .set (.var .lnFAB) (.div (.mul (.mul (.num 2 0) (.log (.fmax (.rd (.var .Fcent)) (.num 1 300)))) (.rd (.var .A))) (.mul (.mul (.mul (.mul (.rd (.var .B)) (.rd (.var .B))) (.rd (.var .B))) (.add (.num 1 0) (.div (.mul (.rd (.var .A)) (.rd (.var .A))) (.mul (.rd (.var .B)) (.rd (.var .B)))))) (.add (.num 1 0) (.div (.mul (.rd (.var .A)) (.rd (.var .A))) (.mul (.rd (.var .B)) (.rd (.var .B))))))),
  .set (.var .jTemp) (.mul (.add (.mul (.mul (.rd (.arr .presMod 0)) (.sub (.add (.div (.sub (.add (.neg (.num 184 2)) (.div (.num 0 0) (.rd (.var .T)))) (.num 1 0)) (.mul (.rd (.var .T)) (.add (.num 1 0) (.rd (.var .Pr))))) (.mul (.sub (.div (.num 1 0) (.mul (.rd (.var .Fcent)) (.add (.num 1 0) (.div (.mul (.rd (.var .A)) (.rd (.var .A))) (.mul (.rd (.var .B)) (.rd (.var .B))))))) (.div (.mul (.rd (.var .lnFAB)) (.add (.mul (.neg (.num 2909773028751787 16)) (.rd (.var .B))) (.mul (.num 51081716961460466 17) (.rd (.var .A))))) (.rd (.var .Fcent)))) (.sub (.mul (.neg (.num 499999999999999940000000000000 0)) (.exp (.div (.rd (.var .T)) (.neg (.num 10000000000000001 46))))) (.mul (.num 49999999999999995 47) (.exp (.div (.rd (.var .T)) (.neg (.num 1000000000000000200000000000000 0)))))))) (.div (.mul (.mul (.rd (.var .lnFAB)) (.add (.mul (.num 43429448190325176 17) (.rd (.var .B))) (.mul (.num 60801227466455256 18) (.rd (.var .A))))) (.sub (.add (.neg (.num 18399999999999999 16)) (.div (.num 0 0) (.rd (.var .T)))) (.num 1 0))) (.rd (.var .T))))) (.sub (.rd (.arr .fwd 4)) (.rd (.arr .rev 4)))) (.mul (.div (.rd (.arr .presMod 0)) (.rd (.var .T))) (.sub (.add (.mul (.sub (.rd (.arr .fwd 4)) (.rd (.arr .rev 4))) (.num 44 2)) (.mul (.rd (.arr .fwd 4)) (.neg (.num 1 0)))) (.mul (.rd (.arr .rev 4)) (.mul (.neg (.rd (.var .T))) (.sub (.sub (.rd (.arr .dBdT 4)) (.rd (.arr .dBdT 1))) (.rd (.arr .dBdT 8)))))))) (.rd (.var .rhoInv))),
  .set (.arr .jac 9) (.add (.rd (.arr .jac 9)) (.mul (.neg (.rd (.var .jTemp))) (.num 31998799999999999 15))),
  .set (.arr .jac 2) (.add (.rd (.arr .jac 2)) (.mul (.neg (.rd (.var .jTemp))) (.num 10079400000000001 16))),
  .set (.arr .jac 5) (.mul (.rd (.var .jTemp)) (.num 33006740000000001 15))]

/-- utilities/mechanisms/yao/lib/src/jacobs/jacob_0.c:1073-1078 -/
def jacobT5 : List CStmt := [
  .set (.var .jTemp) (.mul (.mul (.div (.num 1 0) (.rd (.var .T))) (.sub (.add (.mul (.sub (.rd (.arr .fwd 5)) (.rd (.arr .rev 5))) (.div (.num 14844977163345297 14) (.rd (.var .T)))) (.mul (.rd (.arr .fwd 5)) (.neg (.num 1 0)))) (.mul (.rd (.arr .rev 5)) (.add (.neg (.num 1 0)) (.mul (.neg (.rd (.var .T))) (.sub (.sub (.mul (.num 2 0) (.rd (.arr .dBdT 3))) (.rd (.arr .dBdT 1))) (.rd (.arr .dBdT 4)))))))) (.rd (.var .rhoInv))),
  .set (.arr .jac 2) (.add (.rd (.arr .jac 2)) (.mul (.neg (.rd (.var .jTemp))) (.num 10079400000000001 16))),
  .set (.arr .jac 4) (.add (.rd (.arr .jac 4)) (.mul (.mul (.rd (.var .jTemp)) (.num 2 0)) (.num 17007339999999999 15))),
  .set (.arr .jac 5) (.add (.rd (.arr .jac 5)) (.mul (.neg (.rd (.var .jTemp))) (.num 33006740000000001 15)))]

/-- utilities/mechanisms/yao/lib/src/jacobs/jacob_0.c:1250-1256 -/
def jacobT6 : List CStmt := [
  .set (.var .jTemp) (.mul (.mul (.div (.num 1 0) (.rd (.var .T))) (.sub (.add (.mul (.sub (.rd (.arr .fwd 6)) (.rd (.arr .rev 6))) (.add (.num 24329999999999998 16) (.div (.num 26923253159094918 12) (.rd (.var .T))))) (.mul (.rd (.arr .fwd 6)) (.neg (.num 1 0)))) (.mul (.rd (.arr .rev 6)) (.add (.neg (.num 1 0)) (.mul (.neg (.rd (.var .T))) (.sub (.sub (.add (.rd (.arr .dBdT 1)) (.rd (.arr .dBdT 4))) (.rd (.arr .dBdT 5))) (.rd (.arr .dBdT 8)))))))) (.rd (.var .rhoInv))),
  .set (.arr .jac 9) (.add (.rd (.arr .jac 9)) (.mul (.neg (.rd (.var .jTemp))) (.num 31998799999999999 15))),
  .set (.arr .jac 2) (.add (.rd (.arr .jac 2)) (.mul (.rd (.var .jTemp)) (.num 10079400000000001 16))),
  .set (.arr .jac 5) (.add (.rd (.arr .jac 5)) (.mul (.rd (.var .jTemp)) (.num 33006740000000001 15))),
  .set (.arr .jac 6) (.add (.rd (.arr .jac 6)) (.mul (.neg (.rd (.var .jTemp))) (.num 20158800000000001 16)))]

/-- utilities/mechanisms/yao/lib/src/jacobs/jacob_0.c:1481-1487 -/
def jacobT7 : List CStmt := [
  .set (.var .jTemp) (.mul (.mul (.div (.num 1 0) (.rd (.var .T))) (.sub (.add (.mul (.sub (.rd (.arr .fwd 7)) (.rd (.arr .rev 7))) (.div (.neg (.num 25257093179846231 14)) (.rd (.var .T)))) (.mul (.rd (.arr .fwd 7)) (.neg (.num 1 0)))) (.mul (.rd (.arr .rev 7)) (.add (.neg (.num 1 0)) (.mul (.neg (.rd (.var .T))) (.sub (.sub (.add (.rd (.arr .dBdT 6)) (.rd (.arr .dBdT 8))) (.rd (.arr .dBdT 4))) (.rd (.arr .dBdT 3)))))))) (.rd (.var .rhoInv))),
  .set (.arr .jac 9) (.add (.rd (.arr .jac 9)) (.mul (.rd (.var .jTemp)) (.num 31998799999999999 15))),
  .set (.arr .jac 4) (.add (.rd (.arr .jac 4)) (.mul (.neg (.rd (.var .jTemp))) (.num 17007339999999999 15))),
  .set (.arr .jac 5) (.add (.rd (.arr .jac 5)) (.mul (.neg (.rd (.var .jTemp))) (.num 33006740000000001 15))),
  .set (.arr .jac 7) (.add (.rd (.arr .jac 7)) (.mul (.rd (.var .jTemp)) (.num 18015280000000001 15)))]

/-- utilities/mechanisms/yao/lib/src/jacobs/jacob_0.c:1712-1718 -/
def jacobT8 : List CStmt := [
  .set (.var .jTemp) (.mul (.mul (.div (.num 1 0) (.rd (.var .T))) (.sub (.add (.mul (.sub (.rd (.arr .fwd 8)) (.rd (.arr .rev 8))) (.div (.num 33766032802049813 14) (.rd (.var .T)))) (.mul (.rd (.arr .fwd 8)) (.neg (.num 1 0)))) (.mul (.rd (.arr .rev 8)) (.add (.neg (.num 1 0)) (.mul (.neg (.rd (.var .T))) (.sub (.sub (.add (.rd (.arr .dBdT 6)) (.rd (.arr .dBdT 2))) (.rd (.arr .dBdT 1))) (.rd (.arr .dBdT 4)))))))) (.rd (.var .rhoInv))),
  .set (.arr .jac 2) (.add (.rd (.arr .jac 2)) (.mul (.neg (.rd (.var .jTemp))) (.num 10079400000000001 16))),
  .set (.arr .jac 3) (.add (.rd (.arr .jac 3)) (.mul (.rd (.var .jTemp)) (.num 159994 4))),
  .set (.arr .jac 5) (.add (.rd (.arr .jac 5)) (.mul (.neg (.rd (.var .jTemp))) (.num 33006740000000001 15))),
  .set (.arr .jac 7) (.add (.rd (.arr .jac 7)) (.mul (.rd (.var .jTemp)) (.num 18015280000000001 15)))]

/-- utilities/mechanisms/yao/lib/src/jacobs/jacob_0.c:1943-1949 -/
def jacobT9 : List CStmt := [
  .set (.var .jTemp) (.mul (.mul (.div (.num 1 0) (.rd (.var .T))) (.sub (.mul (.rd (.arr .fwd 9)) (.neg (.num 1 0))) (.mul (.rd (.arr .rev 9)) (.add (.neg (.num 1 0)) (.mul (.neg (.rd (.var .T))) (.sub (.sub (.add (.rd (.arr .dBdT 8)) (.rd (.arr .dBdT 3))) (.rd (.arr .dBdT 4))) (.rd (.arr .dBdT 2)))))))) (.rd (.var .rhoInv))),
  .set (.arr .jac 9) (.add (.rd (.arr .jac 9)) (.mul (.rd (.var .jTemp)) (.num 31998799999999999 15))),
  .set (.arr .jac 3) (.add (.rd (.arr .jac 3)) (.mul (.neg (.rd (.var .jTemp))) (.num 159994 4))),
  .set (.arr .jac 4) (.add (.rd (.arr .jac 4)) (.mul (.rd (.var .jTemp)) (.num 17007339999999999 15))),
  .set (.arr .jac 5) (.add (.rd (.arr .jac 5)) (.mul (.neg (.rd (.var .jTemp))) (.num 33006740000000001 15)))]

/-- utilities/mechanisms/yao/lib/src/jacobs/jacob_0.c:2174-2179 -/
def jacobT10 : List CStmt := [
  .set (.var .jTemp) (.mul (.mul (.div (.num 1 0) (.rd (.var .T))) (.sub (.add (.mul (.sub (.rd (.arr .fwd 10)) (.rd (.arr .rev 10))) (.div (.neg (.num 82024789072043507 14)) (.rd (.var .T)))) (.mul (.rd (.arr .fwd 10)) (.neg (.num 1 0)))) (.mul (.rd (.arr .rev 10)) (.add (.neg (.num 1 0)) (.mul (.neg (.rd (.var .T))) (.sub (.add (.rd (.arr .dBdT 7)) (.rd (.arr .dBdT 8))) (.mul (.num 2 0) (.rd (.arr .dBdT 4))))))))) (.rd (.var .rhoInv))),
  .set (.arr .jac 9) (.add (.rd (.arr .jac 9)) (.mul (.rd (.var .jTemp)) (.num 31998799999999999 15))),
  .set (.arr .jac 5) (.add (.rd (.arr .jac 5)) (.mul (.mul (.rd (.var .jTemp)) (.neg (.num 2 0))) (.num 33006740000000001 15))),
  .set (.arr .jac 8) (.mul (.rd (.var .jTemp)) (.num 34014679999999998 15))]

/-- utilities/mechanisms/yao/lib/src/jacobs/jacob_0.c:2351-2356 -/
def jacobT11 : List CStmt := [
  .set (.var .jTemp) (.mul (.mul (.div (.num 1 0) (.rd (.var .T))) (.sub (.add (.mul (.sub (.rd (.arr .fwd 11)) (.rd (.arr .rev 11))) (.div (.num 60386347783099518 13) (.rd (.var .T)))) (.mul (.rd (.arr .fwd 11)) (.neg (.num 1 0)))) (.mul (.rd (.arr .rev 11)) (.add (.neg (.num 1 0)) (.mul (.neg (.rd (.var .T))) (.sub (.add (.rd (.arr .dBdT 7)) (.rd (.arr .dBdT 8))) (.mul (.num 2 0) (.rd (.arr .dBdT 4))))))))) (.rd (.var .rhoInv))),
  .set (.arr .jac 9) (.add (.rd (.arr .jac 9)) (.mul (.rd (.var .jTemp)) (.num 31998799999999999 15))),
  .set (.arr .jac 5) (.add (.rd (.arr .jac 5)) (.mul (.mul (.rd (.var .jTemp)) (.neg (.num 2 0))) (.num 33006740000000001 15))),
  .set (.arr .jac 8) (.add (.rd (.arr .jac 8)) (.mul (.rd (.var .jTemp)) (.num 34014679999999998 15)))]

/-- utilities/mechanisms/yao/lib/src/jacobs/jacob_0.c:2528-2534 -/
def jacobT12 : List CStmt := [
  .set (.var .jTemp) (.mul (.mul (.div (.num 1 0) (.rd (.var .T))) (.sub (.add (.mul (.sub (.rd (.arr .fwd 12)) (.rd (.arr .rev 12))) (.div (.num 19977816724908757 13) (.rd (.var .T)))) (.mul (.rd (.arr .fwd 12)) (.neg (.num 1 0)))) (.mul (.rd (.arr .rev 12)) (.add (.neg (.num 1 0)) (.mul (.neg (.rd (.var .T))) (.sub (.sub (.add (.rd (.arr .dBdT 6)) (.rd (.arr .dBdT 3))) (.rd (.arr .dBdT 1))) (.rd (.arr .dBdT 7)))))))) (.rd (.var .rhoInv))),
  .set (.arr .jac 2) (.add (.rd (.arr .jac 2)) (.mul (.neg (.rd (.var .jTemp))) (.num 10079400000000001 16))),
  .set (.arr .jac 4) (.add (.rd (.arr .jac 4)) (.mul (.rd (.var .jTemp)) (.num 17007339999999999 15))),
  .set (.arr .jac 7) (.add (.rd (.arr .jac 7)) (.mul (.rd (.var .jTemp)) (.num 18015280000000001 15))),
  .set (.arr .jac 8) (.add (.rd (.arr .jac 8)) (.mul (.neg (.rd (.var .jTemp))) (.num 34014679999999998 15)))]

/-- utilities/mechanisms/yao/lib/src/jacobs/jacob_0.c:2759-2765 -/
def jacobT13 : List CStmt := [
  .set (.var .jTemp) (.mul (.mul (.div (.num 1 0) (.rd (.var .T))) (.sub (.add (.mul (.sub (.rd (.arr .fwd 13)) (.rd (.arr .rev 13))) (.add (.num 2 0) (.div (.num 26167417372676459 13) (.rd (.var .T))))) (.mul (.rd (.arr .fwd 13)) (.neg (.num 1 0)))) (.mul (.rd (.arr .rev 13)) (.add (.neg (.num 1 0)) (.mul (.neg (.rd (.var .T))) (.sub (.sub (.add (.rd (.arr .dBdT 5)) (.rd (.arr .dBdT 4))) (.rd (.arr .dBdT 1))) (.rd (.arr .dBdT 7)))))))) (.rd (.var .rhoInv))),
  .set (.arr .jac 2) (.add (.rd (.arr .jac 2)) (.mul (.neg (.rd (.var .jTemp))) (.num 10079400000000001 16))),
  .set (.arr .jac 5) (.add (.rd (.arr .jac 5)) (.mul (.rd (.var .jTemp)) (.num 33006740000000001 15))),
  .set (.arr .jac 6) (.add (.rd (.arr .jac 6)) (.mul (.rd (.var .jTemp)) (.num 20158800000000001 16))),
  .set (.arr .jac 8) (.add (.rd (.arr .jac 8)) (.mul (.neg (.rd (.var .jTemp))) (.num 34014679999999998 15)))]

/-- utilities/mechanisms/yao/lib/src/jacobs/jacob_0.c:2990-2996 -/
def jacobT14 : List CStmt := [
  .set (.var .jTemp) (.mul (.mul (.div (.num 1 0) (.rd (.var .T))) (.sub (.add (.mul (.sub (.rd (.arr .fwd 14)) (.rd (.arr .rev 14))) (.add (.num 2 0) (.div (.num 19977816724908757 13) (.rd (.var .T))))) (.mul (.rd (.arr .fwd 14)) (.neg (.num 1 0)))) (.mul (.rd (.arr .rev 14)) (.add (.neg (.num 1 0)) (.mul (.neg (.rd (.var .T))) (.sub (.sub (.add (.rd (.arr .dBdT 4)) (.rd (.arr .dBdT 3))) (.rd (.arr .dBdT 7))) (.rd (.arr .dBdT 2)))))))) (.rd (.var .rhoInv))),
  .set (.arr .jac 3) (.add (.rd (.arr .jac 3)) (.mul (.neg (.rd (.var .jTemp))) (.num 159994 4))),
  .set (.arr .jac 4) (.add (.rd (.arr .jac 4)) (.mul (.rd (.var .jTemp)) (.num 17007339999999999 15))),
  .set (.arr .jac 5) (.add (.rd (.arr .jac 5)) (.mul (.rd (.var .jTemp)) (.num 33006740000000001 15))),
  .set (.arr .jac 8) (.add (.rd (.arr .jac 8)) (.mul (.neg (.rd (.var .jTemp))) (.num 34014679999999998 15)))]

/-- utilities/mechanisms/yao/lib/src/jacobs/jacob_0.c:3221-3227 -/
def jacobT15 : List CStmt := [
  .set (.var .jTemp) (.mul (.mul (.div (.num 1 0) (.rd (.var .T))) (.sub (.add (.mul (.sub (.rd (.arr .fwd 15)) (.rd (.arr .rev 15))) (.div (.num 21487475419486245 14) (.rd (.var .T)))) (.mul (.rd (.arr .fwd 15)) (.neg (.num 1 0)))) (.mul (.rd (.arr .rev 15)) (.add (.neg (.num 1 0)) (.mul (.neg (.rd (.var .T))) (.sub (.sub (.add (.rd (.arr .dBdT 6)) (.rd (.arr .dBdT 4))) (.rd (.arr .dBdT 7))) (.rd (.arr .dBdT 3)))))))) (.rd (.var .rhoInv))),
  .set (.arr .jac 4) (.add (.rd (.arr .jac 4)) (.mul (.neg (.rd (.var .jTemp))) (.num 17007339999999999 15))),
  .set (.arr .jac 5) (.add (.rd (.arr .jac 5)) (.mul (.rd (.var .jTemp)) (.num 33006740000000001 15))),
  .set (.arr .jac 7) (.add (.rd (.arr .jac 7)) (.mul (.rd (.var .jTemp)) (.num 18015280000000001 15))),
  .set (.arr .jac 8) (.add (.rd (.arr .jac 8)) (.mul (.neg (.rd (.var .jTemp))) (.num 34014679999999998 15)))]

/-- utilities/mechanisms/yao/lib/src/jacobs/jacob_0.c:3452-3458 -/
def jacobT16 : List CStmt := [
  .set (.var .jTemp) (.mul (.mul (.div (.num 1 0) (.rd (.var .T))) (.sub (.add (.mul (.sub (.rd (.arr .fwd 16)) (.rd (.arr .rev 16))) (.add (.neg (.num 7 0)) (.div (.num 18921055638704514 12) (.rd (.var .T))))) (.mul (.rd (.arr .fwd 16)) (.neg (.num 1 0)))) (.mul (.rd (.arr .rev 16)) (.add (.neg (.num 1 0)) (.mul (.neg (.rd (.var .T))) (.sub (.sub (.add (.rd (.arr .dBdT 6)) (.rd (.arr .dBdT 4))) (.rd (.arr .dBdT 7))) (.rd (.arr .dBdT 3)))))))) (.rd (.var .rhoInv))),
  .set (.arr .jac 4) (.add (.rd (.arr .jac 4)) (.mul (.neg (.rd (.var .jTemp))) (.num 17007339999999999 15))),
  .set (.arr .jac 5) (.add (.rd (.arr .jac 5)) (.mul (.rd (.var .jTemp)) (.num 33006740000000001 15))),
  .set (.arr .jac 7) (.add (.rd (.arr .jac 7)) (.mul (.rd (.var .jTemp)) (.num 18015280000000001 15))),
  .set (.arr .jac 8) (.add (.rd (.arr .jac 8)) (.mul (.neg (.rd (.var .jTemp))) (.num 34014679999999998 15)))]

/-- utilities/mechanisms/yao/lib/src/jacobs/jacob_0.c:3683-3693 -/
def jacobT17 : List CStmt := [
  .set (.var .concTemp) (.add (.add (.add (.add (.add (.rd (.var .m)) (.mul (.neg (.num 3 1)) (.rd (.arr .C 0)))) (.mul (.num 1 0) (.rd (.arr .C 5)))) (.mul (.num 5 0) (.rd (.arr .C 6)))) (.mul (.num 75 2) (.rd (.arr .C 16)))) (.mul (.num 26 1) (.rd (.arr .C 17)))),
  .set (.var .Pr) (.mul (.rd (.var .concTemp)) (.exp (.sub (.sub (.num 5937747067467416 16) (.mul (.num 214 3) (.rd (.var .logT)))) (.div (.neg (.num 115388246222206 11)) (.rd (.var .T)))))),
  .set (.var .Fcent) (.add (.add (.mul (.num 26539999999999997 17) (.exp (.div (.rd (.var .T)) (.neg (.num 94 0))))) (.mul (.num 73460000000000003 17) (.exp (.div (.rd (.var .T)) (.neg (.num 1756 0)))))) (.exp (.div (.neg (.num 5182 0)) (.rd (.var .T))))),
  .set (.var .A) (.sub (.sub (.log10 (.fmax (.rd (.var .Pr)) (.num 1 300))) (.mul (.num 67 2) (.log10 (.fmax (.rd (.var .Fcent)) (.num 1 300))))) (.num 4 1)),
  .set (.var .B) (.sub (.sub (.num 806 3) (.mul (.num 11762 4) (.log10 (.fmax (.rd (.var .Fcent)) (.num 1 300))))) (.mul (.num 14 2) (.log10 (.fmax (.rd (.var .Pr)) (.num 1 300))))),
  .set (.var .lnFAB) (.div (.mul (.mul (.num 2 0) (.log (.fmax (.rd (.var .Fcent)) (.num 1 300)))) (.rd (.var .A))) (.mul (.mul (.mul (.mul (.rd (.var .B)) (.rd (.var .B))) (.rd (.var .B))) (.add (.num 1 0) (.div (.mul (.rd (.var .A)) (.rd (.var .A))) (.mul (.rd (.var .B)) (.rd (.var .B)))))) (.add (.num 1 0) (.div (.mul (.rd (.var .A)) (.rd (.var .A))) (.mul (.rd (.var .B)) (.rd (.var .B))))))),
  .set (.var .jTemp) (.mul (.add (.mul (.mul (.rd (.arr .presMod 1)) (.sub (.add (.div (.sub (.add (.neg (.num 214 3)) (.div (.neg (.num 115388246222206 11)) (.rd (.var .T)))) (.num 1 0)) (.mul (.rd (.var .T)) (.add (.num 1 0) (.rd (.var .Pr))))) (.mul (.sub (.div (.num 1 0) (.mul (.rd (.var .Fcent)) (.add (.num 1 0) (.div (.mul (.rd (.var .A)) (.rd (.var .A))) (.mul (.rd (.var .B)) (.rd (.var .B))))))) (.div (.mul (.rd (.var .lnFAB)) (.add (.mul (.neg (.num 2909773028751787 16)) (.rd (.var .B))) (.mul (.num 51081716961460466 17) (.rd (.var .A))))) (.rd (.var .Fcent)))) (.add (.sub (.mul (.neg (.num 28234042553191485 19)) (.exp (.div (.rd (.var .T)) (.neg (.num 94 0))))) (.mul (.num 4183371298405467 19) (.exp (.div (.rd (.var .T)) (.neg (.num 1756 0)))))) (.mul (.div (.num 5182 0) (.mul (.rd (.var .T)) (.rd (.var .T)))) (.exp (.div (.neg (.num 5182 0)) (.rd (.var .T)))))))) (.div (.mul (.mul (.rd (.var .lnFAB)) (.add (.mul (.num 43429448190325176 17) (.rd (.var .B))) (.mul (.num 60801227466455256 18) (.rd (.var .A))))) (.sub (.add (.neg (.num 21399999999999997 17)) (.div (.neg (.num 115388246222206 11)) (.rd (.var .T)))) (.num 1 0))) (.rd (.var .T))))) (.sub (.rd (.arr .fwd 17)) (.rd (.arr .rev 17)))) (.mul (.div (.rd (.arr .presMod 1)) (.rd (.var .T))) (.sub (.add (.mul (.sub (.rd (.arr .fwd 17)) (.rd (.arr .rev 17))) (.neg (.num 37 2))) (.mul (.rd (.arr .fwd 17)) (.neg (.num 1 0)))) (.mul (.rd (.arr .rev 17)) (.mul (.neg (.rd (.var .T))) (.sub (.rd (.arr .dBdT 7)) (.mul (.num 2 0) (.rd (.arr .dBdT 3))))))))) (.rd (.var .rhoInv))),
  .set (.arr .jac 4) (.add (.rd (.arr .jac 4)) (.mul (.mul (.rd (.var .jTemp)) (.neg (.num 2 0))) (.num 17007339999999999 15))),
  .set (.arr .jac 8) (.add (.rd (.arr .jac 8)) (.mul (.rd (.var .jTemp)) (.num 34014679999999998 15)))]

/-- utilities/mechanisms/yao/lib/src/jacobs/jacob_0.c:3814-3818 -/
def jacobT18 : List CStmt := [
  .set (.var .jTemp) (.mul (.add (.div (.mul (.neg (.rd (.arr .presMod 2))) (.sub (.rd (.arr .fwd 18)) (.rd (.arr .rev 18)))) (.rd (.var .T))) (.mul (.div (.rd (.arr .presMod 2)) (.rd (.var .T))) (.sub (.add (.mul (.sub (.rd (.arr .fwd 18)) (.rd (.arr .rev 18))) (.neg (.num 1 0))) (.mul (.rd (.arr .fwd 18)) (.neg (.num 1 0)))) (.mul (.rd (.arr .rev 18)) (.mul (.neg (.rd (.var .T))) (.sub (.rd (.arr .dBdT 5)) (.mul (.num 2 0) (.rd (.arr .dBdT 1))))))))) (.rd (.var .rhoInv))),
  .set (.arr .jac 2) (.add (.rd (.arr .jac 2)) (.mul (.mul (.rd (.var .jTemp)) (.neg (.num 2 0))) (.num 10079400000000001 16))),
  .set (.arr .jac 6) (.add (.rd (.arr .jac 6)) (.mul (.rd (.var .jTemp)) (.num 20158800000000001 16)))]

/-- utilities/mechanisms/yao/lib/src/jacobs/jacob_0.c:3938-3943 -/
def jacobT19 : List CStmt := [
  .set (.var .jTemp) (.mul (.add (.div (.mul (.neg (.rd (.arr .presMod 3))) (.sub (.rd (.arr .fwd 19)) (.rd (.arr .rev 19)))) (.rd (.var .T))) (.mul (.div (.rd (.arr .presMod 3)) (.rd (.var .T))) (.sub (.add (.mul (.sub (.rd (.arr .fwd 19)) (.rd (.arr .rev 19))) (.neg (.num 2 0))) (.mul (.rd (.arr .fwd 19)) (.neg (.num 1 0)))) (.mul (.rd (.arr .rev 19)) (.mul (.neg (.rd (.var .T))) (.sub (.sub (.rd (.arr .dBdT 6)) (.rd (.arr .dBdT 1))) (.rd (.arr .dBdT 3)))))))) (.rd (.var .rhoInv))),
  .set (.arr .jac 2) (.add (.rd (.arr .jac 2)) (.mul (.neg (.rd (.var .jTemp))) (.num 10079400000000001 16))),
  .set (.arr .jac 4) (.add (.rd (.arr .jac 4)) (.mul (.neg (.rd (.var .jTemp))) (.num 17007339999999999 15))),
  .set (.arr .jac 7) (.add (.rd (.arr .jac 7)) (.mul (.rd (.var .jTemp)) (.num 18015280000000001 15)))]

/-- utilities/mechanisms/yao/lib/src/jacobs/jacob_0.c:4116-4120 -/
def jacobT20 : List CStmt := [
  .set (.var .jTemp) (.mul (.add (.div (.mul (.neg (.rd (.arr .presMod 4))) (.sub (.rd (.arr .fwd 20)) (.rd (.arr .rev 20)))) (.rd (.var .T))) (.mul (.div (.rd (.arr .presMod 4)) (.rd (.var .T))) (.sub (.add (.mul (.sub (.rd (.arr .fwd 20)) (.rd (.arr .rev 20))) (.neg (.num 1 0))) (.mul (.rd (.arr .fwd 20)) (.neg (.num 1 0)))) (.mul (.rd (.arr .rev 20)) (.mul (.neg (.rd (.var .T))) (.sub (.rd (.arr .dBdT 8)) (.mul (.num 2 0) (.rd (.arr .dBdT 2))))))))) (.rd (.var .rhoInv))),
  .set (.arr .jac 9) (.add (.rd (.arr .jac 9)) (.mul (.rd (.var .jTemp)) (.num 31998799999999999 15))),
  .set (.arr .jac 3) (.add (.rd (.arr .jac 3)) (.mul (.mul (.rd (.var .jTemp)) (.neg (.num 2 0))) (.num 159994 4)))]

/-- utilities/mechanisms/yao/lib/src/jacobs/jacob_0.c:4240-4244 -/
def jacobT21 : List CStmt := [
  .set (.var .jTemp) (.mul (.mul (.div (.num 1 0) (.rd (.var .T))) (.sub (.add (.mul (.sub (.rd (.arr .fwd 21)) (.rd (.arr .rev 21))) (.neg (.num 59999999999999998 17))) (.mul (.rd (.arr .fwd 21)) (.neg (.num 2 0)))) (.mul (.rd (.arr .rev 21)) (.add (.neg (.num 1 0)) (.mul (.neg (.rd (.var .T))) (.sub (.rd (.arr .dBdT 5)) (.mul (.num 2 0) (.rd (.arr .dBdT 1))))))))) (.rd (.var .rhoInv))),
  .set (.arr .jac 2) (.add (.rd (.arr .jac 2)) (.mul (.mul (.rd (.var .jTemp)) (.neg (.num 2 0))) (.num 10079400000000001 16))),
  .set (.arr .jac 6) (.add (.rd (.arr .jac 6)) (.mul (.rd (.var .jTemp)) (.num 20158800000000001 16)))]

/-- utilities/mechanisms/yao/lib/src/jacobs/jacob_0.c:4363-4367 -/
def jacobT22 : List CStmt := [
  .set (.var .jTemp) (.mul (.mul (.div (.num 1 0) (.rd (.var .T))) (.sub (.add (.mul (.sub (.rd (.arr .fwd 22)) (.rd (.arr .rev 22))) (.neg (.num 125 2))) (.mul (.rd (.arr .fwd 22)) (.neg (.num 2 0)))) (.mul (.rd (.arr .rev 22)) (.add (.neg (.num 1 0)) (.mul (.neg (.rd (.var .T))) (.sub (.rd (.arr .dBdT 5)) (.mul (.num 2 0) (.rd (.arr .dBdT 1))))))))) (.rd (.var .rhoInv))),
  .set (.arr .jac 2) (.add (.rd (.arr .jac 2)) (.mul (.mul (.rd (.var .jTemp)) (.neg (.num 2 0))) (.num 10079400000000001 16))),
  .set (.arr .jac 6) (.add (.rd (.arr .jac 6)) (.mul (.rd (.var .jTemp)) (.num 20158800000000001 16)))]

/-- utilities/mechanisms/yao/lib/src/jacobs/jacob_0.c:4486-4490 -/
def jacobT23 : List CStmt := [
  .set (.var .jTemp) (.mul (.mul (.div (.num 1 0) (.rd (.var .T))) (.sub (.add (.mul (.sub (.rd (.arr .fwd 23)) (.rd (.arr .rev 23))) (.neg (.num 2 0))) (.mul (.rd (.arr .fwd 23)) (.neg (.num 2 0)))) (.mul (.rd (.arr .rev 23)) (.add (.neg (.num 1 0)) (.mul (.neg (.rd (.var .T))) (.sub (.rd (.arr .dBdT 5)) (.mul (.num 2 0) (.rd (.arr .dBdT 1))))))))) (.rd (.var .rhoInv))),
  .set (.arr .jac 2) (.add (.rd (.arr .jac 2)) (.mul (.mul (.rd (.var .jTemp)) (.neg (.num 2 0))) (.num 10079400000000001 16))),
  .set (.arr .jac 6) (.add (.rd (.arr .jac 6)) (.mul (.rd (.var .jTemp)) (.num 20158800000000001 16)))]

/-- utilities/mechanisms/yao/lib/src/jacobs/jacob_0.c:4609-4614 -/
def jacobT24 : List CStmt := [
  .set (.var .jTemp) (.mul (.add (.div (.mul (.neg (.rd (.arr .presMod 5))) (.sub (.rd (.arr .fwd 24)) (.rd (.arr .rev 24)))) (.rd (.var .T))) (.mul (.div (.rd (.arr .presMod 5)) (.rd (.var .T))) (.sub (.add (.mul (.sub (.rd (.arr .fwd 24)) (.rd (.arr .rev 24))) (.neg (.num 1 0))) (.mul (.rd (.arr .fwd 24)) (.neg (.num 1 0)))) (.mul (.rd (.arr .rev 24)) (.mul (.neg (.rd (.var .T))) (.sub (.sub (.rd (.arr .dBdT 3)) (.rd (.arr .dBdT 1))) (.rd (.arr .dBdT 2)))))))) (.rd (.var .rhoInv))),
  .set (.arr .jac 2) (.add (.rd (.arr .jac 2)) (.mul (.neg (.rd (.var .jTemp))) (.num 10079400000000001 16))),
  .set (.arr .jac 3) (.add (.rd (.arr .jac 3)) (.mul (.neg (.rd (.var .jTemp))) (.num 159994 4))),
  .set (.arr .jac 4) (.add (.rd (.arr .jac 4)) (.mul (.rd (.var .jTemp)) (.num 17007339999999999 15)))]

/-- utilities/mechanisms/yao/lib/src/jacobs/jacob_0.c:4787-4793 -/
def jacobT25 : List CStmt := [
  .set (.var .jTemp) (.mul (.mul (.div (.num 1 0) (.rd (.var .T))) (.sub (.add (.mul (.sub (.rd (.arr .fwd 25)) (.rd (.arr .rev 25))) (.add (.num 20529999999999999 16) (.div (.neg (.num 17898010263345839 14)) (.rd (.var .T))))) (.mul (.rd (.arr .fwd 25)) (.neg (.num 1 0)))) (.mul (.rd (.arr .rev 25)) (.add (.neg (.num 1 0)) (.mul (.neg (.rd (.var .T))) (.sub (.sub (.add (.rd (.arr .dBdT 1)) (.rd (.arr .dBdT 17))) (.rd (.arr .dBdT 16))) (.rd (.arr .dBdT 3)))))))) (.rd (.var .rhoInv))),
  .set (.arr .jac 17) (.mul (.neg (.rd (.var .jTemp))) (.num 28010399999999997 15)),
  .set (.arr .jac 2) (.add (.rd (.arr .jac 2)) (.mul (.rd (.var .jTemp)) (.num 10079400000000001 16))),
  .set (.arr .jac 4) (.add (.rd (.arr .jac 4)) (.mul (.neg (.rd (.var .jTemp))) (.num 17007339999999999 15))),
  .set (.arr .jac 18) (.mul (.rd (.var .jTemp)) (.num 44009799999999998 15))]

/-- utilities/mechanisms/yao/lib/src/jacobs/jacob_0.c:5018-5024 -/
def jacobT26 : List CStmt := [
  .set (.var .jTemp) (.mul (.mul (.div (.num 1 0) (.rd (.var .T))) (.sub (.add (.mul (.sub (.rd (.arr .fwd 26)) (.rd (.arr .rev 26))) (.add (.neg (.num 66400000000000003 17)) (.div (.num 16698334820721593 14) (.rd (.var .T))))) (.mul (.rd (.arr .fwd 26)) (.neg (.num 1 0)))) (.mul (.rd (.arr .rev 26)) (.add (.neg (.num 1 0)) (.mul (.neg (.rd (.var .T))) (.sub (.sub (.add (.rd (.arr .dBdT 1)) (.rd (.arr .dBdT 17))) (.rd (.arr .dBdT 16))) (.rd (.arr .dBdT 3)))))))) (.rd (.var .rhoInv))),
  .set (.arr .jac 17) (.add (.rd (.arr .jac 17)) (.mul (.neg (.rd (.var .jTemp))) (.num 28010399999999997 15))),
  .set (.arr .jac 2) (.add (.rd (.arr .jac 2)) (.mul (.rd (.var .jTemp)) (.num 10079400000000001 16))),
  .set (.arr .jac 4) (.add (.rd (.arr .jac 4)) (.mul (.neg (.rd (.var .jTemp))) (.num 17007339999999999 15))),
  .set (.arr .jac 18) (.add (.rd (.arr .jac 18)) (.mul (.rd (.var .jTemp)) (.num 44009799999999998 15)))]

/-- utilities/mechanisms/yao/lib/src/jacobs/jacob_0.c:5249-5255 -/
def jacobT27 : List CStmt := [
  .set (.var .jTemp) (.mul (.mul (.div (.num 1 0) (.rd (.var .T))) (.sub (.add (.mul (.sub (.rd (.arr .fwd 27)) (.rd (.arr .rev 27))) (.add (.num 21800000000000002 16) (.div (.num 90290723966376609 13) (.rd (.var .T))))) (.mul (.rd (.arr .fwd 27)) (.neg (.num 1 0)))) (.mul (.rd (.arr .rev 27)) (.add (.neg (.num 1 0)) (.mul (.neg (.rd (.var .T))) (.sub (.sub (.add (.rd (.arr .dBdT 17)) (.rd (.arr .dBdT 3))) (.rd (.arr .dBdT 16))) (.rd (.arr .dBdT 4)))))))) (.rd (.var .rhoInv))),
  .set (.arr .jac 17) (.add (.rd (.arr .jac 17)) (.mul (.neg (.rd (.var .jTemp))) (.num 28010399999999997 15))),
  .set (.arr .jac 18) (.add (.rd (.arr .jac 18)) (.mul (.rd (.var .jTemp)) (.num 44009799999999998 15))),
  .set (.arr .jac 4) (.add (.rd (.arr .jac 4)) (.mul (.rd (.var .jTemp)) (.num 17007339999999999 15))),
  .set (.arr .jac 5) (.add (.rd (.arr .jac 5)) (.mul (.neg (.rd (.var .jTemp))) (.num 33006740000000001 15)))]

/-- utilities/mechanisms/yao/lib/src/jacobs/jacob_0.c:5480-5487 -/
def jacobT28 : List CStmt := [
  .set (.var .concTemp) (.add (.rd (.var .concTemp)) (.mul (.num 6 0) (.rd (.arr .C 6)))),
  .set (.var .Pr) (.mul (.rd (.var .concTemp)) (.exp (.sub (.sub (.num 25179046384878522 15) (.mul (.num 279 2) (.rd (.var .logT)))) (.div (.num 90931775370050673 14) (.rd (.var .T)))))),
  .set (.var .jTemp) (.mul (.add (.mul (.mul (.rd (.arr .presMod 6)) (.div (.sub (.add (.neg (.num 279 2)) (.div (.num 90931775370050673 14) (.rd (.var .T)))) (.num 1 0)) (.mul (.rd (.var .T)) (.add (.num 1 0) (.rd (.var .Pr)))))) (.sub (.rd (.arr .fwd 28)) (.rd (.arr .rev 28)))) (.mul (.div (.rd (.arr .presMod 6)) (.rd (.var .T))) (.sub (.add (.mul (.sub (.rd (.arr .fwd 28)) (.rd (.arr .rev 28))) (.div (.num 11996754426242437 13) (.rd (.var .T)))) (.mul (.rd (.arr .fwd 28)) (.neg (.num 1 0)))) (.mul (.rd (.arr .rev 28)) (.mul (.neg (.rd (.var .T))) (.sub (.sub (.rd (.arr .dBdT 17)) (.rd (.arr .dBdT 16))) (.rd (.arr .dBdT 2)))))))) (.rd (.var .rhoInv))),
  .set (.arr .jac 17) (.add (.rd (.arr .jac 17)) (.mul (.neg (.rd (.var .jTemp))) (.num 28010399999999997 15))),
  .set (.arr .jac 18) (.add (.rd (.arr .jac 18)) (.mul (.rd (.var .jTemp)) (.num 44009799999999998 15))),
  .set (.arr .jac 3) (.add (.rd (.arr .jac 3)) (.mul (.neg (.rd (.var .jTemp))) (.num 159994 4)))]

/-- utilities/mechanisms/yao/lib/src/jacobs/jacob_0.c:5661-5667 -/
def jacobT29 : List CStmt := [
  .set (.var .jTemp) (.mul (.mul (.div (.num 1 0) (.rd (.var .T))) (.sub (.add (.mul (.sub (.rd (.arr .fwd 29)) (.rd (.arr .rev 29))) (.div (.num 24003573243782059 12) (.rd (.var .T)))) (.mul (.rd (.arr .fwd 29)) (.neg (.num 1 0)))) (.mul (.rd (.arr .rev 29)) (.add (.neg (.num 1 0)) (.mul (.neg (.rd (.var .T))) (.sub (.sub (.add (.rd (.arr .dBdT 17)) (.rd (.arr .dBdT 2))) (.rd (.arr .dBdT 16))) (.rd (.arr .dBdT 8)))))))) (.rd (.var .rhoInv))),
  .set (.arr .jac 17) (.add (.rd (.arr .jac 17)) (.mul (.neg (.rd (.var .jTemp))) (.num 28010399999999997 15))),
  .set (.arr .jac 9) (.add (.rd (.arr .jac 9)) (.mul (.neg (.rd (.var .jTemp))) (.num 31998799999999999 15))),
  .set (.arr .jac 3) (.add (.rd (.arr .jac 3)) (.mul (.rd (.var .jTemp)) (.num 159994 4))),
  .set (.arr .jac 18) (.add (.rd (.arr .jac 18)) (.mul (.rd (.var .jTemp)) (.num 44009799999999998 15)))]

/-- utilities/mechanisms/yao/lib/src/jacobs/jacob_0.c:5892-5897 -/
def jacobT30 : List CStmt := [
  .set (.var .jTemp) (.mul (.add (.div (.mul (.neg (.rd (.arr .presMod 7))) (.sub (.rd (.arr .fwd 30)) (.rd (.arr .rev 30)))) (.rd (.var .T))) (.mul (.div (.rd (.arr .presMod 7)) (.rd (.var .T))) (.sub (.mul (.sub (.rd (.arr .fwd 30)) (.rd (.arr .rev 30))) (.add (.neg (.num 1 0)) (.div (.num 85547326026057654 13) (.rd (.var .T))))) (.mul (.rd (.arr .rev 30)) (.add (.neg (.num 1 0)) (.mul (.neg (.rd (.var .T))) (.sub (.add (.rd (.arr .dBdT 1)) (.rd (.arr .dBdT 16))) (.rd (.arr .dBdT 13))))))))) (.rd (.var .rhoInv))),
  .set (.arr .jac 17) (.add (.rd (.arr .jac 17)) (.mul (.rd (.var .jTemp)) (.num 28010399999999997 15))),
  .set (.arr .jac 2) (.add (.rd (.arr .jac 2)) (.mul (.rd (.var .jTemp)) (.num 10079400000000001 16))),
  .set (.arr .jac 14) (.mul (.neg (.rd (.var .jTemp))) (.num 29018339999999998 15))]

/-- utilities/mechanisms/yao/lib/src/jacobs/jacob_0.c:6070-6076 -/
def jacobT31 : List CStmt := [
  .set (.var .jTemp) (.mul (.mul (.div (.num 1 0) (.rd (.var .T))) (.sub (.mul (.rd (.arr .fwd 31)) (.neg (.num 1 0))) (.mul (.rd (.arr .rev 31)) (.add (.neg (.num 1 0)) (.mul (.neg (.rd (.var .T))) (.sub (.sub (.add (.rd (.arr .dBdT 5)) (.rd (.arr .dBdT 16))) (.rd (.arr .dBdT 1))) (.rd (.arr .dBdT 13)))))))) (.rd (.var .rhoInv))),
  .set (.arr .jac 17) (.add (.rd (.arr .jac 17)) (.mul (.rd (.var .jTemp)) (.num 28010399999999997 15))),
  .set (.arr .jac 2) (.add (.rd (.arr .jac 2)) (.mul (.neg (.rd (.var .jTemp))) (.num 10079400000000001 16))),
  .set (.arr .jac 14) (.add (.rd (.arr .jac 14)) (.mul (.neg (.rd (.var .jTemp))) (.num 29018339999999998 15))),
  .set (.arr .jac 6) (.add (.rd (.arr .jac 6)) (.mul (.rd (.var .jTemp)) (.num 20158800000000001 16)))]

/-- utilities/mechanisms/yao/lib/src/jacobs/jacob_0.c:6301-6307 -/
def jacobT32 : List CStmt := [
  .set (.var .jTemp) (.mul (.mul (.div (.num 1 0) (.rd (.var .T))) (.sub (.mul (.rd (.arr .fwd 32)) (.neg (.num 1 0))) (.mul (.rd (.arr .rev 32)) (.add (.neg (.num 1 0)) (.mul (.neg (.rd (.var .T))) (.sub (.sub (.add (.rd (.arr .dBdT 16)) (.rd (.arr .dBdT 3))) (.rd (.arr .dBdT 13))) (.rd (.arr .dBdT 2)))))))) (.rd (.var .rhoInv))),
  .set (.arr .jac 17) (.add (.rd (.arr .jac 17)) (.mul (.rd (.var .jTemp)) (.num 28010399999999997 15))),
  .set (.arr .jac 3) (.add (.rd (.arr .jac 3)) (.mul (.neg (.rd (.var .jTemp))) (.num 159994 4))),
  .set (.arr .jac 4) (.add (.rd (.arr .jac 4)) (.mul (.rd (.var .jTemp)) (.num 17007339999999999 15))),
  .set (.arr .jac 14) (.add (.rd (.arr .jac 14)) (.mul (.neg (.rd (.var .jTemp))) (.num 29018339999999998 15)))]

/-- utilities/mechanisms/yao/lib/src/jacobs/jacob_0.c:6532-6538 -/
def jacobT33 : List CStmt := [
  .set (.var .jTemp) (.mul (.mul (.div (.num 1 0) (.rd (.var .T))) (.sub (.mul (.rd (.arr .fwd 33)) (.neg (.num 1 0))) (.mul (.rd (.arr .rev 33)) (.add (.neg (.num 1 0)) (.mul (.neg (.rd (.var .T))) (.sub (.sub (.add (.rd (.arr .dBdT 1)) (.rd (.arr .dBdT 17))) (.rd (.arr .dBdT 13))) (.rd (.arr .dBdT 2)))))))) (.rd (.var .rhoInv))),
  .set (.arr .jac 2) (.add (.rd (.arr .jac 2)) (.mul (.rd (.var .jTemp)) (.num 10079400000000001 16))),
  .set (.arr .jac 3) (.add (.rd (.arr .jac 3)) (.mul (.neg (.rd (.var .jTemp))) (.num 159994 4))),
  .set (.arr .jac 14) (.add (.rd (.arr .jac 14)) (.mul (.neg (.rd (.var .jTemp))) (.num 29018339999999998 15))),
  .set (.arr .jac 18) (.add (.rd (.arr .jac 18)) (.mul (.rd (.var .jTemp)) (.num 44009799999999998 15)))]

/-- utilities/mechanisms/yao/lib/src/jacobs/jacob_0.c:6763-6769 -/
def jacobT34 : List CStmt := [
  .set (.var .jTemp) (.mul (.mul (.div (.num 1 0) (.rd (.var .T))) (.sub (.mul (.rd (.arr .fwd 34)) (.neg (.num 1 0))) (.mul (.rd (.arr .rev 34)) (.add (.neg (.num 1 0)) (.mul (.neg (.rd (.var .T))) (.sub (.sub (.add (.rd (.arr .dBdT 6)) (.rd (.arr .dBdT 16))) (.rd (.arr .dBdT 13))) (.rd (.arr .dBdT 3)))))))) (.rd (.var .rhoInv))),
  .set (.arr .jac 17) (.add (.rd (.arr .jac 17)) (.mul (.rd (.var .jTemp)) (.num 28010399999999997 15))),
  .set (.arr .jac 4) (.add (.rd (.arr .jac 4)) (.mul (.neg (.rd (.var .jTemp))) (.num 17007339999999999 15))),
  .set (.arr .jac 14) (.add (.rd (.arr .jac 14)) (.mul (.neg (.rd (.var .jTemp))) (.num 29018339999999998 15))),
  .set (.arr .jac 7) (.add (.rd (.arr .jac 7)) (.mul (.rd (.var .jTemp)) (.num 18015280000000001 15)))]

/-- utilities/mechanisms/yao/lib/src/jacobs/jacob_0.c:6994-7000 -/
def jacobT35 : List CStmt := [
  .set (.var .jTemp) (.mul (.mul (.div (.num 1 0) (.rd (.var .T))) (.sub (.add (.mul (.sub (.rd (.arr .fwd 35)) (.rd (.arr .rev 35))) (.add (.num 80700000000000005 17) (.div (.neg (.num 36584062365261121 14)) (.rd (.var .T))))) (.mul (.rd (.arr .fwd 35)) (.neg (.num 1 0)))) (.mul (.rd (.arr .rev 35)) (.add (.neg (.num 1 0)) (.mul (.neg (.rd (.var .T))) (.sub (.sub (.add (.rd (.arr .dBdT 16)) (.rd (.arr .dBdT 4))) (.rd (.arr .dBdT 13))) (.rd (.arr .dBdT 8)))))))) (.rd (.var .rhoInv))),
  .set (.arr .jac 9) (.add (.rd (.arr .jac 9)) (.mul (.neg (.rd (.var .jTemp))) (.num 31998799999999999 15))),
  .set (.arr .jac 17) (.add (.rd (.arr .jac 17)) (.mul (.rd (.var .jTemp)) (.num 28010399999999997 15))),
  .set (.arr .jac 5) (.add (.rd (.arr .jac 5)) (.mul (.rd (.var .jTemp)) (.num 33006740000000001 15))),
  .set (.arr .jac 14) (.add (.rd (.arr .jac 14)) (.mul (.neg (.rd (.var .jTemp))) (.num 29018339999999998 15)))]

/-- utilities/mechanisms/yao/lib/src/jacobs/jacob_0.c:7225-7230 -/
def jacobT36 : List CStmt := [
  .set (.var .jTemp) (.mul (.mul (.div (.num 1 0) (.rd (.var .T))) (.sub (.add (.mul (.sub (.rd (.arr .fwd 36)) (.rd (.arr .rev 36))) (.add (.neg (.num 1 0)) (.div (.num 85547326026057654 13) (.rd (.var .T))))) (.mul (.rd (.arr .fwd 36)) (.neg (.num 1 0)))) (.mul (.rd (.arr .rev 36)) (.add (.neg (.num 2 0)) (.mul (.neg (.rd (.var .T))) (.sub (.add (.rd (.arr .dBdT 1)) (.rd (.arr .dBdT 16))) (.rd (.arr .dBdT 13)))))))) (.rd (.var .rhoInv))),
  .set (.arr .jac 17) (.add (.rd (.arr .jac 17)) (.mul (.rd (.var .jTemp)) (.num 28010399999999997 15))),
  .set (.arr .jac 2) (.add (.rd (.arr .jac 2)) (.mul (.rd (.var .jTemp)) (.num 10079400000000001 16))),
  .set (.arr .jac 14) (.add (.rd (.arr .jac 14)) (.mul (.neg (.rd (.var .jTemp))) (.num 29018339999999998 15)))]

/-- utilities/mechanisms/yao/lib/src/jacobs/jacob_0.c:7402-7413 -/
def jacobT37 : List CStmt := [
  .set (.var .concTemp) (.add (.rd (.var .concTemp)) (.add (.sub (.sub (.add (.mul (.neg (.num 6 0)) (.rd (.arr .C 6))) (.mul (.num 1 0) (.rd (.arr .C 12)))) (.mul (.num 25 2) (.rd (.arr .C 16)))) (.mul (.num 16 1) (.rd (.arr .C 17)))) (.mul (.num 2 0) (.rd (.arr .C 22))))),
  .set (.var .Pr) (.mul (.rd (.var .concTemp)) (.exp (.sub (.sub (.num 39308672375802352 15) (.mul (.num 492 2) (.rd (.var .logT)))) (.div (.num 23902929330810221 13) (.rd (.var .T)))))),
  .set (.var .Fcent) (.add (.add (.mul (.num 67999999999999949 18) (.exp (.div (.rd (.var .T)) (.neg (.num 19700000000000003 14))))) (.mul (.num 93200000000000005 17) (.exp (.div (.rd (.var .T)) (.neg (.num 1540 0)))))) (.exp (.div (.neg (.num 10300 0)) (.rd (.var .T))))),
  .set (.var .A) (.sub (.sub (.log10 (.fmax (.rd (.var .Pr)) (.num 1 300))) (.mul (.num 67 2) (.log10 (.fmax (.rd (.var .Fcent)) (.num 1 300))))) (.num 4 1)),
  .set (.var .B) (.sub (.sub (.num 806 3) (.mul (.num 11762 4) (.log10 (.fmax (.rd (.var .Fcent)) (.num 1 300))))) (.mul (.num 14 2) (.log10 (.fmax (.rd (.var .Pr)) (.num 1 300))))),
  .set (.var .lnFAB) (.div (.mul (.mul (.num 2 0) (.log (.fmax (.rd (.var .Fcent)) (.num 1 300)))) (.rd (.var .A))) (.mul (.mul (.mul (.mul (.rd (.var .B)) (.rd (.var .B))) (.rd (.var .B))) (.add (.num 1 0) (.div (.mul (.rd (.var .A)) (.rd (.var .A))) (.mul (.rd (.var .B)) (.rd (.var .B)))))) (.add (.num 1 0) (.div (.mul (.rd (.var .A)) (.rd (.var .A))) (.mul (.rd (.var .B)) (.rd (.var .B))))))),
  .set (.var .jTemp) (.mul (.add (.mul (.mul (.rd (.arr .presMod 8)) (.sub (.add (.div (.sub (.add (.neg (.num 492 2)) (.div (.num 23902929330810221 13) (.rd (.var .T)))) (.num 1 0)) (.mul (.rd (.var .T)) (.add (.num 1 0) (.rd (.var .Pr))))) (.mul (.sub (.div (.num 1 0) (.mul (.rd (.var .Fcent)) (.add (.num 1 0) (.div (.mul (.rd (.var .A)) (.rd (.var .A))) (.mul (.rd (.var .B)) (.rd (.var .B))))))) (.div (.mul (.rd (.var .lnFAB)) (.add (.mul (.neg (.num 2909773028751787 16)) (.rd (.var .B))) (.mul (.num 51081716961460466 17) (.rd (.var .A))))) (.rd (.var .Fcent)))) (.add (.sub (.mul (.neg (.num 34517766497461899 20)) (.exp (.div (.rd (.var .T)) (.neg (.num 19700000000000003 14))))) (.mul (.num 60519480519480523 20) (.exp (.div (.rd (.var .T)) (.neg (.num 1540 0)))))) (.mul (.div (.num 10300 0) (.mul (.rd (.var .T)) (.rd (.var .T)))) (.exp (.div (.neg (.num 10300 0)) (.rd (.var .T)))))))) (.div (.mul (.mul (.rd (.var .lnFAB)) (.add (.mul (.num 43429448190325176 17) (.rd (.var .B))) (.mul (.num 60801227466455256 18) (.rd (.var .A))))) (.sub (.add (.neg (.num 49199999999999999 16)) (.div (.num 23902929330810221 13) (.rd (.var .T)))) (.num 1 0))) (.rd (.var .T))))) (.sub (.rd (.arr .fwd 37)) (.rd (.arr .rev 37)))) (.mul (.div (.rd (.arr .presMod 8)) (.rd (.var .T))) (.sub (.add (.mul (.sub (.rd (.arr .fwd 37)) (.rd (.arr .rev 37))) (.add (.num 15 1) (.div (.num 40056277362789348 12) (.rd (.var .T))))) (.mul (.rd (.arr .fwd 37)) (.neg (.num 1 0)))) (.mul (.rd (.arr .rev 37)) (.mul (.neg (.rd (.var .T))) (.sub (.sub (.rd (.arr .dBdT 14)) (.rd (.arr .dBdT 5))) (.rd (.arr .dBdT 16)))))))) (.rd (.var .rhoInv))),
  .set (.arr .jac 17) (.add (.rd (.arr .jac 17)) (.mul (.neg (.rd (.var .jTemp))) (.num 28010399999999997 15))),
  .set (.arr .jac 6) (.add (.rd (.arr .jac 6)) (.mul (.neg (.rd (.var .jTemp))) (.num 20158800000000001 16))),
  .set (.arr .jac 15) (.mul (.rd (.var .jTemp)) (.num 3002628 5))]

/-- utilities/mechanisms/yao/lib/src/jacobs/jacob_0.c:7587-7597 -/
def jacobT38 : List CStmt := [
  .set (.var .Pr) (.mul (.rd (.var .concTemp)) (.exp (.sub (.sub (.num 20937192733155698 15) (.mul (.num 305 2) (.rd (.var .logT)))) (.div (.num 84792496678768907 14) (.rd (.var .T)))))),
  .set (.var .Fcent) (.add (.add (.mul (.num 21760000000000002 17) (.exp (.div (.rd (.var .T)) (.neg (.num 271 0))))) (.mul (.num 78239999999999998 17) (.exp (.div (.rd (.var .T)) (.neg (.num 2755 0)))))) (.exp (.div (.neg (.num 6570 0)) (.rd (.var .T))))),
  .set (.var .A) (.sub (.sub (.log10 (.fmax (.rd (.var .Pr)) (.num 1 300))) (.mul (.num 67 2) (.log10 (.fmax (.rd (.var .Fcent)) (.num 1 300))))) (.num 4 1)),
  .set (.var .B) (.sub (.sub (.num 806 3) (.mul (.num 11762 4) (.log10 (.fmax (.rd (.var .Fcent)) (.num 1 300))))) (.mul (.num 14 2) (.log10 (.fmax (.rd (.var .Pr)) (.num 1 300))))),
  .set (.var .lnFAB) (.div (.mul (.mul (.num 2 0) (.log (.fmax (.rd (.var .Fcent)) (.num 1 300)))) (.rd (.var .A))) (.mul (.mul (.mul (.mul (.rd (.var .B)) (.rd (.var .B))) (.rd (.var .B))) (.add (.num 1 0) (.div (.mul (.rd (.var .A)) (.rd (.var .A))) (.mul (.rd (.var .B)) (.rd (.var .B)))))) (.add (.num 1 0) (.div (.mul (.rd (.var .A)) (.rd (.var .A))) (.mul (.rd (.var .B)) (.rd (.var .B))))))),
  .set (.var .jTemp) (.mul (.add (.mul (.mul (.rd (.arr .presMod 9)) (.sub (.add (.div (.sub (.add (.neg (.num 305 2)) (.div (.num 84792496678768907 14) (.rd (.var .T)))) (.num 1 0)) (.mul (.rd (.var .T)) (.add (.num 1 0) (.rd (.var .Pr))))) (.mul (.sub (.div (.num 1 0) (.mul (.rd (.var .Fcent)) (.add (.num 1 0) (.div (.mul (.rd (.var .A)) (.rd (.var .A))) (.mul (.rd (.var .B)) (.rd (.var .B))))))) (.div (.mul (.rd (.var .lnFAB)) (.add (.mul (.neg (.num 2909773028751787 16)) (.rd (.var .B))) (.mul (.num 51081716961460466 17) (.rd (.var .A))))) (.rd (.var .Fcent)))) (.add (.sub (.mul (.neg (.num 80295202952029529 20)) (.exp (.div (.rd (.var .T)) (.neg (.num 271 0))))) (.mul (.num 28399274047186931 20) (.exp (.div (.rd (.var .T)) (.neg (.num 2755 0)))))) (.mul (.div (.num 6570 0) (.mul (.rd (.var .T)) (.rd (.var .T)))) (.exp (.div (.neg (.num 6570 0)) (.rd (.var .T)))))))) (.div (.mul (.mul (.rd (.var .lnFAB)) (.add (.mul (.num 43429448190325176 17) (.rd (.var .B))) (.mul (.num 60801227466455256 18) (.rd (.var .A))))) (.sub (.add (.neg (.num 30499999999999998 16)) (.div (.num 84792496678768907 14) (.rd (.var .T)))) (.num 1 0))) (.rd (.var .T))))) (.sub (.rd (.arr .fwd 38)) (.rd (.arr .rev 38)))) (.mul (.div (.rd (.arr .presMod 9)) (.rd (.var .T))) (.sub (.add (.mul (.sub (.rd (.arr .fwd 38)) (.rd (.arr .rev 38))) (.add (.num 47999999999999998 17) (.div (.neg (.num 1308370868633823 13)) (.rd (.var .T))))) (.mul (.rd (.arr .fwd 38)) (.neg (.num 1 0)))) (.mul (.rd (.arr .rev 38)) (.mul (.neg (.rd (.var .T))) (.sub (.sub (.rd (.arr .dBdT 14)) (.rd (.arr .dBdT 1))) (.rd (.arr .dBdT 13)))))))) (.rd (.var .rhoInv))),
  .set (.arr .jac 2) (.add (.rd (.arr .jac 2)) (.mul (.neg (.rd (.var .jTemp))) (.num 10079400000000001 16))),
  .set (.arr .jac 14) (.add (.rd (.arr .jac 14)) (.mul (.neg (.rd (.var .jTemp))) (.num 29018339999999998 15))),
  .set (.arr .jac 15) (.add (.rd (.arr .jac 15)) (.mul (.rd (.var .jTemp)) (.num 3002628 5)))]

/-- utilities/mechanisms/yao/lib/src/jacobs/jacob_0.c:7771-7781 -/
def jacobT39 : List CStmt := [
  .set (.var .Pr) (.mul (.rd (.var .concTemp)) (.exp (.sub (.sub (.num 1866754082188389 14) (.mul (.num 234 2) (.rd (.var .logT)))) (.div (.num 61896006477677008 14) (.rd (.var .T)))))),
  .set (.var .Fcent) (.add (.add (.mul (.num 31999999999999995 17) (.exp (.div (.rd (.var .T)) (.neg (.num 78 0))))) (.mul (.num 68000000000000005 17) (.exp (.div (.rd (.var .T)) (.neg (.num 1995 0)))))) (.exp (.div (.neg (.num 5590 0)) (.rd (.var .T))))),
  .set (.var .A) (.sub (.sub (.log10 (.fmax (.rd (.var .Pr)) (.num 1 300))) (.mul (.num 67 2) (.log10 (.fmax (.rd (.var .Fcent)) (.num 1 300))))) (.num 4 1)),
  .set (.var .B) (.sub (.sub (.num 806 3) (.mul (.num 11762 4) (.log10 (.fmax (.rd (.var .Fcent)) (.num 1 300))))) (.mul (.num 14 2) (.log10 (.fmax (.rd (.var .Pr)) (.num 1 300))))),
  .set (.var .lnFAB) (.div (.mul (.mul (.num 2 0) (.log (.fmax (.rd (.var .Fcent)) (.num 1 300)))) (.rd (.var .A))) (.mul (.mul (.mul (.mul (.rd (.var .B)) (.rd (.var .B))) (.rd (.var .B))) (.add (.num 1 0) (.div (.mul (.rd (.var .A)) (.rd (.var .A))) (.mul (.rd (.var .B)) (.rd (.var .B)))))) (.add (.num 1 0) (.div (.mul (.rd (.var .A)) (.rd (.var .A))) (.mul (.rd (.var .B)) (.rd (.var .B))))))),
  .set (.var .jTemp) (.mul (.add (.mul (.mul (.rd (.arr .presMod 10)) (.sub (.add (.div (.sub (.add (.neg (.num 234 2)) (.div (.num 61896006477677008 14) (.rd (.var .T)))) (.num 1 0)) (.mul (.rd (.var .T)) (.add (.num 1 0) (.rd (.var .Pr))))) (.mul (.sub (.div (.num 1 0) (.mul (.rd (.var .Fcent)) (.add (.num 1 0) (.div (.mul (.rd (.var .A)) (.rd (.var .A))) (.mul (.rd (.var .B)) (.rd (.var .B))))))) (.div (.mul (.rd (.var .lnFAB)) (.add (.mul (.neg (.num 2909773028751787 16)) (.rd (.var .B))) (.mul (.num 51081716961460466 17) (.rd (.var .A))))) (.rd (.var .Fcent)))) (.add (.sub (.mul (.neg (.num 41025641025641017 19)) (.exp (.div (.rd (.var .T)) (.neg (.num 78 0))))) (.mul (.num 34085213032581453 20) (.exp (.div (.rd (.var .T)) (.neg (.num 1995 0)))))) (.mul (.div (.num 5590 0) (.mul (.rd (.var .T)) (.rd (.var .T)))) (.exp (.div (.neg (.num 5590 0)) (.rd (.var .T)))))))) (.div (.mul (.mul (.rd (.var .lnFAB)) (.add (.mul (.num 43429448190325176 17) (.rd (.var .B))) (.mul (.num 60801227466455256 18) (.rd (.var .A))))) (.sub (.add (.neg (.num 23399999999999999 16)) (.div (.num 61896006477677008 14) (.rd (.var .T)))) (.num 1 0))) (.rd (.var .T))))) (.sub (.rd (.arr .fwd 39)) (.rd (.arr .rev 39)))) (.mul (.div (.rd (.arr .presMod 10)) (.rd (.var .T))) (.sub (.add (.mul (.sub (.rd (.arr .fwd 39)) (.rd (.arr .rev 39))) (.neg (.num 80000000000000004 17))) (.mul (.rd (.arr .fwd 39)) (.neg (.num 1 0)))) (.mul (.rd (.arr .rev 39)) (.mul (.neg (.rd (.var .T))) (.sub (.sub (.rd (.arr .dBdT 11)) (.rd (.arr .dBdT 1))) (.rd (.arr .dBdT 9)))))))) (.rd (.var .rhoInv))),
  .set (.arr .jac 2) (.add (.rd (.arr .jac 2)) (.mul (.neg (.rd (.var .jTemp))) (.num 10079400000000001 16))),
  .set (.arr .jac 12) (.mul (.rd (.var .jTemp)) (.num 1503482 5)),
  .set (.arr .jac 10) (.mul (.neg (.rd (.var .jTemp))) (.num 14026879999999998 15))]

/-- The derivatives with respect to the temperature in `eval_jacob_0`, one block per reaction, utilities/mechanisms/yao/lib/src/jacobs/jacob_0.c:5-7954. -/
def jacob0Blocks : List (List CStmt × List CStmt) := [
  (jacobT0, []), (jacobT1, []), (jacobT2, []), (jacobT3, []), (jacobT4, []), (jacobT5, []), (jacobT6, []), (jacobT7, []), (jacobT8, []), (jacobT9, []), (jacobT10, []), (jacobT11, []), (jacobT12, []), (jacobT13, []), (jacobT14, []), (jacobT15, []), (jacobT16, []), (jacobT17, []), (jacobT18, []), (jacobT19, []), (jacobT20, []), (jacobT21, []), (jacobT22, []), (jacobT23, []), (jacobT24, []), (jacobT25, []), (jacobT26, []), (jacobT27, []), (jacobT28, []), (jacobT29, []), (jacobT30, []), (jacobT31, []), (jacobT32, []), (jacobT33, []), (jacobT34, []), (jacobT35, []), (jacobT36, []), (jacobT37, []), (jacobT38, []), (jacobT39, [])]

end DLB.Mech.Yao
