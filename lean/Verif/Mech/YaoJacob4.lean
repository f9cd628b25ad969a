/- Generated by tools/gen_mechanisms.py from utilities/mechanisms/yao/lib/src/jacobs/jacob_4.c. Do not edit. -/
import Verif.Model.CLang
set_option autoImplicit false
set_option maxRecDepth 1000000

namespace DLB.Mech.Yao
open DLB

/-- utilities/mechanisms/yao/lib/src/jacobs/jacob_4.c:5-17 -/
def jacob4Start : List CStmt := [
  .set (.var .logT) (.log (.rd (.var .T))),
  .set (.var .kf) (.num 0 0),
  .set (.var .jTemp) (.num 0 0),
  .set (.var .presModTemp) (.num 0 0),
  .set (.var .Kc) (.num 0 0),
  .set (.var .kr) (.num 0 0),
  .set (.var .Pr) (.num 0 0),
  .set (.var .Fcent) (.num 0 0),
  .set (.var .A) (.num 0 0),
  .set (.var .B) (.num 0 0),
  .set (.var .lnFAB) (.num 0 0),
  .set (.var .rhoInv) (.div (.num 1 0) (.rd (.var .rho)))]

/-- utilities/mechanisms/yao/lib/src/jacobs/jacob_4.c:18-25 -/
def jacobT160 : List CStmt := [
  .set (.var .jTemp) (.mul (.mul (.div (.num 1 0) (.rd (.var .T))) (.sub (.add (.mul (.sub (.rd (.arr .fwd 160)) (.rd (.arr .rev 160))) (.div (.num 17813972596014357 13) (.rd (.var .T)))) (.mul (.rd (.arr .fwd 160)) (.neg (.num 1 0)))) (.mul (.rd (.arr .rev 160)) (.add (.neg (.num 2 0)) (.mul (.neg (.rd (.var .T))) (.sub (.sub (.add (.add (.rd (.arr .dBdT 19)) (.rd (.arr .dBdT 16))) (.rd (.arr .dBdT 3))) (.rd (.arr .dBdT 27))) (.rd (.arr .dBdT 2)))))))) (.rd (.var .rhoInv))),
  .set (.arr .jac 20) (.add (.rd (.arr .jac 20)) (.mul (.rd (.var .jTemp)) (.num 27045819999999999 15))),
  .set (.arr .jac 17) (.add (.rd (.arr .jac 17)) (.mul (.rd (.var .jTemp)) (.num 28010399999999997 15))),
  .set (.arr .jac 3) (.add (.rd (.arr .jac 3)) (.mul (.neg (.rd (.var .jTemp))) (.num 159994 4))),
  .set (.arr .jac 28) (.add (.rd (.arr .jac 28)) (.mul (.neg (.rd (.var .jTemp))) (.num 56064160000000001 15))),
  .set (.arr .jac 4) (.add (.rd (.arr .jac 4)) (.mul (.rd (.var .jTemp)) (.num 17007339999999999 15)))]

/-- utilities/mechanisms/yao/lib/src/jacobs/jacob_4.c:303-310 -/
def jacobT161 : List CStmt := [
  .set (.var .jTemp) (.mul (.mul (.div (.num 1 0) (.rd (.var .T))) (.sub (.add (.mul (.sub (.rd (.arr .fwd 161)) (.rd (.arr .rev 161))) (.add (.num 11799999999999999 16) (.div (.neg (.num 2249391454920457 13)) (.rd (.var .T))))) (.mul (.rd (.arr .fwd 161)) (.neg (.num 1 0)))) (.mul (.rd (.arr .rev 161)) (.add (.neg (.num 2 0)) (.mul (.neg (.rd (.var .T))) (.sub (.sub (.add (.add (.rd (.arr .dBdT 19)) (.rd (.arr .dBdT 6))) (.rd (.arr .dBdT 16))) (.rd (.arr .dBdT 27))) (.rd (.arr .dBdT 3)))))))) (.rd (.var .rhoInv))),
  .set (.arr .jac 4) (.add (.rd (.arr .jac 4)) (.mul (.neg (.rd (.var .jTemp))) (.num 17007339999999999 15))),
  .set (.arr .jac 20) (.add (.rd (.arr .jac 20)) (.mul (.rd (.var .jTemp)) (.num 27045819999999999 15))),
  .set (.arr .jac 28) (.add (.rd (.arr .jac 28)) (.mul (.neg (.rd (.var .jTemp))) (.num 56064160000000001 15))),
  .set (.arr .jac 7) (.add (.rd (.arr .jac 7)) (.mul (.rd (.var .jTemp)) (.num 18015280000000001 15))),
  .set (.arr .jac 17) (.add (.rd (.arr .jac 17)) (.mul (.rd (.var .jTemp)) (.num 28010399999999997 15)))]

/-- utilities/mechanisms/yao/lib/src/jacobs/jacob_4.c:588-594 -/
def jacobT162 : List CStmt := [
  .set (.var .jTemp) (.mul (.mul (.div (.num 1 0) (.rd (.var .T))) (.sub (.add (.mul (.sub (.rd (.arr .fwd 162)) (.rd (.arr .rev 162))) (.add (.neg (.num 29199999999999999 16)) (.div (.num 62927606585638287 13) (.rd (.var .T))))) (.mul (.rd (.arr .fwd 162)) (.neg (.num 1 0)))) (.mul (.rd (.arr .rev 162)) (.add (.neg (.num 1 0)) (.mul (.neg (.rd (.var .T))) (.sub (.sub (.add (.rd (.arr .dBdT 21)) (.rd (.arr .dBdT 11))) (.rd (.arr .dBdT 1))) (.rd (.arr .dBdT 26)))))))) (.rd (.var .rhoInv))),
  .set (.arr .jac 2) (.add (.rd (.arr .jac 2)) (.mul (.neg (.rd (.var .jTemp))) (.num 10079400000000001 16))),
  .set (.arr .jac 27) (.add (.rd (.arr .jac 27)) (.mul (.neg (.rd (.var .jTemp))) (.num 4308858 5))),
  .set (.arr .jac 12) (.add (.rd (.arr .jac 12)) (.mul (.rd (.var .jTemp)) (.num 1503482 5))),
  .set (.arr .jac 22) (.add (.rd (.arr .jac 22)) (.mul (.rd (.var .jTemp)) (.num 29061699999999998 15)))]

/-- utilities/mechanisms/yao/lib/src/jacobs/jacob_4.c:819-825 -/
def jacobT163 : List CStmt := [
  .set (.var .jTemp) (.mul (.mul (.div (.num 1 0) (.rd (.var .T))) (.sub (.mul (.rd (.arr .fwd 163)) (.neg (.num 1 0))) (.mul (.rd (.arr .rev 163)) (.add (.neg (.num 1 0)) (.mul (.neg (.rd (.var .T))) (.sub (.sub (.add (.rd (.arr .dBdT 25)) (.rd (.arr .dBdT 5))) (.rd (.arr .dBdT 1))) (.rd (.arr .dBdT 26)))))))) (.rd (.var .rhoInv))),
  .set (.arr .jac 2) (.add (.rd (.arr .jac 2)) (.mul (.neg (.rd (.var .jTemp))) (.num 10079400000000001 16))),
  .set (.arr .jac 27) (.add (.rd (.arr .jac 27)) (.mul (.neg (.rd (.var .jTemp))) (.num 4308858 5))),
  .set (.arr .jac 6) (.add (.rd (.arr .jac 6)) (.mul (.rd (.var .jTemp)) (.num 20158800000000001 16))),
  .set (.arr .jac 26) (.add (.rd (.arr .jac 26)) (.mul (.rd (.var .jTemp)) (.num 42080640000000002 15)))]

/-- utilities/mechanisms/yao/lib/src/jacobs/jacob_4.c:1050-1056 -/
def jacobT164 : List CStmt := [
  .set (.var .jTemp) (.mul (.mul (.div (.num 1 0) (.rd (.var .T))) (.sub (.mul (.rd (.arr .fwd 164)) (.neg (.num 1 0))) (.mul (.rd (.arr .rev 164)) (.add (.neg (.num 1 0)) (.mul (.neg (.rd (.var .T))) (.sub (.sub (.add (.rd (.arr .dBdT 14)) (.rd (.arr .dBdT 21))) (.rd (.arr .dBdT 26))) (.rd (.arr .dBdT 2)))))))) (.rd (.var .rhoInv))),
  .set (.arr .jac 27) (.add (.rd (.arr .jac 27)) (.mul (.neg (.rd (.var .jTemp))) (.num 4308858 5))),
  .set (.arr .jac 3) (.add (.rd (.arr .jac 3)) (.mul (.neg (.rd (.var .jTemp))) (.num 159994 4))),
  .set (.arr .jac 15) (.add (.rd (.arr .jac 15)) (.mul (.rd (.var .jTemp)) (.num 3002628 5))),
  .set (.arr .jac 22) (.add (.rd (.arr .jac 22)) (.mul (.rd (.var .jTemp)) (.num 29061699999999998 15)))]

/-- utilities/mechanisms/yao/lib/src/jacobs/jacob_4.c:1281-1287 -/
def jacobT165 : List CStmt := [
  .set (.var .jTemp) (.mul (.mul (.div (.num 1 0) (.rd (.var .T))) (.sub (.mul (.rd (.arr .fwd 165)) (.neg (.num 1 0))) (.mul (.rd (.arr .rev 165)) (.add (.neg (.num 1 0)) (.mul (.neg (.rd (.var .T))) (.sub (.sub (.add (.rd (.arr .dBdT 25)) (.rd (.arr .dBdT 6))) (.rd (.arr .dBdT 26))) (.rd (.arr .dBdT 3)))))))) (.rd (.var .rhoInv))),
  .set (.arr .jac 26) (.add (.rd (.arr .jac 26)) (.mul (.rd (.var .jTemp)) (.num 42080640000000002 15))),
  .set (.arr .jac 27) (.add (.rd (.arr .jac 27)) (.mul (.neg (.rd (.var .jTemp))) (.num 4308858 5))),
  .set (.arr .jac 4) (.add (.rd (.arr .jac 4)) (.mul (.neg (.rd (.var .jTemp))) (.num 17007339999999999 15))),
  .set (.arr .jac 7) (.add (.rd (.arr .jac 7)) (.mul (.rd (.var .jTemp)) (.num 18015280000000001 15)))]

/-- utilities/mechanisms/yao/lib/src/jacobs/jacob_4.c:1512-1518 -/
def jacobT166 : List CStmt := [
  .set (.var .jTemp) (.mul (.mul (.div (.num 1 0) (.rd (.var .T))) (.sub (.mul (.rd (.arr .fwd 166)) (.neg (.num 1 0))) (.mul (.rd (.arr .rev 166)) (.add (.neg (.num 1 0)) (.mul (.neg (.rd (.var .T))) (.sub (.sub (.add (.rd (.arr .dBdT 25)) (.rd (.arr .dBdT 4))) (.rd (.arr .dBdT 26))) (.rd (.arr .dBdT 8)))))))) (.rd (.var .rhoInv))),
  .set (.arr .jac 9) (.add (.rd (.arr .jac 9)) (.mul (.neg (.rd (.var .jTemp))) (.num 31998799999999999 15))),
  .set (.arr .jac 26) (.add (.rd (.arr .jac 26)) (.mul (.rd (.var .jTemp)) (.num 42080640000000002 15))),
  .set (.arr .jac 27) (.add (.rd (.arr .jac 27)) (.mul (.neg (.rd (.var .jTemp))) (.num 4308858 5))),
  .set (.arr .jac 5) (.add (.rd (.arr .jac 5)) (.mul (.rd (.var .jTemp)) (.num 33006740000000001 15)))]

/-- utilities/mechanisms/yao/lib/src/jacobs/jacob_4.c:1743-1750 -/
def jacobT167 : List CStmt := [
  .set (.var .jTemp) (.mul (.mul (.div (.num 1 0) (.rd (.var .T))) (.sub (.mul (.rd (.arr .fwd 167)) (.neg (.num 1 0))) (.mul (.rd (.arr .rev 167)) (.add (.neg (.num 2 0)) (.mul (.neg (.rd (.var .T))) (.sub (.sub (.add (.add (.rd (.arr .dBdT 14)) (.rd (.arr .dBdT 21))) (.rd (.arr .dBdT 3))) (.rd (.arr .dBdT 26))) (.rd (.arr .dBdT 4)))))))) (.rd (.var .rhoInv))),
  .set (.arr .jac 27) (.add (.rd (.arr .jac 27)) (.mul (.neg (.rd (.var .jTemp))) (.num 4308858 5))),
  .set (.arr .jac 4) (.add (.rd (.arr .jac 4)) (.mul (.rd (.var .jTemp)) (.num 17007339999999999 15))),
  .set (.arr .jac 5) (.add (.rd (.arr .jac 5)) (.mul (.neg (.rd (.var .jTemp))) (.num 33006740000000001 15))),
  .set (.arr .jac 22) (.add (.rd (.arr .jac 22)) (.mul (.rd (.var .jTemp)) (.num 29061699999999998 15))),
  .set (.arr .jac 15) (.add (.rd (.arr .jac 15)) (.mul (.rd (.var .jTemp)) (.num 3002628 5)))]

/-- utilities/mechanisms/yao/lib/src/jacobs/jacob_4.c:2028-2034 -/
def jacobT168 : List CStmt := [
  .set (.var .jTemp) (.mul (.mul (.div (.num 1 0) (.rd (.var .T))) (.sub (.mul (.rd (.arr .fwd 168)) (.neg (.num 1 0))) (.mul (.rd (.arr .rev 168)) (.add (.neg (.num 1 0)) (.mul (.neg (.rd (.var .T))) (.sub (.sub (.add (.rd (.arr .dBdT 25)) (.rd (.arr .dBdT 12))) (.rd (.arr .dBdT 26))) (.rd (.arr .dBdT 11)))))))) (.rd (.var .rhoInv))),
  .set (.arr .jac 26) (.add (.rd (.arr .jac 26)) (.mul (.rd (.var .jTemp)) (.num 42080640000000002 15))),
  .set (.arr .jac 27) (.add (.rd (.arr .jac 27)) (.mul (.neg (.rd (.var .jTemp))) (.num 4308858 5))),
  .set (.arr .jac 12) (.add (.rd (.arr .jac 12)) (.mul (.neg (.rd (.var .jTemp))) (.num 1503482 5))),
  .set (.arr .jac 13) (.add (.rd (.arr .jac 13)) (.mul (.rd (.var .jTemp)) (.num 16042760000000001 15)))]

/-- utilities/mechanisms/yao/lib/src/jacobs/jacob_4.c:2259-2270 -/
def jacobT169 : List CStmt := [
  .set (.var .concTemp) (.add (.add (.add (.add (.add (.add (.sub (.rd (.var .m)) (.mul (.num 3 1) (.rd (.arr .C 0)))) (.mul (.num 1 0) (.rd (.arr .C 5)))) (.mul (.num 5 0) (.rd (.arr .C 6)))) (.mul (.num 1 0) (.rd (.arr .C 12)))) (.mul (.num 5 1) (.rd (.arr .C 16)))) (.mul (.num 1 0) (.rd (.arr .C 17)))) (.mul (.num 2 0) (.rd (.arr .C 22)))),
  .set (.var .Pr) (.mul (.rd (.var .concTemp)) (.exp (.sub (.sub (.num 73503729209108187 15) (.mul (.num 932 2) (.rd (.var .logT)))) (.div (.num 29355816535624112 13) (.rd (.var .T)))))),
  .set (.var .Fcent) (.add (.add (.mul (.num 502 3) (.exp (.div (.rd (.var .T)) (.neg (.num 1314 0))))) (.mul (.num 498 3) (.exp (.div (.rd (.var .T)) (.neg (.num 1314 0)))))) (.exp (.div (.neg (.num 50000 0)) (.rd (.var .T))))),
  .set (.var .A) (.sub (.sub (.log10 (.fmax (.rd (.var .Pr)) (.num 1 300))) (.mul (.num 67 2) (.log10 (.fmax (.rd (.var .Fcent)) (.num 1 300))))) (.num 4 1)),
  .set (.var .B) (.sub (.sub (.num 806 3) (.mul (.num 11762 4) (.log10 (.fmax (.rd (.var .Fcent)) (.num 1 300))))) (.mul (.num 14 2) (.log10 (.fmax (.rd (.var .Pr)) (.num 1 300))))),
  .set (.var .lnFAB) (.div (.mul (.mul (.num 2 0) (.log (.fmax (.rd (.var .Fcent)) (.num 1 300)))) (.rd (.var .A))) (.mul (.mul (.mul (.mul (.rd (.var .B)) (.rd (.var .B))) (.rd (.var .B))) (.add (.num 1 0) (.div (.mul (.rd (.var .A)) (.rd (.var .A))) (.mul (.rd (.var .B)) (.rd (.var .B)))))) (.add (.num 1 0) (.div (.mul (.rd (.var .A)) (.rd (.var .A))) (.mul (.rd (.var .B)) (.rd (.var .B))))))),
  .set (.var .jTemp) (.mul (.add (.mul (.mul (.rd (.arr .presMod 23)) (.sub (.add (.div (.sub (.add (.neg (.num 932 2)) (.div (.num 29355816535624112 13) (.rd (.var .T)))) (.num 1 0)) (.mul (.rd (.var .T)) (.add (.num 1 0) (.rd (.var .Pr))))) (.mul (.sub (.div (.num 1 0) (.mul (.rd (.var .Fcent)) (.add (.num 1 0) (.div (.mul (.rd (.var .A)) (.rd (.var .A))) (.mul (.rd (.var .B)) (.rd (.var .B))))))) (.div (.mul (.rd (.var .lnFAB)) (.add (.mul (.neg (.num 2909773028751787 16)) (.rd (.var .B))) (.mul (.num 51081716961460466 17) (.rd (.var .A))))) (.rd (.var .Fcent)))) (.add (.sub (.mul (.neg (.num 38203957382039575 20)) (.exp (.div (.rd (.var .T)) (.neg (.num 1314 0))))) (.mul (.num 37899543378995434 20) (.exp (.div (.rd (.var .T)) (.neg (.num 1314 0)))))) (.mul (.div (.num 50000 0) (.mul (.rd (.var .T)) (.rd (.var .T)))) (.exp (.div (.neg (.num 50000 0)) (.rd (.var .T)))))))) (.div (.mul (.mul (.rd (.var .lnFAB)) (.add (.mul (.num 43429448190325176 17) (.rd (.var .B))) (.mul (.num 60801227466455256 18) (.rd (.var .A))))) (.sub (.add (.neg (.num 93200000000000003 16)) (.div (.num 29355816535624112 13) (.rd (.var .T)))) (.num 1 0))) (.rd (.var .T))))) (.sub (.rd (.arr .fwd 169)) (.rd (.arr .rev 169)))) (.mul (.div (.rd (.arr .presMod 23)) (.rd (.var .T))) (.sub (.mul (.rd (.arr .fwd 169)) (.neg (.num 1 0))) (.mul (.rd (.arr .rev 169)) (.mul (.neg (.rd (.var .T))) (.sub (.sub (.rd (.arr .dBdT 29)) (.rd (.arr .dBdT 1))) (.rd (.arr .dBdT 28)))))))) (.rd (.var .rhoInv))),
  .set (.arr .jac 2) (.add (.rd (.arr .jac 2)) (.mul (.neg (.rd (.var .jTemp))) (.num 10079400000000001 16))),
  .set (.arr .jac 29) (.add (.rd (.arr .jac 29)) (.mul (.neg (.rd (.var .jTemp))) (.num 55099579999999996 15))),
  .set (.arr .jac 30) (.add (.rd (.arr .jac 30)) (.mul (.rd (.var .jTemp)) (.num 56107519999999994 15)))]

/-- utilities/mechanisms/yao/lib/src/jacobs/jacob_4.c:2444-2450 -/
def jacobT170 : List CStmt := [
  .set (.var .jTemp) (.mul (.mul (.div (.num 1 0) (.rd (.var .T))) (.sub (.add (.mul (.sub (.rd (.arr .fwd 170)) (.rd (.arr .rev 170))) (.add (.neg (.num 2 0)) (.div (.num 55354152134507885 13) (.rd (.var .T))))) (.mul (.rd (.arr .fwd 170)) (.neg (.num 1 0)))) (.mul (.rd (.arr .rev 170)) (.add (.neg (.num 1 0)) (.mul (.neg (.rd (.var .T))) (.sub (.sub (.add (.rd (.arr .dBdT 11)) (.rd (.arr .dBdT 24))) (.rd (.arr .dBdT 1))) (.rd (.arr .dBdT 28)))))))) (.rd (.var .rhoInv))),
  .set (.arr .jac 25) (.add (.rd (.arr .jac 25)) (.mul (.rd (.var .jTemp)) (.num 41072699999999998 15))),
  .set (.arr .jac 2) (.add (.rd (.arr .jac 2)) (.mul (.neg (.rd (.var .jTemp))) (.num 10079400000000001 16))),
  .set (.arr .jac 12) (.add (.rd (.arr .jac 12)) (.mul (.rd (.var .jTemp)) (.num 1503482 5))),
  .set (.arr .jac 29) (.add (.rd (.arr .jac 29)) (.mul (.neg (.rd (.var .jTemp))) (.num 55099579999999996 15)))]

/-- utilities/mechanisms/yao/lib/src/jacobs/jacob_4.c:2675-2682 -/
def jacobT171 : List CStmt := [
  .set (.var .jTemp) (.mul (.mul (.div (.num 1 0) (.rd (.var .T))) (.sub (.mul (.rd (.arr .fwd 171)) (.neg (.num 1 0))) (.mul (.rd (.arr .rev 171)) (.add (.neg (.num 2 0)) (.mul (.neg (.rd (.var .T))) (.sub (.sub (.add (.add (.rd (.arr .dBdT 14)) (.rd (.arr .dBdT 24))) (.rd (.arr .dBdT 3))) (.rd (.arr .dBdT 4))) (.rd (.arr .dBdT 28)))))))) (.rd (.var .rhoInv))),
  .set (.arr .jac 25) (.add (.rd (.arr .jac 25)) (.mul (.rd (.var .jTemp)) (.num 41072699999999998 15))),
  .set (.arr .jac 29) (.add (.rd (.arr .jac 29)) (.mul (.neg (.rd (.var .jTemp))) (.num 55099579999999996 15))),
  .set (.arr .jac 4) (.add (.rd (.arr .jac 4)) (.mul (.rd (.var .jTemp)) (.num 17007339999999999 15))),
  .set (.arr .jac 5) (.add (.rd (.arr .jac 5)) (.mul (.neg (.rd (.var .jTemp))) (.num 33006740000000001 15))),
  .set (.arr .jac 15) (.add (.rd (.arr .jac 15)) (.mul (.rd (.var .jTemp)) (.num 3002628 5)))]

/-- utilities/mechanisms/yao/lib/src/jacobs/jacob_4.c:2960-2966 -/
def jacobT172 : List CStmt := [
  .set (.var .jTemp) (.mul (.mul (.div (.num 1 0) (.rd (.var .T))) (.sub (.mul (.rd (.arr .fwd 172)) (.neg (.num 1 0))) (.mul (.rd (.arr .rev 172)) (.add (.neg (.num 1 0)) (.mul (.neg (.rd (.var .T))) (.sub (.sub (.add (.rd (.arr .dBdT 29)) (.rd (.arr .dBdT 16))) (.rd (.arr .dBdT 13))) (.rd (.arr .dBdT 28)))))))) (.rd (.var .rhoInv))),
  .set (.arr .jac 17) (.add (.rd (.arr .jac 17)) (.mul (.rd (.var .jTemp)) (.num 28010399999999997 15))),
  .set (.arr .jac 29) (.add (.rd (.arr .jac 29)) (.mul (.neg (.rd (.var .jTemp))) (.num 55099579999999996 15))),
  .set (.arr .jac 14) (.add (.rd (.arr .jac 14)) (.mul (.neg (.rd (.var .jTemp))) (.num 29018339999999998 15))),
  .set (.arr .jac 30) (.add (.rd (.arr .jac 30)) (.mul (.rd (.var .jTemp)) (.num 56107519999999994 15)))]

/-- utilities/mechanisms/yao/lib/src/jacobs/jacob_4.c:3191-3201 -/
def jacobT173 : List CStmt := [
  .set (.var .Pr) (.mul (.rd (.var .concTemp)) (.exp (.sub (.sub (.num 52205873288747348 15) (.mul (.num 666 2) (.rd (.var .logT)))) (.div (.num 18816889188778669 13) (.rd (.var .T)))))),
  .set (.var .Fcent) (.add (.add (.mul (.num 0 0) (.exp (.div (.rd (.var .T)) (.neg (.num 1000 0))))) (.mul (.num 1 0) (.exp (.div (.rd (.var .T)) (.neg (.num 1310 0)))))) (.exp (.div (.neg (.num 48097 0)) (.rd (.var .T))))),
  .set (.var .A) (.sub (.sub (.log10 (.fmax (.rd (.var .Pr)) (.num 1 300))) (.mul (.num 67 2) (.log10 (.fmax (.rd (.var .Fcent)) (.num 1 300))))) (.num 4 1)),
  .set (.var .B) (.sub (.sub (.num 806 3) (.mul (.num 11762 4) (.log10 (.fmax (.rd (.var .Fcent)) (.num 1 300))))) (.mul (.num 14 2) (.log10 (.fmax (.rd (.var .Pr)) (.num 1 300))))),
  .set (.var .lnFAB) (.div (.mul (.mul (.num 2 0) (.log (.fmax (.rd (.var .Fcent)) (.num 1 300)))) (.rd (.var .A))) (.mul (.mul (.mul (.mul (.rd (.var .B)) (.rd (.var .B))) (.rd (.var .B))) (.add (.num 1 0) (.div (.mul (.rd (.var .A)) (.rd (.var .A))) (.mul (.rd (.var .B)) (.rd (.var .B)))))) (.add (.num 1 0) (.div (.mul (.rd (.var .A)) (.rd (.var .A))) (.mul (.rd (.var .B)) (.rd (.var .B))))))),
  .set (.var .jTemp) (.mul (.add (.mul (.mul (.rd (.arr .presMod 24)) (.sub (.add (.div (.sub (.add (.neg (.num 666 2)) (.div (.num 18816889188778669 13) (.rd (.var .T)))) (.num 1 0)) (.mul (.rd (.var .T)) (.add (.num 1 0) (.rd (.var .Pr))))) (.mul (.sub (.div (.num 1 0) (.mul (.rd (.var .Fcent)) (.add (.num 1 0) (.div (.mul (.rd (.var .A)) (.rd (.var .A))) (.mul (.rd (.var .B)) (.rd (.var .B))))))) (.div (.mul (.rd (.var .lnFAB)) (.add (.mul (.neg (.num 2909773028751787 16)) (.rd (.var .B))) (.mul (.num 51081716961460466 17) (.rd (.var .A))))) (.rd (.var .Fcent)))) (.add (.sub (.mul (.neg (.num 0 0)) (.exp (.div (.rd (.var .T)) (.neg (.num 1000 0))))) (.mul (.num 76335877862595419 20) (.exp (.div (.rd (.var .T)) (.neg (.num 1310 0)))))) (.mul (.div (.num 48097 0) (.mul (.rd (.var .T)) (.rd (.var .T)))) (.exp (.div (.neg (.num 48097 0)) (.rd (.var .T)))))))) (.div (.mul (.mul (.rd (.var .lnFAB)) (.add (.mul (.num 43429448190325176 17) (.rd (.var .B))) (.mul (.num 60801227466455256 18) (.rd (.var .A))))) (.sub (.add (.neg (.num 66600000000000001 16)) (.div (.num 18816889188778669 13) (.rd (.var .T)))) (.num 1 0))) (.rd (.var .T))))) (.sub (.rd (.arr .fwd 173)) (.rd (.arr .rev 173)))) (.mul (.div (.rd (.arr .presMod 24)) (.rd (.var .T))) (.sub (.add (.mul (.sub (.rd (.arr .fwd 173)) (.rd (.arr .rev 173))) (.div (.num 16408480351362714 13) (.rd (.var .T)))) (.mul (.rd (.arr .fwd 173)) (.neg (.num 1 0)))) (.mul (.rd (.arr .rev 173)) (.mul (.neg (.rd (.var .T))) (.sub (.sub (.rd (.arr .dBdT 30)) (.rd (.arr .dBdT 1))) (.rd (.arr .dBdT 29)))))))) (.rd (.var .rhoInv))),
  .set (.arr .jac 2) (.add (.rd (.arr .jac 2)) (.mul (.neg (.rd (.var .jTemp))) (.num 10079400000000001 16))),
  .set (.arr .jac 30) (.add (.rd (.arr .jac 30)) (.mul (.neg (.rd (.var .jTemp))) (.num 56107519999999994 15))),
  .set (.arr .jac 31) (.mul (.rd (.var .jTemp)) (.num 57115459999999999 15))]

/-- utilities/mechanisms/yao/lib/src/jacobs/jacob_4.c:3375-3381 -/
def jacobT174 : List CStmt := [
  .set (.var .jTemp) (.mul (.mul (.div (.num 1 0) (.rd (.var .T))) (.sub (.add (.mul (.sub (.rd (.arr .fwd 174)) (.rd (.arr .rev 174))) (.add (.neg (.num 23900000000000001 16)) (.div (.num 56259947351254386 13) (.rd (.var .T))))) (.mul (.rd (.arr .fwd 174)) (.neg (.num 1 0)))) (.mul (.rd (.arr .rev 174)) (.add (.neg (.num 1 0)) (.mul (.neg (.rd (.var .T))) (.sub (.sub (.add (.rd (.arr .dBdT 21)) (.rd (.arr .dBdT 20))) (.rd (.arr .dBdT 1))) (.rd (.arr .dBdT 29)))))))) (.rd (.var .rhoInv))),
  .set (.arr .jac 2) (.add (.rd (.arr .jac 2)) (.mul (.neg (.rd (.var .jTemp))) (.num 10079400000000001 16))),
  .set (.arr .jac 21) (.add (.rd (.arr .jac 21)) (.mul (.rd (.var .jTemp)) (.num 28053759999999997 15))),
  .set (.arr .jac 30) (.add (.rd (.arr .jac 30)) (.mul (.neg (.rd (.var .jTemp))) (.num 56107519999999994 15))),
  .set (.arr .jac 22) (.add (.rd (.arr .jac 22)) (.mul (.rd (.var .jTemp)) (.num 29061699999999998 15)))]

/-- utilities/mechanisms/yao/lib/src/jacobs/jacob_4.c:3606-3612 -/
def jacobT175 : List CStmt := [
  .set (.var .jTemp) (.mul (.mul (.div (.num 1 0) (.rd (.var .T))) (.sub (.add (.mul (.sub (.rd (.arr .fwd 175)) (.rd (.arr .rev 175))) (.add (.neg (.num 23900000000000001 16)) (.div (.num 56259947351254386 13) (.rd (.var .T))))) (.mul (.rd (.arr .fwd 175)) (.neg (.num 1 0)))) (.mul (.rd (.arr .rev 175)) (.add (.neg (.num 1 0)) (.mul (.neg (.rd (.var .T))) (.sub (.sub (.add (.rd (.arr .dBdT 25)) (.rd (.arr .dBdT 11))) (.rd (.arr .dBdT 1))) (.rd (.arr .dBdT 29)))))))) (.rd (.var .rhoInv))),
  .set (.arr .jac 2) (.add (.rd (.arr .jac 2)) (.mul (.neg (.rd (.var .jTemp))) (.num 10079400000000001 16))),
  .set (.arr .jac 12) (.add (.rd (.arr .jac 12)) (.mul (.rd (.var .jTemp)) (.num 1503482 5))),
  .set (.arr .jac 30) (.add (.rd (.arr .jac 30)) (.mul (.neg (.rd (.var .jTemp))) (.num 56107519999999994 15))),
  .set (.arr .jac 26) (.add (.rd (.arr .jac 26)) (.mul (.rd (.var .jTemp)) (.num 42080640000000002 15)))]

/-- utilities/mechanisms/yao/lib/src/jacobs/jacob_4.c:3837-3843 -/
def jacobT176 : List CStmt := [
  .set (.var .jTemp) (.mul (.mul (.div (.num 1 0) (.rd (.var .T))) (.sub (.add (.mul (.sub (.rd (.arr .fwd 176)) (.rd (.arr .rev 176))) (.add (.num 254 2) (.div (.num 33997513801885029 13) (.rd (.var .T))))) (.mul (.rd (.arr .fwd 176)) (.neg (.num 1 0)))) (.mul (.rd (.arr .rev 176)) (.add (.neg (.num 1 0)) (.mul (.neg (.rd (.var .T))) (.sub (.sub (.add (.rd (.arr .dBdT 5)) (.rd (.arr .dBdT 28))) (.rd (.arr .dBdT 1))) (.rd (.arr .dBdT 29)))))))) (.rd (.var .rhoInv))),
  .set (.arr .jac 2) (.add (.rd (.arr .jac 2)) (.mul (.neg (.rd (.var .jTemp))) (.num 10079400000000001 16))),
  .set (.arr .jac 29) (.add (.rd (.arr .jac 29)) (.mul (.rd (.var .jTemp)) (.num 55099579999999996 15))),
  .set (.arr .jac 30) (.add (.rd (.arr .jac 30)) (.mul (.neg (.rd (.var .jTemp))) (.num 56107519999999994 15))),
  .set (.arr .jac 6) (.add (.rd (.arr .jac 6)) (.mul (.rd (.var .jTemp)) (.num 20158800000000001 16)))]

/-- utilities/mechanisms/yao/lib/src/jacobs/jacob_4.c:4068-4074 -/
def jacobT177 : List CStmt := [
  .set (.var .jTemp) (.mul (.mul (.div (.num 1 0) (.rd (.var .T))) (.sub (.add (.mul (.sub (.rd (.arr .fwd 177)) (.rd (.arr .rev 177))) (.add (.num 145 2) (.div (.neg (.num 20229426507338337 14)) (.rd (.var .T))))) (.mul (.rd (.arr .fwd 177)) (.neg (.num 1 0)))) (.mul (.rd (.arr .rev 177)) (.add (.neg (.num 1 0)) (.mul (.neg (.rd (.var .T))) (.sub (.sub (.add (.rd (.arr .dBdT 26)) (.rd (.arr .dBdT 13))) (.rd (.arr .dBdT 29))) (.rd (.arr .dBdT 2)))))))) (.rd (.var .rhoInv))),
  .set (.arr .jac 3) (.add (.rd (.arr .jac 3)) (.mul (.neg (.rd (.var .jTemp))) (.num 159994 4))),
  .set (.arr .jac 27) (.add (.rd (.arr .jac 27)) (.mul (.rd (.var .jTemp)) (.num 4308858 5))),
  .set (.arr .jac 30) (.add (.rd (.arr .jac 30)) (.mul (.neg (.rd (.var .jTemp))) (.num 56107519999999994 15))),
  .set (.arr .jac 14) (.add (.rd (.arr .jac 14)) (.mul (.rd (.var .jTemp)) (.num 29018339999999998 15)))]

/-- utilities/mechanisms/yao/lib/src/jacobs/jacob_4.c:4299-4305 -/
def jacobT178 : List CStmt := [
  .set (.var .jTemp) (.mul (.mul (.div (.num 1 0) (.rd (.var .T))) (.sub (.add (.mul (.sub (.rd (.arr .fwd 178)) (.rd (.arr .rev 178))) (.div (.num 28985446935887767 13) (.rd (.var .T)))) (.mul (.rd (.arr .fwd 178)) (.neg (.num 1 0)))) (.mul (.rd (.arr .rev 178)) (.add (.neg (.num 1 0)) (.mul (.neg (.rd (.var .T))) (.sub (.sub (.add (.rd (.arr .dBdT 28)) (.rd (.arr .dBdT 3))) (.rd (.arr .dBdT 29))) (.rd (.arr .dBdT 2)))))))) (.rd (.var .rhoInv))),
  .set (.arr .jac 3) (.add (.rd (.arr .jac 3)) (.mul (.neg (.rd (.var .jTemp))) (.num 159994 4))),
  .set (.arr .jac 4) (.add (.rd (.arr .jac 4)) (.mul (.rd (.var .jTemp)) (.num 17007339999999999 15))),
  .set (.arr .jac 29) (.add (.rd (.arr .jac 29)) (.mul (.rd (.var .jTemp)) (.num 55099579999999996 15))),
  .set (.arr .jac 30) (.add (.rd (.arr .jac 30)) (.mul (.neg (.rd (.var .jTemp))) (.num 56107519999999994 15)))]

/-- utilities/mechanisms/yao/lib/src/jacobs/jacob_4.c:4530-4536 -/
def jacobT179 : List CStmt := [
  .set (.var .jTemp) (.mul (.mul (.div (.num 1 0) (.rd (.var .T))) (.sub (.add (.mul (.sub (.rd (.arr .fwd 179)) (.rd (.arr .rev 179))) (.div (.num 22493914549204569 13) (.rd (.var .T)))) (.mul (.rd (.arr .fwd 179)) (.neg (.num 1 0)))) (.mul (.rd (.arr .rev 179)) (.add (.neg (.num 1 0)) (.mul (.neg (.rd (.var .T))) (.sub (.sub (.add (.rd (.arr .dBdT 28)) (.rd (.arr .dBdT 3))) (.rd (.arr .dBdT 29))) (.rd (.arr .dBdT 2)))))))) (.rd (.var .rhoInv))),
  .set (.arr .jac 3) (.add (.rd (.arr .jac 3)) (.mul (.neg (.rd (.var .jTemp))) (.num 159994 4))),
  .set (.arr .jac 4) (.add (.rd (.arr .jac 4)) (.mul (.rd (.var .jTemp)) (.num 17007339999999999 15))),
  .set (.arr .jac 29) (.add (.rd (.arr .jac 29)) (.mul (.rd (.var .jTemp)) (.num 55099579999999996 15))),
  .set (.arr .jac 30) (.add (.rd (.arr .jac 30)) (.mul (.neg (.rd (.var .jTemp))) (.num 56107519999999994 15)))]

/-- utilities/mechanisms/yao/lib/src/jacobs/jacob_4.c:4761-4767 -/
def jacobT180 : List CStmt := [
  .set (.var .jTemp) (.mul (.mul (.div (.num 1 0) (.rd (.var .T))) (.sub (.add (.mul (.sub (.rd (.arr .fwd 180)) (.rd (.arr .rev 180))) (.add (.num 26600000000000001 16) (.div (.num 26519671068077872 14) (.rd (.var .T))))) (.mul (.rd (.arr .fwd 180)) (.neg (.num 1 0)))) (.mul (.rd (.arr .rev 180)) (.add (.neg (.num 1 0)) (.mul (.neg (.rd (.var .T))) (.sub (.sub (.add (.rd (.arr .dBdT 6)) (.rd (.arr .dBdT 28))) (.rd (.arr .dBdT 29))) (.rd (.arr .dBdT 3)))))))) (.rd (.var .rhoInv))),
  .set (.arr .jac 4) (.add (.rd (.arr .jac 4)) (.mul (.neg (.rd (.var .jTemp))) (.num 17007339999999999 15))),
  .set (.arr .jac 29) (.add (.rd (.arr .jac 29)) (.mul (.rd (.var .jTemp)) (.num 55099579999999996 15))),
  .set (.arr .jac 30) (.add (.rd (.arr .jac 30)) (.mul (.neg (.rd (.var .jTemp))) (.num 56107519999999994 15))),
  .set (.arr .jac 7) (.add (.rd (.arr .jac 7)) (.mul (.rd (.var .jTemp)) (.num 18015280000000001 15)))]

/-- utilities/mechanisms/yao/lib/src/jacobs/jacob_4.c:4992-4998 -/
def jacobT181 : List CStmt := [
  .set (.var .jTemp) (.mul (.mul (.div (.num 1 0) (.rd (.var .T))) (.sub (.add (.mul (.sub (.rd (.arr .fwd 181)) (.rd (.arr .rev 181))) (.div (.num 25628972438277153 12) (.rd (.var .T)))) (.mul (.rd (.arr .fwd 181)) (.neg (.num 1 0)))) (.mul (.rd (.arr .rev 181)) (.add (.neg (.num 1 0)) (.mul (.neg (.rd (.var .T))) (.sub (.sub (.add (.rd (.arr .dBdT 4)) (.rd (.arr .dBdT 28))) (.rd (.arr .dBdT 29))) (.rd (.arr .dBdT 8)))))))) (.rd (.var .rhoInv))),
  .set (.arr .jac 9) (.add (.rd (.arr .jac 9)) (.mul (.neg (.rd (.var .jTemp))) (.num 31998799999999999 15))),
  .set (.arr .jac 29) (.add (.rd (.arr .jac 29)) (.mul (.rd (.var .jTemp)) (.num 55099579999999996 15))),
  .set (.arr .jac 5) (.add (.rd (.arr .jac 5)) (.mul (.rd (.var .jTemp)) (.num 33006740000000001 15))),
  .set (.arr .jac 30) (.add (.rd (.arr .jac 30)) (.mul (.neg (.rd (.var .jTemp))) (.num 56107519999999994 15)))]

/-- utilities/mechanisms/yao/lib/src/jacobs/jacob_4.c:5223-5229 -/
def jacobT182 : List CStmt := [
  .set (.var .jTemp) (.mul (.mul (.div (.num 1 0) (.rd (.var .T))) (.sub (.add (.mul (.sub (.rd (.arr .fwd 182)) (.rd (.arr .rev 182))) (.div (.num 72161685600803921 13) (.rd (.var .T)))) (.mul (.rd (.arr .fwd 182)) (.neg (.num 1 0)))) (.mul (.rd (.arr .rev 182)) (.add (.neg (.num 1 0)) (.mul (.neg (.rd (.var .T))) (.sub (.sub (.add (.rd (.arr .dBdT 7)) (.rd (.arr .dBdT 28))) (.rd (.arr .dBdT 29))) (.rd (.arr .dBdT 4)))))))) (.rd (.var .rhoInv))),
  .set (.arr .jac 29) (.add (.rd (.arr .jac 29)) (.mul (.rd (.var .jTemp)) (.num 55099579999999996 15))),
  .set (.arr .jac 5) (.add (.rd (.arr .jac 5)) (.mul (.neg (.rd (.var .jTemp))) (.num 33006740000000001 15))),
  .set (.arr .jac 30) (.add (.rd (.arr .jac 30)) (.mul (.neg (.rd (.var .jTemp))) (.num 56107519999999994 15))),
  .set (.arr .jac 8) (.add (.rd (.arr .jac 8)) (.mul (.rd (.var .jTemp)) (.num 34014679999999998 15)))]

/-- utilities/mechanisms/yao/lib/src/jacobs/jacob_4.c:5454-5460 -/
def jacobT183 : List CStmt := [
  .set (.var .jTemp) (.mul (.mul (.div (.num 1 0) (.rd (.var .T))) (.sub (.add (.mul (.sub (.rd (.arr .fwd 183)) (.rd (.arr .rev 183))) (.add (.num 36499999999999999 16) (.div (.num 35995295474375903 13) (.rd (.var .T))))) (.mul (.rd (.arr .fwd 183)) (.neg (.num 1 0)))) (.mul (.rd (.arr .rev 183)) (.add (.neg (.num 1 0)) (.mul (.neg (.rd (.var .T))) (.sub (.sub (.add (.rd (.arr .dBdT 12)) (.rd (.arr .dBdT 28))) (.rd (.arr .dBdT 11))) (.rd (.arr .dBdT 29)))))))) (.rd (.var .rhoInv))),
  .set (.arr .jac 29) (.add (.rd (.arr .jac 29)) (.mul (.rd (.var .jTemp)) (.num 55099579999999996 15))),
  .set (.arr .jac 12) (.add (.rd (.arr .jac 12)) (.mul (.neg (.rd (.var .jTemp))) (.num 1503482 5))),
  .set (.arr .jac 13) (.add (.rd (.arr .jac 13)) (.mul (.rd (.var .jTemp)) (.num 16042760000000001 15))),
  .set (.arr .jac 30) (.add (.rd (.arr .jac 30)) (.mul (.neg (.rd (.var .jTemp))) (.num 56107519999999994 15)))]

/-- utilities/mechanisms/yao/lib/src/jacobs/jacob_4.c:5685-5690 -/
def jacobT184 : List CStmt := [
  .set (.var .jTemp) (.mul (.mul (.div (.num 1 0) (.rd (.var .T))) (.sub (.add (.mul (.sub (.rd (.arr .fwd 184)) (.rd (.arr .rev 184))) (.add (.neg (.num 29199999999999999 16)) (.div (.num 62927606585638287 13) (.rd (.var .T))))) (.mul (.rd (.arr .fwd 184)) (.neg (.num 1 0)))) (.mul (.rd (.arr .rev 184)) (.add (.neg (.num 1 0)) (.mul (.neg (.rd (.var .T))) (.sub (.sub (.mul (.num 2 0) (.rd (.arr .dBdT 21))) (.rd (.arr .dBdT 1))) (.rd (.arr .dBdT 30)))))))) (.rd (.var .rhoInv))),
  .set (.arr .jac 2) (.add (.rd (.arr .jac 2)) (.mul (.neg (.rd (.var .jTemp))) (.num 10079400000000001 16))),
  .set (.arr .jac 22) (.add (.rd (.arr .jac 22)) (.mul (.mul (.rd (.var .jTemp)) (.num 2 0)) (.num 29061699999999998 15))),
  .set (.arr .jac 31) (.add (.rd (.arr .jac 31)) (.mul (.neg (.rd (.var .jTemp))) (.num 57115459999999999 15)))]

/-- utilities/mechanisms/yao/lib/src/jacobs/jacob_4.c:5862-5868 -/
def jacobT185 : List CStmt := [
  .set (.var .jTemp) (.mul (.mul (.div (.num 1 0) (.rd (.var .T))) (.sub (.mul (.rd (.arr .fwd 185)) (.neg (.num 1 0))) (.mul (.rd (.arr .rev 185)) (.add (.neg (.num 1 0)) (.mul (.neg (.rd (.var .T))) (.sub (.sub (.add (.rd (.arr .dBdT 5)) (.rd (.arr .dBdT 29))) (.rd (.arr .dBdT 1))) (.rd (.arr .dBdT 30)))))))) (.rd (.var .rhoInv))),
  .set (.arr .jac 2) (.add (.rd (.arr .jac 2)) (.mul (.neg (.rd (.var .jTemp))) (.num 10079400000000001 16))),
  .set (.arr .jac 6) (.add (.rd (.arr .jac 6)) (.mul (.rd (.var .jTemp)) (.num 20158800000000001 16))),
  .set (.arr .jac 31) (.add (.rd (.arr .jac 31)) (.mul (.neg (.rd (.var .jTemp))) (.num 57115459999999999 15))),
  .set (.arr .jac 30) (.add (.rd (.arr .jac 30)) (.mul (.rd (.var .jTemp)) (.num 56107519999999994 15)))]

/-- utilities/mechanisms/yao/lib/src/jacobs/jacob_4.c:6093-6099 -/
def jacobT186 : List CStmt := [
  .set (.var .jTemp) (.mul (.mul (.div (.num 1 0) (.rd (.var .T))) (.sub (.mul (.rd (.arr .fwd 186)) (.neg (.num 1 0))) (.mul (.rd (.arr .rev 186)) (.add (.neg (.num 1 0)) (.mul (.neg (.rd (.var .T))) (.sub (.sub (.add (.rd (.arr .dBdT 14)) (.rd (.arr .dBdT 26))) (.rd (.arr .dBdT 30))) (.rd (.arr .dBdT 2)))))))) (.rd (.var .rhoInv))),
  .set (.arr .jac 3) (.add (.rd (.arr .jac 3)) (.mul (.neg (.rd (.var .jTemp))) (.num 159994 4))),
  .set (.arr .jac 27) (.add (.rd (.arr .jac 27)) (.mul (.rd (.var .jTemp)) (.num 4308858 5))),
  .set (.arr .jac 15) (.add (.rd (.arr .jac 15)) (.mul (.rd (.var .jTemp)) (.num 3002628 5))),
  .set (.arr .jac 31) (.add (.rd (.arr .jac 31)) (.mul (.neg (.rd (.var .jTemp))) (.num 57115459999999999 15)))]

/-- utilities/mechanisms/yao/lib/src/jacobs/jacob_4.c:6324-6330 -/
def jacobT187 : List CStmt := [
  .set (.var .jTemp) (.mul (.mul (.div (.num 1 0) (.rd (.var .T))) (.sub (.mul (.rd (.arr .fwd 187)) (.neg (.num 1 0))) (.mul (.rd (.arr .rev 187)) (.add (.neg (.num 1 0)) (.mul (.neg (.rd (.var .T))) (.sub (.sub (.add (.rd (.arr .dBdT 6)) (.rd (.arr .dBdT 29))) (.rd (.arr .dBdT 30))) (.rd (.arr .dBdT 3)))))))) (.rd (.var .rhoInv))),
  .set (.arr .jac 4) (.add (.rd (.arr .jac 4)) (.mul (.neg (.rd (.var .jTemp))) (.num 17007339999999999 15))),
  .set (.arr .jac 7) (.add (.rd (.arr .jac 7)) (.mul (.rd (.var .jTemp)) (.num 18015280000000001 15))),
  .set (.arr .jac 31) (.add (.rd (.arr .jac 31)) (.mul (.neg (.rd (.var .jTemp))) (.num 57115459999999999 15))),
  .set (.arr .jac 30) (.add (.rd (.arr .jac 30)) (.mul (.rd (.var .jTemp)) (.num 56107519999999994 15)))]

/-- utilities/mechanisms/yao/lib/src/jacobs/jacob_4.c:6555-6561 -/
def jacobT188 : List CStmt := [
  .set (.var .jTemp) (.mul (.mul (.div (.num 1 0) (.rd (.var .T))) (.sub (.mul (.rd (.arr .fwd 188)) (.neg (.num 1 0))) (.mul (.rd (.arr .rev 188)) (.add (.neg (.num 1 0)) (.mul (.neg (.rd (.var .T))) (.sub (.sub (.add (.rd (.arr .dBdT 29)) (.rd (.arr .dBdT 4))) (.rd (.arr .dBdT 30))) (.rd (.arr .dBdT 8)))))))) (.rd (.var .rhoInv))),
  .set (.arr .jac 9) (.add (.rd (.arr .jac 9)) (.mul (.neg (.rd (.var .jTemp))) (.num 31998799999999999 15))),
  .set (.arr .jac 5) (.add (.rd (.arr .jac 5)) (.mul (.rd (.var .jTemp)) (.num 33006740000000001 15))),
  .set (.arr .jac 30) (.add (.rd (.arr .jac 30)) (.mul (.rd (.var .jTemp)) (.num 56107519999999994 15))),
  .set (.arr .jac 31) (.add (.rd (.arr .jac 31)) (.mul (.neg (.rd (.var .jTemp))) (.num 57115459999999999 15)))]

/-- utilities/mechanisms/yao/lib/src/jacobs/jacob_4.c:6786-6793 -/
def jacobT189 : List CStmt := [
  .set (.var .jTemp) (.mul (.mul (.div (.num 1 0) (.rd (.var .T))) (.sub (.mul (.rd (.arr .fwd 189)) (.neg (.num 1 0))) (.mul (.rd (.arr .rev 189)) (.add (.neg (.num 2 0)) (.mul (.neg (.rd (.var .T))) (.sub (.sub (.add (.add (.rd (.arr .dBdT 14)) (.rd (.arr .dBdT 26))) (.rd (.arr .dBdT 3))) (.rd (.arr .dBdT 30))) (.rd (.arr .dBdT 4)))))))) (.rd (.var .rhoInv))),
  .set (.arr .jac 27) (.add (.rd (.arr .jac 27)) (.mul (.rd (.var .jTemp)) (.num 4308858 5))),
  .set (.arr .jac 4) (.add (.rd (.arr .jac 4)) (.mul (.rd (.var .jTemp)) (.num 17007339999999999 15))),
  .set (.arr .jac 5) (.add (.rd (.arr .jac 5)) (.mul (.neg (.rd (.var .jTemp))) (.num 33006740000000001 15))),
  .set (.arr .jac 15) (.add (.rd (.arr .jac 15)) (.mul (.rd (.var .jTemp)) (.num 3002628 5))),
  .set (.arr .jac 31) (.add (.rd (.arr .jac 31)) (.mul (.neg (.rd (.var .jTemp))) (.num 57115459999999999 15)))]

/-- utilities/mechanisms/yao/lib/src/jacobs/jacob_4.c:7071-7077 -/
def jacobT190 : List CStmt := [
  .set (.var .jTemp) (.mul (.mul (.div (.num 1 0) (.rd (.var .T))) (.sub (.mul (.rd (.arr .fwd 190)) (.neg (.num 1 0))) (.mul (.rd (.arr .rev 190)) (.add (.neg (.num 1 0)) (.mul (.neg (.rd (.var .T))) (.sub (.sub (.add (.rd (.arr .dBdT 29)) (.rd (.arr .dBdT 12))) (.rd (.arr .dBdT 30))) (.rd (.arr .dBdT 11)))))))) (.rd (.var .rhoInv))),
  .set (.arr .jac 12) (.add (.rd (.arr .jac 12)) (.mul (.neg (.rd (.var .jTemp))) (.num 1503482 5))),
  .set (.arr .jac 13) (.add (.rd (.arr .jac 13)) (.mul (.rd (.var .jTemp)) (.num 16042760000000001 15))),
  .set (.arr .jac 30) (.add (.rd (.arr .jac 30)) (.mul (.rd (.var .jTemp)) (.num 56107519999999994 15))),
  .set (.arr .jac 31) (.add (.rd (.arr .jac 31)) (.mul (.neg (.rd (.var .jTemp))) (.num 57115459999999999 15)))]

/-- utilities/mechanisms/yao/lib/src/jacobs/jacob_4.c:7302-7307 -/
def jacobT191 : List CStmt := [
  .set (.var .jTemp) (.mul (.mul (.div (.num 1 0) (.rd (.var .T))) (.mul (.rd (.arr .fwd 191)) (.div (.num 15106208503854987 12) (.rd (.var .T))))) (.rd (.var .rhoInv))),
  .set (.arr .jac 25) (.add (.rd (.arr .jac 25)) (.mul (.rd (.var .jTemp)) (.num 41072699999999998 15))),
  .set (.arr .jac 21) (.add (.rd (.arr .jac 21)) (.mul (.rd (.var .jTemp)) (.num 28053759999999997 15))),
  .set (.arr .jac 32) (.mul (.neg (.rd (.var .jTemp))) (.num 69126459999999994 15))]

/-- utilities/mechanisms/yao/lib/src/jacobs/jacob_4.c:7471-7476 -/
def jacobT192 : List CStmt := [
  .set (.var .jTemp) (.mul (.mul (.div (.num 1 0) (.rd (.var .T))) (.mul (.rd (.arr .fwd 192)) (.div (.num 15106208503854987 12) (.rd (.var .T))))) (.rd (.var .rhoInv))),
  .set (.arr .jac 26) (.add (.rd (.arr .jac 26)) (.mul (.rd (.var .jTemp)) (.num 42080640000000002 15))),
  .set (.arr .jac 20) (.add (.rd (.arr .jac 20)) (.mul (.rd (.var .jTemp)) (.num 27045819999999999 15))),
  .set (.arr .jac 32) (.add (.rd (.arr .jac 32)) (.mul (.neg (.rd (.var .jTemp))) (.num 69126459999999994 15)))]

/-- utilities/mechanisms/yao/lib/src/jacobs/jacob_4.c:7640-7650 -/
def jacobT193 : List CStmt := [
  .set (.var .Pr) (.mul (.rd (.var .concTemp)) (.exp (.sub (.sub (.num 52205873288747348 15) (.mul (.num 666 2) (.rd (.var .logT)))) (.div (.num 18816889188778669 13) (.rd (.var .T)))))),
  .set (.var .Fcent) (.add (.add (.mul (.num 0 0) (.exp (.div (.rd (.var .T)) (.neg (.num 1000 0))))) (.mul (.num 1 0) (.exp (.div (.rd (.var .T)) (.neg (.num 1310 0)))))) (.exp (.div (.neg (.num 48097 0)) (.rd (.var .T))))),
  .set (.var .A) (.sub (.sub (.log10 (.fmax (.rd (.var .Pr)) (.num 1 300))) (.mul (.num 67 2) (.log10 (.fmax (.rd (.var .Fcent)) (.num 1 300))))) (.num 4 1)),
  .set (.var .B) (.sub (.sub (.num 806 3) (.mul (.num 11762 4) (.log10 (.fmax (.rd (.var .Fcent)) (.num 1 300))))) (.mul (.num 14 2) (.log10 (.fmax (.rd (.var .Pr)) (.num 1 300))))),
  .set (.var .lnFAB) (.div (.mul (.mul (.num 2 0) (.log (.fmax (.rd (.var .Fcent)) (.num 1 300)))) (.rd (.var .A))) (.mul (.mul (.mul (.mul (.rd (.var .B)) (.rd (.var .B))) (.rd (.var .B))) (.add (.num 1 0) (.div (.mul (.rd (.var .A)) (.rd (.var .A))) (.mul (.rd (.var .B)) (.rd (.var .B)))))) (.add (.num 1 0) (.div (.mul (.rd (.var .A)) (.rd (.var .A))) (.mul (.rd (.var .B)) (.rd (.var .B))))))),
  .set (.var .jTemp) (.mul (.add (.mul (.mul (.rd (.arr .presMod 25)) (.sub (.add (.div (.sub (.add (.neg (.num 666 2)) (.div (.num 18816889188778669 13) (.rd (.var .T)))) (.num 1 0)) (.mul (.rd (.var .T)) (.add (.num 1 0) (.rd (.var .Pr))))) (.mul (.sub (.div (.num 1 0) (.mul (.rd (.var .Fcent)) (.add (.num 1 0) (.div (.mul (.rd (.var .A)) (.rd (.var .A))) (.mul (.rd (.var .B)) (.rd (.var .B))))))) (.div (.mul (.rd (.var .lnFAB)) (.add (.mul (.neg (.num 2909773028751787 16)) (.rd (.var .B))) (.mul (.num 51081716961460466 17) (.rd (.var .A))))) (.rd (.var .Fcent)))) (.add (.sub (.mul (.neg (.num 0 0)) (.exp (.div (.rd (.var .T)) (.neg (.num 1000 0))))) (.mul (.num 76335877862595419 20) (.exp (.div (.rd (.var .T)) (.neg (.num 1310 0)))))) (.mul (.div (.num 48097 0) (.mul (.rd (.var .T)) (.rd (.var .T)))) (.exp (.div (.neg (.num 48097 0)) (.rd (.var .T)))))))) (.div (.mul (.mul (.rd (.var .lnFAB)) (.add (.mul (.num 43429448190325176 17) (.rd (.var .B))) (.mul (.num 60801227466455256 18) (.rd (.var .A))))) (.sub (.add (.neg (.num 66600000000000001 16)) (.div (.num 18816889188778669 13) (.rd (.var .T)))) (.num 1 0))) (.rd (.var .T))))) (.sub (.rd (.arr .fwd 193)) (.rd (.arr .rev 191)))) (.mul (.div (.rd (.arr .presMod 25)) (.rd (.var .T))) (.sub (.add (.mul (.sub (.rd (.arr .fwd 193)) (.rd (.arr .rev 191))) (.div (.num 16408480351362714 13) (.rd (.var .T)))) (.mul (.rd (.arr .fwd 193)) (.neg (.num 1 0)))) (.mul (.rd (.arr .rev 191)) (.mul (.neg (.rd (.var .T))) (.sub (.sub (.rd (.arr .dBdT 33)) (.rd (.arr .dBdT 1))) (.rd (.arr .dBdT 32)))))))) (.rd (.var .rhoInv))),
  .set (.arr .jac 33) (.mul (.neg (.rd (.var .jTemp))) (.num 70134399999999999 15)),
  .set (.arr .jac 2) (.add (.rd (.arr .jac 2)) (.mul (.neg (.rd (.var .jTemp))) (.num 10079400000000001 16))),
  .set (.arr .jac 34) (.mul (.rd (.var .jTemp)) (.num 7114233999999999 14))]

/-- utilities/mechanisms/yao/lib/src/jacobs/jacob_4.c:7836-7842 -/
def jacobT194 : List CStmt := [
  .set (.var .jTemp) (.mul (.mul (.div (.num 1 0) (.rd (.var .T))) (.sub (.add (.mul (.sub (.rd (.arr .fwd 194)) (.rd (.arr .rev 192))) (.add (.neg (.num 23900000000000001 16)) (.div (.num 56259947351254386 13) (.rd (.var .T))))) (.mul (.rd (.arr .fwd 194)) (.neg (.num 1 0)))) (.mul (.rd (.arr .rev 192)) (.add (.neg (.num 1 0)) (.mul (.neg (.rd (.var .T))) (.sub (.sub (.add (.rd (.arr .dBdT 26)) (.rd (.arr .dBdT 20))) (.rd (.arr .dBdT 1))) (.rd (.arr .dBdT 32)))))))) (.rd (.var .rhoInv))),
  .set (.arr .jac 33) (.add (.rd (.arr .jac 33)) (.mul (.neg (.rd (.var .jTemp))) (.num 70134399999999999 15))),
  .set (.arr .jac 2) (.add (.rd (.arr .jac 2)) (.mul (.neg (.rd (.var .jTemp))) (.num 10079400000000001 16))),
  .set (.arr .jac 27) (.add (.rd (.arr .jac 27)) (.mul (.rd (.var .jTemp)) (.num 4308858 5))),
  .set (.arr .jac 21) (.add (.rd (.arr .jac 21)) (.mul (.rd (.var .jTemp)) (.num 28053759999999997 15)))]

/-- utilities/mechanisms/yao/lib/src/jacobs/jacob_4.c:8073-8079 -/
def jacobT195 : List CStmt := [
  .set (.var .jTemp) (.mul (.mul (.div (.num 1 0) (.rd (.var .T))) (.sub (.add (.mul (.sub (.rd (.arr .fwd 195)) (.rd (.arr .rev 193))) (.add (.neg (.num 23900000000000001 16)) (.div (.num 56259947351254386 13) (.rd (.var .T))))) (.mul (.rd (.arr .fwd 195)) (.neg (.num 1 0)))) (.mul (.rd (.arr .rev 193)) (.add (.neg (.num 1 0)) (.mul (.neg (.rd (.var .T))) (.sub (.sub (.add (.rd (.arr .dBdT 25)) (.rd (.arr .dBdT 21))) (.rd (.arr .dBdT 1))) (.rd (.arr .dBdT 32)))))))) (.rd (.var .rhoInv))),
  .set (.arr .jac 33) (.add (.rd (.arr .jac 33)) (.mul (.neg (.rd (.var .jTemp))) (.num 70134399999999999 15))),
  .set (.arr .jac 2) (.add (.rd (.arr .jac 2)) (.mul (.neg (.rd (.var .jTemp))) (.num 10079400000000001 16))),
  .set (.arr .jac 22) (.add (.rd (.arr .jac 22)) (.mul (.rd (.var .jTemp)) (.num 29061699999999998 15))),
  .set (.arr .jac 26) (.add (.rd (.arr .jac 26)) (.mul (.rd (.var .jTemp)) (.num 42080640000000002 15)))]

/-- utilities/mechanisms/yao/lib/src/jacobs/jacob_4.c:8310-8315 -/
def jacobT196 : List CStmt := [
  .set (.var .jTemp) (.mul (.mul (.div (.num 1 0) (.rd (.var .T))) (.sub (.add (.mul (.sub (.rd (.arr .fwd 196)) (.rd (.arr .rev 194))) (.div (.num 3673502823471887 12) (.rd (.var .T)))) (.mul (.rd (.arr .fwd 196)) (.neg (.num 1 0)))) (.mul (.rd (.arr .rev 194)) (.mul (.neg (.rd (.var .T))) (.sub (.sub (.rd (.arr .dBdT 33)) (.rd (.arr .dBdT 26))) (.rd (.arr .dBdT 20))))))) (.rd (.var .rhoInv))),
  .set (.arr .jac 34) (.add (.rd (.arr .jac 34)) (.mul (.rd (.var .jTemp)) (.num 7114233999999999 14))),
  .set (.arr .jac 27) (.add (.rd (.arr .jac 27)) (.mul (.neg (.rd (.var .jTemp))) (.num 4308858 5))),
  .set (.arr .jac 21) (.add (.rd (.arr .jac 21)) (.mul (.neg (.rd (.var .jTemp))) (.num 28053759999999997 15)))]

/-- utilities/mechanisms/yao/lib/src/jacobs/jacob_4.c:8493-8503 -/
def jacobT197 : List CStmt := [
  .set (.var .Pr) (.mul (.rd (.var .concTemp)) (.exp (.sub (.sub (.num 52205873288747348 15) (.mul (.num 666 2) (.rd (.var .logT)))) (.div (.num 18816889188778669 13) (.rd (.var .T)))))),
  .set (.var .Fcent) (.add (.add (.mul (.num 0 0) (.exp (.div (.rd (.var .T)) (.neg (.num 1000 0))))) (.mul (.num 1 0) (.exp (.div (.rd (.var .T)) (.neg (.num 1310 0)))))) (.exp (.div (.neg (.num 48097 0)) (.rd (.var .T))))),
  .set (.var .A) (.sub (.sub (.log10 (.fmax (.rd (.var .Pr)) (.num 1 300))) (.mul (.num 67 2) (.log10 (.fmax (.rd (.var .Fcent)) (.num 1 300))))) (.num 4 1)),
  .set (.var .B) (.sub (.sub (.num 806 3) (.mul (.num 11762 4) (.log10 (.fmax (.rd (.var .Fcent)) (.num 1 300))))) (.mul (.num 14 2) (.log10 (.fmax (.rd (.var .Pr)) (.num 1 300))))),
  .set (.var .lnFAB) (.div (.mul (.mul (.num 2 0) (.log (.fmax (.rd (.var .Fcent)) (.num 1 300)))) (.rd (.var .A))) (.mul (.mul (.mul (.mul (.rd (.var .B)) (.rd (.var .B))) (.rd (.var .B))) (.add (.num 1 0) (.div (.mul (.rd (.var .A)) (.rd (.var .A))) (.mul (.rd (.var .B)) (.rd (.var .B)))))) (.add (.num 1 0) (.div (.mul (.rd (.var .A)) (.rd (.var .A))) (.mul (.rd (.var .B)) (.rd (.var .B))))))),
  .set (.var .jTemp) (.mul (.add (.mul (.mul (.rd (.arr .presMod 26)) (.sub (.add (.div (.sub (.add (.neg (.num 666 2)) (.div (.num 18816889188778669 13) (.rd (.var .T)))) (.num 1 0)) (.mul (.rd (.var .T)) (.add (.num 1 0) (.rd (.var .Pr))))) (.mul (.sub (.div (.num 1 0) (.mul (.rd (.var .Fcent)) (.add (.num 1 0) (.div (.mul (.rd (.var .A)) (.rd (.var .A))) (.mul (.rd (.var .B)) (.rd (.var .B))))))) (.div (.mul (.rd (.var .lnFAB)) (.add (.mul (.neg (.num 2909773028751787 16)) (.rd (.var .B))) (.mul (.num 51081716961460466 17) (.rd (.var .A))))) (.rd (.var .Fcent)))) (.add (.sub (.mul (.neg (.num 0 0)) (.exp (.div (.rd (.var .T)) (.neg (.num 1000 0))))) (.mul (.num 76335877862595419 20) (.exp (.div (.rd (.var .T)) (.neg (.num 1310 0)))))) (.mul (.div (.num 48097 0) (.mul (.rd (.var .T)) (.rd (.var .T)))) (.exp (.div (.neg (.num 48097 0)) (.rd (.var .T)))))))) (.div (.mul (.mul (.rd (.var .lnFAB)) (.add (.mul (.num 43429448190325176 17) (.rd (.var .B))) (.mul (.num 60801227466455256 18) (.rd (.var .A))))) (.sub (.add (.neg (.num 66600000000000001 16)) (.div (.num 18816889188778669 13) (.rd (.var .T)))) (.num 1 0))) (.rd (.var .T))))) (.sub (.rd (.arr .fwd 197)) (.rd (.arr .rev 195)))) (.mul (.div (.rd (.arr .presMod 26)) (.rd (.var .T))) (.sub (.add (.mul (.sub (.rd (.arr .fwd 197)) (.rd (.arr .rev 195))) (.div (.num 16408480351362714 13) (.rd (.var .T)))) (.mul (.rd (.arr .fwd 197)) (.neg (.num 1 0)))) (.mul (.rd (.arr .rev 195)) (.mul (.neg (.rd (.var .T))) (.sub (.sub (.rd (.arr .dBdT 35)) (.rd (.arr .dBdT 1))) (.rd (.arr .dBdT 34)))))))) (.rd (.var .rhoInv))),
  .set (.arr .jac 2) (.add (.rd (.arr .jac 2)) (.mul (.neg (.rd (.var .jTemp))) (.num 10079400000000001 16))),
  .set (.arr .jac 35) (.mul (.neg (.rd (.var .jTemp))) (.num 84161280000000005 15)),
  .set (.arr .jac 36) (.mul (.rd (.var .jTemp)) (.num 85169219999999996 15))]

/-- utilities/mechanisms/yao/lib/src/jacobs/jacob_4.c:8689-8695 -/
def jacobT198 : List CStmt := [
  .set (.var .jTemp) (.mul (.mul (.div (.num 1 0) (.rd (.var .T))) (.sub (.add (.mul (.sub (.rd (.arr .fwd 198)) (.rd (.arr .rev 196))) (.add (.neg (.num 23900000000000001 16)) (.div (.num 56259947351254386 13) (.rd (.var .T))))) (.mul (.rd (.arr .fwd 198)) (.neg (.num 1 0)))) (.mul (.rd (.arr .rev 196)) (.add (.neg (.num 1 0)) (.mul (.neg (.rd (.var .T))) (.sub (.sub (.add (.rd (.arr .dBdT 30)) (.rd (.arr .dBdT 20))) (.rd (.arr .dBdT 1))) (.rd (.arr .dBdT 34)))))))) (.rd (.var .rhoInv))),
  .set (.arr .jac 2) (.add (.rd (.arr .jac 2)) (.mul (.neg (.rd (.var .jTemp))) (.num 10079400000000001 16))),
  .set (.arr .jac 35) (.add (.rd (.arr .jac 35)) (.mul (.neg (.rd (.var .jTemp))) (.num 84161280000000005 15))),
  .set (.arr .jac 21) (.add (.rd (.arr .jac 21)) (.mul (.rd (.var .jTemp)) (.num 28053759999999997 15))),
  .set (.arr .jac 31) (.add (.rd (.arr .jac 31)) (.mul (.rd (.var .jTemp)) (.num 57115459999999999 15)))]

/-- utilities/mechanisms/yao/lib/src/jacobs/jacob_4.c:8926-8932 -/
def jacobT199 : List CStmt := [
  .set (.var .jTemp) (.mul (.mul (.div (.num 1 0) (.rd (.var .T))) (.sub (.add (.mul (.sub (.rd (.arr .fwd 199)) (.rd (.arr .rev 197))) (.add (.neg (.num 23900000000000001 16)) (.div (.num 56259947351254386 13) (.rd (.var .T))))) (.mul (.rd (.arr .fwd 199)) (.neg (.num 1 0)))) (.mul (.rd (.arr .rev 197)) (.add (.neg (.num 1 0)) (.mul (.neg (.rd (.var .T))) (.sub (.sub (.add (.rd (.arr .dBdT 25)) (.rd (.arr .dBdT 26))) (.rd (.arr .dBdT 1))) (.rd (.arr .dBdT 34)))))))) (.rd (.var .rhoInv))),
  .set (.arr .jac 2) (.add (.rd (.arr .jac 2)) (.mul (.neg (.rd (.var .jTemp))) (.num 10079400000000001 16))),
  .set (.arr .jac 35) (.add (.rd (.arr .jac 35)) (.mul (.neg (.rd (.var .jTemp))) (.num 84161280000000005 15))),
  .set (.arr .jac 27) (.add (.rd (.arr .jac 27)) (.mul (.rd (.var .jTemp)) (.num 4308858 5))),
  .set (.arr .jac 26) (.add (.rd (.arr .jac 26)) (.mul (.rd (.var .jTemp)) (.num 42080640000000002 15)))]

/-- The derivatives with respect to the temperature in `eval_jacob_4`, one block per reaction, utilities/mechanisms/yao/lib/src/jacobs/jacob_4.c:5-9162. -/
def jacob4Blocks : List (List CStmt × List CStmt) := [
  (jacobT160, []), (jacobT161, []), (jacobT162, []), (jacobT163, []), (jacobT164, []), (jacobT165, []), (jacobT166, []), (jacobT167, []), (jacobT168, []), (jacobT169, []), (jacobT170, []), (jacobT171, []), (jacobT172, []), (jacobT173, []), (jacobT174, []), (jacobT175, []), (jacobT176, []), (jacobT177, []), (jacobT178, []), (jacobT179, []), (jacobT180, []), (jacobT181, []), (jacobT182, []), (jacobT183, []), (jacobT184, []), (jacobT185, []), (jacobT186, []), (jacobT187, []), (jacobT188, []), (jacobT189, []), (jacobT190, []), (jacobT191, []), (jacobT192, []), (jacobT193, []), (jacobT194, []), (jacobT195, []), (jacobT196, []), (jacobT197, []), (jacobT198, []), (jacobT199, [])]

end DLB.Mech.Yao
