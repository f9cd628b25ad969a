/- Generated by tools/gen_mechanisms.py from utilities/mechanisms/yao/lib/src/jacobs/jacob_5.c. Do not edit. -/
import Verif.Model.CLang
set_option autoImplicit false
set_option maxRecDepth 1000000

namespace DLB.Mech.Yao
open DLB

/-- utilities/mechanisms/yao/lib/src/jacobs/jacob_5.c:5-17 -/
def jacob5Start : List CStmt := [
  .set (.var .logT) (.log (.rd (.var .T))),
  .set (.var .kf) (.num 0 0),
  .set (.var .jTemp) (.num 0 0),
  .set (.var .presModTemp) (.num 0 0),
  .set (.var .Kc) (.num 0 0),
  .set (.var .kr) (.num 0 0),
  .set (.var .Pr) (.num 0 0),
  .set (.var .Fcent) (.num 0 0),
  .set (.var .A) (.num 0 0),
  .set (.var .B) (.num 0 0),
  .set (.var .lnFAB) (.num 0 0),
  .set (.var .rhoInv) (.div (.num 1 0) (.rd (.var .rho)))]

/-- utilities/mechanisms/yao/lib/src/jacobs/jacob_5.c:18-23 -/
def jacobT200 : List CStmt := [
  .set (.var .jTemp) (.mul (.mul (.div (.num 1 0) (.rd (.var .T))) (.sub (.add (.mul (.sub (.rd (.arr .fwd 200)) (.rd (.arr .rev 198))) (.div (.num 3673502823471887 12) (.rd (.var .T)))) (.mul (.rd (.arr .fwd 200)) (.neg (.num 1 0)))) (.mul (.rd (.arr .rev 198)) (.mul (.neg (.rd (.var .T))) (.sub (.sub (.rd (.arr .dBdT 35)) (.rd (.arr .dBdT 30))) (.rd (.arr .dBdT 20))))))) (.rd (.var .rhoInv))),
  .set (.arr .jac 36) (.add (.rd (.arr .jac 36)) (.mul (.rd (.var .jTemp)) (.num 85169219999999996 15))),
  .set (.arr .jac 21) (.add (.rd (.arr .jac 21)) (.mul (.neg (.rd (.var .jTemp))) (.num 28053759999999997 15))),
  .set (.arr .jac 31) (.add (.rd (.arr .jac 31)) (.mul (.neg (.rd (.var .jTemp))) (.num 57115459999999999 15)))]

/-- utilities/mechanisms/yao/lib/src/jacobs/jacob_5.c:201-212 -/
def jacobT201 : List CStmt := [
  .set (.var .concTemp) (.add (.add (.add (.add (.add (.add (.sub (.rd (.var .m)) (.mul (.num 3 1) (.rd (.arr .C 0)))) (.mul (.num 1 0) (.rd (.arr .C 5)))) (.mul (.num 5 0) (.rd (.arr .C 6)))) (.mul (.num 1 0) (.rd (.arr .C 12)))) (.mul (.num 5 1) (.rd (.arr .C 16)))) (.mul (.num 1 0) (.rd (.arr .C 17)))) (.mul (.num 2 0) (.rd (.arr .C 22)))),
  .set (.var .Pr) (.mul (.rd (.var .concTemp)) (.exp (.sub (.sub (.num 52205873288747348 15) (.mul (.num 666 2) (.rd (.var .logT)))) (.div (.num 18816889188778669 13) (.rd (.var .T)))))),
  .set (.var .Fcent) (.add (.add (.mul (.num 0 0) (.exp (.div (.rd (.var .T)) (.neg (.num 1000 0))))) (.mul (.num 1 0) (.exp (.div (.rd (.var .T)) (.neg (.num 1310 0)))))) (.exp (.div (.neg (.num 48097 0)) (.rd (.var .T))))),
  .set (.var .A) (.sub (.sub (.log10 (.fmax (.rd (.var .Pr)) (.num 1 300))) (.mul (.num 67 2) (.log10 (.fmax (.rd (.var .Fcent)) (.num 1 300))))) (.num 4 1)),
  .set (.var .B) (.sub (.sub (.num 806 3) (.mul (.num 11762 4) (.log10 (.fmax (.rd (.var .Fcent)) (.num 1 300))))) (.mul (.num 14 2) (.log10 (.fmax (.rd (.var .Pr)) (.num 1 300))))),
  .set (.var .lnFAB) (.div (.mul (.mul (.num 2 0) (.log (.fmax (.rd (.var .Fcent)) (.num 1 300)))) (.rd (.var .A))) (.mul (.mul (.mul (.mul (.rd (.var .B)) (.rd (.var .B))) (.rd (.var .B))) (.add (.num 1 0) (.div (.mul (.rd (.var .A)) (.rd (.var .A))) (.mul (.rd (.var .B)) (.rd (.var .B)))))) (.add (.num 1 0) (.div (.mul (.rd (.var .A)) (.rd (.var .A))) (.mul (.rd (.var .B)) (.rd (.var .B))))))),
  .set (.var .jTemp) (.mul (.add (.mul (.mul (.rd (.arr .presMod 27)) (.sub (.add (.div (.sub (.add (.neg (.num 666 2)) (.div (.num 18816889188778669 13) (.rd (.var .T)))) (.num 1 0)) (.mul (.rd (.var .T)) (.add (.num 1 0) (.rd (.var .Pr))))) (.mul (.sub (.div (.num 1 0) (.mul (.rd (.var .Fcent)) (.add (.num 1 0) (.div (.mul (.rd (.var .A)) (.rd (.var .A))) (.mul (.rd (.var .B)) (.rd (.var .B))))))) (.div (.mul (.rd (.var .lnFAB)) (.add (.mul (.neg (.num 2909773028751787 16)) (.rd (.var .B))) (.mul (.num 51081716961460466 17) (.rd (.var .A))))) (.rd (.var .Fcent)))) (.add (.sub (.mul (.neg (.num 0 0)) (.exp (.div (.rd (.var .T)) (.neg (.num 1000 0))))) (.mul (.num 76335877862595419 20) (.exp (.div (.rd (.var .T)) (.neg (.num 1310 0)))))) (.mul (.div (.num 48097 0) (.mul (.rd (.var .T)) (.rd (.var .T)))) (.exp (.div (.neg (.num 48097 0)) (.rd (.var .T)))))))) (.div (.mul (.mul (.rd (.var .lnFAB)) (.add (.mul (.num 43429448190325176 17) (.rd (.var .B))) (.mul (.num 60801227466455256 18) (.rd (.var .A))))) (.sub (.add (.neg (.num 66600000000000001 16)) (.div (.num 18816889188778669 13) (.rd (.var .T)))) (.num 1 0))) (.rd (.var .T))))) (.sub (.rd (.arr .fwd 201)) (.rd (.arr .rev 199)))) (.mul (.div (.rd (.arr .presMod 27)) (.rd (.var .T))) (.sub (.add (.mul (.sub (.rd (.arr .fwd 201)) (.rd (.arr .rev 199))) (.div (.num 16408480351362714 13) (.rd (.var .T)))) (.mul (.rd (.arr .fwd 201)) (.neg (.num 1 0)))) (.mul (.rd (.arr .rev 199)) (.mul (.neg (.rd (.var .T))) (.sub (.sub (.rd (.arr .dBdT 37)) (.rd (.arr .dBdT 1))) (.rd (.arr .dBdT 36)))))))) (.rd (.var .rhoInv))),
  .set (.arr .jac 2) (.add (.rd (.arr .jac 2)) (.mul (.neg (.rd (.var .jTemp))) (.num 10079400000000001 16))),
  .set (.arr .jac 37) (.mul (.neg (.rd (.var .jTemp))) (.num 98188159999999996 15)),
  .set (.arr .jac 38) (.mul (.rd (.var .jTemp)) (.num 99196100000000001 15))]

/-- utilities/mechanisms/yao/lib/src/jacobs/jacob_5.c:398-404 -/
def jacobT202 : List CStmt := [
  .set (.var .jTemp) (.mul (.mul (.div (.num 1 0) (.rd (.var .T))) (.sub (.add (.mul (.sub (.rd (.arr .fwd 202)) (.rd (.arr .rev 200))) (.add (.neg (.num 23900000000000001 16)) (.div (.num 56259947351254386 13) (.rd (.var .T))))) (.mul (.rd (.arr .fwd 202)) (.neg (.num 1 0)))) (.mul (.rd (.arr .rev 200)) (.add (.neg (.num 1 0)) (.mul (.neg (.rd (.var .T))) (.sub (.sub (.add (.rd (.arr .dBdT 33)) (.rd (.arr .dBdT 20))) (.rd (.arr .dBdT 1))) (.rd (.arr .dBdT 36)))))))) (.rd (.var .rhoInv))),
  .set (.arr .jac 2) (.add (.rd (.arr .jac 2)) (.mul (.neg (.rd (.var .jTemp))) (.num 10079400000000001 16))),
  .set (.arr .jac 37) (.add (.rd (.arr .jac 37)) (.mul (.neg (.rd (.var .jTemp))) (.num 98188159999999996 15))),
  .set (.arr .jac 21) (.add (.rd (.arr .jac 21)) (.mul (.rd (.var .jTemp)) (.num 28053759999999997 15))),
  .set (.arr .jac 34) (.add (.rd (.arr .jac 34)) (.mul (.rd (.var .jTemp)) (.num 7114233999999999 14)))]

/-- utilities/mechanisms/yao/lib/src/jacobs/jacob_5.c:641-647 -/
def jacobT203 : List CStmt := [
  .set (.var .jTemp) (.mul (.mul (.div (.num 1 0) (.rd (.var .T))) (.sub (.add (.mul (.sub (.rd (.arr .fwd 203)) (.rd (.arr .rev 201))) (.add (.neg (.num 23900000000000001 16)) (.div (.num 56259947351254386 13) (.rd (.var .T))))) (.mul (.rd (.arr .fwd 203)) (.neg (.num 1 0)))) (.mul (.rd (.arr .rev 201)) (.add (.neg (.num 1 0)) (.mul (.neg (.rd (.var .T))) (.sub (.sub (.add (.rd (.arr .dBdT 25)) (.rd (.arr .dBdT 30))) (.rd (.arr .dBdT 1))) (.rd (.arr .dBdT 36)))))))) (.rd (.var .rhoInv))),
  .set (.arr .jac 2) (.add (.rd (.arr .jac 2)) (.mul (.neg (.rd (.var .jTemp))) (.num 10079400000000001 16))),
  .set (.arr .jac 37) (.add (.rd (.arr .jac 37)) (.mul (.neg (.rd (.var .jTemp))) (.num 98188159999999996 15))),
  .set (.arr .jac 31) (.add (.rd (.arr .jac 31)) (.mul (.rd (.var .jTemp)) (.num 57115459999999999 15))),
  .set (.arr .jac 26) (.add (.rd (.arr .jac 26)) (.mul (.rd (.var .jTemp)) (.num 42080640000000002 15)))]

/-- utilities/mechanisms/yao/lib/src/jacobs/jacob_5.c:878-883 -/
def jacobT204 : List CStmt := [
  .set (.var .jTemp) (.mul (.mul (.div (.num 1 0) (.rd (.var .T))) (.sub (.add (.mul (.sub (.rd (.arr .fwd 204)) (.rd (.arr .rev 202))) (.div (.num 3673502823471887 12) (.rd (.var .T)))) (.mul (.rd (.arr .fwd 204)) (.neg (.num 1 0)))) (.mul (.rd (.arr .rev 202)) (.mul (.neg (.rd (.var .T))) (.sub (.sub (.rd (.arr .dBdT 37)) (.rd (.arr .dBdT 33))) (.rd (.arr .dBdT 20))))))) (.rd (.var .rhoInv))),
  .set (.arr .jac 34) (.add (.rd (.arr .jac 34)) (.mul (.neg (.rd (.var .jTemp))) (.num 7114233999999999 14))),
  .set (.arr .jac 21) (.add (.rd (.arr .jac 21)) (.mul (.neg (.rd (.var .jTemp))) (.num 28053759999999997 15))),
  .set (.arr .jac 38) (.add (.rd (.arr .jac 38)) (.mul (.rd (.var .jTemp)) (.num 99196100000000001 15)))]

/-- utilities/mechanisms/yao/lib/src/jacobs/jacob_5.c:1061-1071 -/
def jacobT205 : List CStmt := [
  .set (.var .Pr) (.mul (.rd (.var .concTemp)) (.exp (.sub (.sub (.num 52205873288747348 15) (.mul (.num 666 2) (.rd (.var .logT)))) (.div (.num 18816889188778669 13) (.rd (.var .T)))))),
  .set (.var .Fcent) (.add (.add (.mul (.num 0 0) (.exp (.div (.rd (.var .T)) (.neg (.num 1000 0))))) (.mul (.num 1 0) (.exp (.div (.rd (.var .T)) (.neg (.num 1310 0)))))) (.exp (.div (.neg (.num 48097 0)) (.rd (.var .T))))),
  .set (.var .A) (.sub (.sub (.log10 (.fmax (.rd (.var .Pr)) (.num 1 300))) (.mul (.num 67 2) (.log10 (.fmax (.rd (.var .Fcent)) (.num 1 300))))) (.num 4 1)),
  .set (.var .B) (.sub (.sub (.num 806 3) (.mul (.num 11762 4) (.log10 (.fmax (.rd (.var .Fcent)) (.num 1 300))))) (.mul (.num 14 2) (.log10 (.fmax (.rd (.var .Pr)) (.num 1 300))))),
  .set (.var .lnFAB) (.div (.mul (.mul (.num 2 0) (.log (.fmax (.rd (.var .Fcent)) (.num 1 300)))) (.rd (.var .A))) (.mul (.mul (.mul (.mul (.rd (.var .B)) (.rd (.var .B))) (.rd (.var .B))) (.add (.num 1 0) (.div (.mul (.rd (.var .A)) (.rd (.var .A))) (.mul (.rd (.var .B)) (.rd (.var .B)))))) (.add (.num 1 0) (.div (.mul (.rd (.var .A)) (.rd (.var .A))) (.mul (.rd (.var .B)) (.rd (.var .B))))))),
  .set (.var .jTemp) (.mul (.add (.mul (.mul (.rd (.arr .presMod 28)) (.sub (.add (.div (.sub (.add (.neg (.num 666 2)) (.div (.num 18816889188778669 13) (.rd (.var .T)))) (.num 1 0)) (.mul (.rd (.var .T)) (.add (.num 1 0) (.rd (.var .Pr))))) (.mul (.sub (.div (.num 1 0) (.mul (.rd (.var .Fcent)) (.add (.num 1 0) (.div (.mul (.rd (.var .A)) (.rd (.var .A))) (.mul (.rd (.var .B)) (.rd (.var .B))))))) (.div (.mul (.rd (.var .lnFAB)) (.add (.mul (.neg (.num 2909773028751787 16)) (.rd (.var .B))) (.mul (.num 51081716961460466 17) (.rd (.var .A))))) (.rd (.var .Fcent)))) (.add (.sub (.mul (.neg (.num 0 0)) (.exp (.div (.rd (.var .T)) (.neg (.num 1000 0))))) (.mul (.num 76335877862595419 20) (.exp (.div (.rd (.var .T)) (.neg (.num 1310 0)))))) (.mul (.div (.num 48097 0) (.mul (.rd (.var .T)) (.rd (.var .T)))) (.exp (.div (.neg (.num 48097 0)) (.rd (.var .T)))))))) (.div (.mul (.mul (.rd (.var .lnFAB)) (.add (.mul (.num 43429448190325176 17) (.rd (.var .B))) (.mul (.num 60801227466455256 18) (.rd (.var .A))))) (.sub (.add (.neg (.num 66600000000000001 16)) (.div (.num 18816889188778669 13) (.rd (.var .T)))) (.num 1 0))) (.rd (.var .T))))) (.sub (.rd (.arr .fwd 205)) (.rd (.arr .rev 203)))) (.mul (.div (.rd (.arr .presMod 28)) (.rd (.var .T))) (.sub (.add (.mul (.sub (.rd (.arr .fwd 205)) (.rd (.arr .rev 203))) (.div (.num 16408480351362714 13) (.rd (.var .T)))) (.mul (.rd (.arr .fwd 205)) (.neg (.num 1 0)))) (.mul (.rd (.arr .rev 203)) (.mul (.neg (.rd (.var .T))) (.sub (.sub (.rd (.arr .dBdT 39)) (.rd (.arr .dBdT 1))) (.rd (.arr .dBdT 38)))))))) (.rd (.var .rhoInv))),
  .set (.arr .jac 2) (.add (.rd (.arr .jac 2)) (.mul (.neg (.rd (.var .jTemp))) (.num 10079400000000001 16))),
  .set (.arr .jac 39) (.mul (.neg (.rd (.var .jTemp))) (.num 11221503999999999 14)),
  .set (.arr .jac 40) (.mul (.rd (.var .jTemp)) (.num 11322297999999999 14))]

/-- utilities/mechanisms/yao/lib/src/jacobs/jacob_5.c:1257-1263 -/
def jacobT206 : List CStmt := [
  .set (.var .jTemp) (.mul (.mul (.div (.num 1 0) (.rd (.var .T))) (.sub (.add (.mul (.sub (.rd (.arr .fwd 206)) (.rd (.arr .rev 204))) (.add (.neg (.num 23900000000000001 16)) (.div (.num 56259947351254386 13) (.rd (.var .T))))) (.mul (.rd (.arr .fwd 206)) (.neg (.num 1 0)))) (.mul (.rd (.arr .rev 204)) (.add (.neg (.num 1 0)) (.mul (.neg (.rd (.var .T))) (.sub (.sub (.add (.rd (.arr .dBdT 20)) (.rd (.arr .dBdT 35))) (.rd (.arr .dBdT 1))) (.rd (.arr .dBdT 38)))))))) (.rd (.var .rhoInv))),
  .set (.arr .jac 2) (.add (.rd (.arr .jac 2)) (.mul (.neg (.rd (.var .jTemp))) (.num 10079400000000001 16))),
  .set (.arr .jac 36) (.add (.rd (.arr .jac 36)) (.mul (.rd (.var .jTemp)) (.num 85169219999999996 15))),
  .set (.arr .jac 21) (.add (.rd (.arr .jac 21)) (.mul (.rd (.var .jTemp)) (.num 28053759999999997 15))),
  .set (.arr .jac 39) (.add (.rd (.arr .jac 39)) (.mul (.neg (.rd (.var .jTemp))) (.num 11221503999999999 14)))]

/-- utilities/mechanisms/yao/lib/src/jacobs/jacob_5.c:1500-1506 -/
def jacobT207 : List CStmt := [
  .set (.var .jTemp) (.mul (.mul (.div (.num 1 0) (.rd (.var .T))) (.sub (.add (.mul (.sub (.rd (.arr .fwd 207)) (.rd (.arr .rev 205))) (.add (.neg (.num 23900000000000001 16)) (.div (.num 56259947351254386 13) (.rd (.var .T))))) (.mul (.rd (.arr .fwd 207)) (.neg (.num 1 0)))) (.mul (.rd (.arr .rev 205)) (.add (.neg (.num 1 0)) (.mul (.neg (.rd (.var .T))) (.sub (.sub (.add (.rd (.arr .dBdT 25)) (.rd (.arr .dBdT 33))) (.rd (.arr .dBdT 1))) (.rd (.arr .dBdT 38)))))))) (.rd (.var .rhoInv))),
  .set (.arr .jac 2) (.add (.rd (.arr .jac 2)) (.mul (.neg (.rd (.var .jTemp))) (.num 10079400000000001 16))),
  .set (.arr .jac 34) (.add (.rd (.arr .jac 34)) (.mul (.rd (.var .jTemp)) (.num 7114233999999999 14))),
  .set (.arr .jac 39) (.add (.rd (.arr .jac 39)) (.mul (.neg (.rd (.var .jTemp))) (.num 11221503999999999 14))),
  .set (.arr .jac 26) (.add (.rd (.arr .jac 26)) (.mul (.rd (.var .jTemp)) (.num 42080640000000002 15)))]

/-- utilities/mechanisms/yao/lib/src/jacobs/jacob_5.c:1743-1748 -/
def jacobT208 : List CStmt := [
  .set (.var .jTemp) (.mul (.mul (.div (.num 1 0) (.rd (.var .T))) (.sub (.add (.mul (.sub (.rd (.arr .fwd 208)) (.rd (.arr .rev 206))) (.div (.num 3673502823471887 12) (.rd (.var .T)))) (.mul (.rd (.arr .fwd 208)) (.neg (.num 1 0)))) (.mul (.rd (.arr .rev 206)) (.mul (.neg (.rd (.var .T))) (.sub (.sub (.rd (.arr .dBdT 39)) (.rd (.arr .dBdT 20))) (.rd (.arr .dBdT 35))))))) (.rd (.var .rhoInv))),
  .set (.arr .jac 36) (.add (.rd (.arr .jac 36)) (.mul (.neg (.rd (.var .jTemp))) (.num 85169219999999996 15))),
  .set (.arr .jac 21) (.add (.rd (.arr .jac 21)) (.mul (.neg (.rd (.var .jTemp))) (.num 28053759999999997 15))),
  .set (.arr .jac 40) (.add (.rd (.arr .jac 40)) (.mul (.rd (.var .jTemp)) (.num 11322297999999999 14)))]

/-- utilities/mechanisms/yao/lib/src/jacobs/jacob_5.c:1926-1936 -/
def jacobT209 : List CStmt := [
  .set (.var .Pr) (.mul (.rd (.var .concTemp)) (.exp (.sub (.sub (.num 52205873288747348 15) (.mul (.num 666 2) (.rd (.var .logT)))) (.div (.num 18816889188778669 13) (.rd (.var .T)))))),
  .set (.var .Fcent) (.add (.add (.mul (.num 0 0) (.exp (.div (.rd (.var .T)) (.neg (.num 1000 0))))) (.mul (.num 1 0) (.exp (.div (.rd (.var .T)) (.neg (.num 1310 0)))))) (.exp (.div (.neg (.num 48097 0)) (.rd (.var .T))))),
  .set (.var .A) (.sub (.sub (.log10 (.fmax (.rd (.var .Pr)) (.num 1 300))) (.mul (.num 67 2) (.log10 (.fmax (.rd (.var .Fcent)) (.num 1 300))))) (.num 4 1)),
  .set (.var .B) (.sub (.sub (.num 806 3) (.mul (.num 11762 4) (.log10 (.fmax (.rd (.var .Fcent)) (.num 1 300))))) (.mul (.num 14 2) (.log10 (.fmax (.rd (.var .Pr)) (.num 1 300))))),
  .set (.var .lnFAB) (.div (.mul (.mul (.num 2 0) (.log (.fmax (.rd (.var .Fcent)) (.num 1 300)))) (.rd (.var .A))) (.mul (.mul (.mul (.mul (.rd (.var .B)) (.rd (.var .B))) (.rd (.var .B))) (.add (.num 1 0) (.div (.mul (.rd (.var .A)) (.rd (.var .A))) (.mul (.rd (.var .B)) (.rd (.var .B)))))) (.add (.num 1 0) (.div (.mul (.rd (.var .A)) (.rd (.var .A))) (.mul (.rd (.var .B)) (.rd (.var .B))))))),
  .set (.var .jTemp) (.mul (.add (.mul (.mul (.rd (.arr .presMod 29)) (.sub (.add (.div (.sub (.add (.neg (.num 666 2)) (.div (.num 18816889188778669 13) (.rd (.var .T)))) (.num 1 0)) (.mul (.rd (.var .T)) (.add (.num 1 0) (.rd (.var .Pr))))) (.mul (.sub (.div (.num 1 0) (.mul (.rd (.var .Fcent)) (.add (.num 1 0) (.div (.mul (.rd (.var .A)) (.rd (.var .A))) (.mul (.rd (.var .B)) (.rd (.var .B))))))) (.div (.mul (.rd (.var .lnFAB)) (.add (.mul (.neg (.num 2909773028751787 16)) (.rd (.var .B))) (.mul (.num 51081716961460466 17) (.rd (.var .A))))) (.rd (.var .Fcent)))) (.add (.sub (.mul (.neg (.num 0 0)) (.exp (.div (.rd (.var .T)) (.neg (.num 1000 0))))) (.mul (.num 76335877862595419 20) (.exp (.div (.rd (.var .T)) (.neg (.num 1310 0)))))) (.mul (.div (.num 48097 0) (.mul (.rd (.var .T)) (.rd (.var .T)))) (.exp (.div (.neg (.num 48097 0)) (.rd (.var .T)))))))) (.div (.mul (.mul (.rd (.var .lnFAB)) (.add (.mul (.num 43429448190325176 17) (.rd (.var .B))) (.mul (.num 60801227466455256 18) (.rd (.var .A))))) (.sub (.add (.neg (.num 66600000000000001 16)) (.div (.num 18816889188778669 13) (.rd (.var .T)))) (.num 1 0))) (.rd (.var .T))))) (.sub (.rd (.arr .fwd 209)) (.rd (.arr .rev 207)))) (.mul (.div (.rd (.arr .presMod 29)) (.rd (.var .T))) (.sub (.add (.mul (.sub (.rd (.arr .fwd 209)) (.rd (.arr .rev 207))) (.div (.num 16408480351362714 13) (.rd (.var .T)))) (.mul (.rd (.arr .fwd 209)) (.neg (.num 1 0)))) (.mul (.rd (.arr .rev 207)) (.mul (.neg (.rd (.var .T))) (.sub (.sub (.rd (.arr .dBdT 41)) (.rd (.arr .dBdT 1))) (.rd (.arr .dBdT 40)))))))) (.rd (.var .rhoInv))),
  .set (.arr .jac 41) (.mul (.neg (.rd (.var .jTemp))) (.num 12624191999999999 14)),
  .set (.arr .jac 2) (.add (.rd (.arr .jac 2)) (.mul (.neg (.rd (.var .jTemp))) (.num 10079400000000001 16))),
  .set (.arr .jac 42) (.mul (.rd (.var .jTemp)) (.num 12724985999999998 14))]

/-- utilities/mechanisms/yao/lib/src/jacobs/jacob_5.c:2122-2128 -/
def jacobT210 : List CStmt := [
  .set (.var .jTemp) (.mul (.mul (.div (.num 1 0) (.rd (.var .T))) (.sub (.add (.mul (.sub (.rd (.arr .fwd 210)) (.rd (.arr .rev 208))) (.add (.neg (.num 23900000000000001 16)) (.div (.num 56259947351254386 13) (.rd (.var .T))))) (.mul (.rd (.arr .fwd 210)) (.neg (.num 1 0)))) (.mul (.rd (.arr .rev 208)) (.add (.neg (.num 1 0)) (.mul (.neg (.rd (.var .T))) (.sub (.sub (.add (.rd (.arr .dBdT 20)) (.rd (.arr .dBdT 37))) (.rd (.arr .dBdT 1))) (.rd (.arr .dBdT 40)))))))) (.rd (.var .rhoInv))),
  .set (.arr .jac 41) (.add (.rd (.arr .jac 41)) (.mul (.neg (.rd (.var .jTemp))) (.num 12624191999999999 14))),
  .set (.arr .jac 2) (.add (.rd (.arr .jac 2)) (.mul (.neg (.rd (.var .jTemp))) (.num 10079400000000001 16))),
  .set (.arr .jac 21) (.add (.rd (.arr .jac 21)) (.mul (.rd (.var .jTemp)) (.num 28053759999999997 15))),
  .set (.arr .jac 38) (.add (.rd (.arr .jac 38)) (.mul (.rd (.var .jTemp)) (.num 99196100000000001 15)))]

/-- utilities/mechanisms/yao/lib/src/jacobs/jacob_5.c:2365-2371 -/
def jacobT211 : List CStmt := [
  .set (.var .jTemp) (.mul (.mul (.div (.num 1 0) (.rd (.var .T))) (.sub (.add (.mul (.sub (.rd (.arr .fwd 211)) (.rd (.arr .rev 209))) (.add (.neg (.num 23900000000000001 16)) (.div (.num 56259947351254386 13) (.rd (.var .T))))) (.mul (.rd (.arr .fwd 211)) (.neg (.num 1 0)))) (.mul (.rd (.arr .rev 209)) (.add (.neg (.num 1 0)) (.mul (.neg (.rd (.var .T))) (.sub (.sub (.add (.rd (.arr .dBdT 25)) (.rd (.arr .dBdT 35))) (.rd (.arr .dBdT 1))) (.rd (.arr .dBdT 40)))))))) (.rd (.var .rhoInv))),
  .set (.arr .jac 41) (.add (.rd (.arr .jac 41)) (.mul (.neg (.rd (.var .jTemp))) (.num 12624191999999999 14))),
  .set (.arr .jac 2) (.add (.rd (.arr .jac 2)) (.mul (.neg (.rd (.var .jTemp))) (.num 10079400000000001 16))),
  .set (.arr .jac 36) (.add (.rd (.arr .jac 36)) (.mul (.rd (.var .jTemp)) (.num 85169219999999996 15))),
  .set (.arr .jac 26) (.add (.rd (.arr .jac 26)) (.mul (.rd (.var .jTemp)) (.num 42080640000000002 15)))]

/-- utilities/mechanisms/yao/lib/src/jacobs/jacob_5.c:2608-2613 -/
def jacobT212 : List CStmt := [
  .set (.var .jTemp) (.mul (.mul (.div (.num 1 0) (.rd (.var .T))) (.sub (.add (.mul (.sub (.rd (.arr .fwd 212)) (.rd (.arr .rev 210))) (.div (.num 3673502823471887 12) (.rd (.var .T)))) (.mul (.rd (.arr .fwd 212)) (.neg (.num 1 0)))) (.mul (.rd (.arr .rev 210)) (.mul (.neg (.rd (.var .T))) (.sub (.sub (.rd (.arr .dBdT 41)) (.rd (.arr .dBdT 20))) (.rd (.arr .dBdT 37))))))) (.rd (.var .rhoInv))),
  .set (.arr .jac 42) (.add (.rd (.arr .jac 42)) (.mul (.rd (.var .jTemp)) (.num 12724985999999998 14))),
  .set (.arr .jac 21) (.add (.rd (.arr .jac 21)) (.mul (.neg (.rd (.var .jTemp))) (.num 28053759999999997 15))),
  .set (.arr .jac 38) (.add (.rd (.arr .jac 38)) (.mul (.neg (.rd (.var .jTemp))) (.num 99196100000000001 15)))]

/-- utilities/mechanisms/yao/lib/src/jacobs/jacob_5.c:2791-2801 -/
def jacobT213 : List CStmt := [
  .set (.var .Pr) (.mul (.rd (.var .concTemp)) (.exp (.sub (.sub (.num 52205873288747348 15) (.mul (.num 666 2) (.rd (.var .logT)))) (.div (.num 18816889188778669 13) (.rd (.var .T)))))),
  .set (.var .Fcent) (.add (.add (.mul (.num 0 0) (.exp (.div (.rd (.var .T)) (.neg (.num 1000 0))))) (.mul (.num 1 0) (.exp (.div (.rd (.var .T)) (.neg (.num 1310 0)))))) (.exp (.div (.neg (.num 48097 0)) (.rd (.var .T))))),
  .set (.var .A) (.sub (.sub (.log10 (.fmax (.rd (.var .Pr)) (.num 1 300))) (.mul (.num 67 2) (.log10 (.fmax (.rd (.var .Fcent)) (.num 1 300))))) (.num 4 1)),
  .set (.var .B) (.sub (.sub (.num 806 3) (.mul (.num 11762 4) (.log10 (.fmax (.rd (.var .Fcent)) (.num 1 300))))) (.mul (.num 14 2) (.log10 (.fmax (.rd (.var .Pr)) (.num 1 300))))),
  .set (.var .lnFAB) (.div (.mul (.mul (.num 2 0) (.log (.fmax (.rd (.var .Fcent)) (.num 1 300)))) (.rd (.var .A))) (.mul (.mul (.mul (.mul (.rd (.var .B)) (.rd (.var .B))) (.rd (.var .B))) (.add (.num 1 0) (.div (.mul (.rd (.var .A)) (.rd (.var .A))) (.mul (.rd (.var .B)) (.rd (.var .B)))))) (.add (.num 1 0) (.div (.mul (.rd (.var .A)) (.rd (.var .A))) (.mul (.rd (.var .B)) (.rd (.var .B))))))),
  .set (.var .jTemp) (.mul (.add (.mul (.mul (.rd (.arr .presMod 30)) (.sub (.add (.div (.sub (.add (.neg (.num 666 2)) (.div (.num 18816889188778669 13) (.rd (.var .T)))) (.num 1 0)) (.mul (.rd (.var .T)) (.add (.num 1 0) (.rd (.var .Pr))))) (.mul (.sub (.div (.num 1 0) (.mul (.rd (.var .Fcent)) (.add (.num 1 0) (.div (.mul (.rd (.var .A)) (.rd (.var .A))) (.mul (.rd (.var .B)) (.rd (.var .B))))))) (.div (.mul (.rd (.var .lnFAB)) (.add (.mul (.neg (.num 2909773028751787 16)) (.rd (.var .B))) (.mul (.num 51081716961460466 17) (.rd (.var .A))))) (.rd (.var .Fcent)))) (.add (.sub (.mul (.neg (.num 0 0)) (.exp (.div (.rd (.var .T)) (.neg (.num 1000 0))))) (.mul (.num 76335877862595419 20) (.exp (.div (.rd (.var .T)) (.neg (.num 1310 0)))))) (.mul (.div (.num 48097 0) (.mul (.rd (.var .T)) (.rd (.var .T)))) (.exp (.div (.neg (.num 48097 0)) (.rd (.var .T)))))))) (.div (.mul (.mul (.rd (.var .lnFAB)) (.add (.mul (.num 43429448190325176 17) (.rd (.var .B))) (.mul (.num 60801227466455256 18) (.rd (.var .A))))) (.sub (.add (.neg (.num 66600000000000001 16)) (.div (.num 18816889188778669 13) (.rd (.var .T)))) (.num 1 0))) (.rd (.var .T))))) (.sub (.rd (.arr .fwd 213)) (.rd (.arr .rev 211)))) (.mul (.div (.rd (.arr .presMod 30)) (.rd (.var .T))) (.sub (.add (.mul (.sub (.rd (.arr .fwd 213)) (.rd (.arr .rev 211))) (.div (.num 16408480351362714 13) (.rd (.var .T)))) (.mul (.rd (.arr .fwd 213)) (.neg (.num 1 0)))) (.mul (.rd (.arr .rev 211)) (.mul (.neg (.rd (.var .T))) (.sub (.sub (.rd (.arr .dBdT 43)) (.rd (.arr .dBdT 42))) (.rd (.arr .dBdT 1)))))))) (.rd (.var .rhoInv))),
  .set (.arr .jac 2) (.add (.rd (.arr .jac 2)) (.mul (.neg (.rd (.var .jTemp))) (.num 10079400000000001 16))),
  .set (.arr .jac 43) (.mul (.neg (.rd (.var .jTemp))) (.num 1402688 4)),
  .set (.arr .jac 44) (.mul (.rd (.var .jTemp)) (.num 14127673999999999 14))]

/-- utilities/mechanisms/yao/lib/src/jacobs/jacob_5.c:2987-2993 -/
def jacobT214 : List CStmt := [
  .set (.var .jTemp) (.mul (.mul (.div (.num 1 0) (.rd (.var .T))) (.sub (.add (.mul (.sub (.rd (.arr .fwd 214)) (.rd (.arr .rev 212))) (.add (.neg (.num 23900000000000001 16)) (.div (.num 56259947351254386 13) (.rd (.var .T))))) (.mul (.rd (.arr .fwd 214)) (.neg (.num 1 0)))) (.mul (.rd (.arr .rev 212)) (.add (.neg (.num 1 0)) (.mul (.neg (.rd (.var .T))) (.sub (.sub (.add (.rd (.arr .dBdT 39)) (.rd (.arr .dBdT 20))) (.rd (.arr .dBdT 42))) (.rd (.arr .dBdT 1)))))))) (.rd (.var .rhoInv))),
  .set (.arr .jac 2) (.add (.rd (.arr .jac 2)) (.mul (.neg (.rd (.var .jTemp))) (.num 10079400000000001 16))),
  .set (.arr .jac 43) (.add (.rd (.arr .jac 43)) (.mul (.neg (.rd (.var .jTemp))) (.num 1402688 4))),
  .set (.arr .jac 21) (.add (.rd (.arr .jac 21)) (.mul (.rd (.var .jTemp)) (.num 28053759999999997 15))),
  .set (.arr .jac 40) (.add (.rd (.arr .jac 40)) (.mul (.rd (.var .jTemp)) (.num 11322297999999999 14)))]

/-- utilities/mechanisms/yao/lib/src/jacobs/jacob_5.c:3230-3236 -/
def jacobT215 : List CStmt := [
  .set (.var .jTemp) (.mul (.mul (.div (.num 1 0) (.rd (.var .T))) (.sub (.add (.mul (.sub (.rd (.arr .fwd 215)) (.rd (.arr .rev 213))) (.add (.neg (.num 23900000000000001 16)) (.div (.num 56259947351254386 13) (.rd (.var .T))))) (.mul (.rd (.arr .fwd 215)) (.neg (.num 1 0)))) (.mul (.rd (.arr .rev 213)) (.add (.neg (.num 1 0)) (.mul (.neg (.rd (.var .T))) (.sub (.sub (.add (.rd (.arr .dBdT 25)) (.rd (.arr .dBdT 37))) (.rd (.arr .dBdT 42))) (.rd (.arr .dBdT 1)))))))) (.rd (.var .rhoInv))),
  .set (.arr .jac 2) (.add (.rd (.arr .jac 2)) (.mul (.neg (.rd (.var .jTemp))) (.num 10079400000000001 16))),
  .set (.arr .jac 43) (.add (.rd (.arr .jac 43)) (.mul (.neg (.rd (.var .jTemp))) (.num 1402688 4))),
  .set (.arr .jac 38) (.add (.rd (.arr .jac 38)) (.mul (.rd (.var .jTemp)) (.num 99196100000000001 15))),
  .set (.arr .jac 26) (.add (.rd (.arr .jac 26)) (.mul (.rd (.var .jTemp)) (.num 42080640000000002 15)))]

/-- utilities/mechanisms/yao/lib/src/jacobs/jacob_5.c:3473-3478 -/
def jacobT216 : List CStmt := [
  .set (.var .jTemp) (.mul (.mul (.div (.num 1 0) (.rd (.var .T))) (.sub (.add (.mul (.sub (.rd (.arr .fwd 216)) (.rd (.arr .rev 214))) (.div (.num 3673502823471887 12) (.rd (.var .T)))) (.mul (.rd (.arr .fwd 216)) (.neg (.num 1 0)))) (.mul (.rd (.arr .rev 214)) (.mul (.neg (.rd (.var .T))) (.sub (.sub (.rd (.arr .dBdT 43)) (.rd (.arr .dBdT 39))) (.rd (.arr .dBdT 20))))))) (.rd (.var .rhoInv))),
  .set (.arr .jac 44) (.add (.rd (.arr .jac 44)) (.mul (.rd (.var .jTemp)) (.num 14127673999999999 14))),
  .set (.arr .jac 21) (.add (.rd (.arr .jac 21)) (.mul (.neg (.rd (.var .jTemp))) (.num 28053759999999997 15))),
  .set (.arr .jac 40) (.add (.rd (.arr .jac 40)) (.mul (.neg (.rd (.var .jTemp))) (.num 11322297999999999 14)))]

/-- utilities/mechanisms/yao/lib/src/jacobs/jacob_5.c:3656-3661 -/
def jacobT217 : List CStmt := [
  .set (.var .jTemp) (.mul (.mul (.div (.num 1 0) (.rd (.var .T))) (.sub (.mul (.sub (.rd (.arr .fwd 217)) (.rd (.arr .rev 215))) (.div (.num 35696835950457928 12) (.rd (.var .T)))) (.mul (.rd (.arr .rev 215)) (.add (.neg (.num 1 0)) (.mul (.neg (.rd (.var .T))) (.sub (.add (.rd (.arr .dBdT 31)) (.rd (.arr .dBdT 37))) (.rd (.arr .dBdT 48)))))))) (.rd (.var .rhoInv))),
  .set (.arr .jac 49) (.mul (.neg (.rd (.var .jTemp))) (.num 16832256000000001 14)),
  .set (.arr .jac 38) (.add (.rd (.arr .jac 38)) (.mul (.rd (.var .jTemp)) (.num 99196100000000001 15))),
  .set (.arr .jac 32) (.add (.rd (.arr .jac 32)) (.mul (.rd (.var .jTemp)) (.num 69126459999999994 15)))]

/-- utilities/mechanisms/yao/lib/src/jacobs/jacob_5.c:3845-3850 -/
def jacobT218 : List CStmt := [
  .set (.var .jTemp) (.mul (.mul (.div (.num 1 0) (.rd (.var .T))) (.sub (.add (.mul (.sub (.rd (.arr .fwd 218)) (.rd (.arr .rev 216))) (.div (.num 3673502823471887 12) (.rd (.var .T)))) (.mul (.rd (.arr .fwd 218)) (.neg (.num 1 0)))) (.mul (.rd (.arr .rev 216)) (.mul (.neg (.rd (.var .T))) (.sub (.sub (.rd (.arr .dBdT 45)) (.rd (.arr .dBdT 20))) (.rd (.arr .dBdT 43))))))) (.rd (.var .rhoInv))),
  .set (.arr .jac 44) (.add (.rd (.arr .jac 44)) (.mul (.neg (.rd (.var .jTemp))) (.num 14127673999999999 14))),
  .set (.arr .jac 21) (.add (.rd (.arr .jac 21)) (.mul (.neg (.rd (.var .jTemp))) (.num 28053759999999997 15))),
  .set (.arr .jac 46) (.mul (.rd (.var .jTemp)) (.num 1693305 4))]

/-- utilities/mechanisms/yao/lib/src/jacobs/jacob_5.c:4028-4032 -/
def jacobT219 : List CStmt := [
  .set (.var .jTemp) (.mul (.mul (.div (.num 1 0) (.rd (.var .T))) (.sub (.mul (.sub (.rd (.arr .fwd 219)) (.rd (.arr .rev 217))) (.add (.neg (.num 59999999999999998 17)) (.div (.num 72463617339719422 13) (.rd (.var .T))))) (.mul (.rd (.arr .rev 217)) (.mul (.neg (.rd (.var .T))) (.sub (.rd (.arr .dBdT 47)) (.rd (.arr .dBdT 45))))))) (.rd (.var .rhoInv))),
  .set (.arr .jac 46) (.add (.rd (.arr .jac 46)) (.mul (.neg (.rd (.var .jTemp))) (.num 1693305 4))),
  .set (.arr .jac 48) (.mul (.rd (.var .jTemp)) (.num 1693305 4))]

/-- utilities/mechanisms/yao/lib/src/jacobs/jacob_5.c:4157-4162 -/
def jacobT220 : List CStmt := [
  .set (.var .jTemp) (.mul (.mul (.div (.num 1 0) (.rd (.var .T))) (.sub (.add (.mul (.sub (.rd (.arr .fwd 220)) (.rd (.arr .rev 218))) (.div (.num 3673502823471887 12) (.rd (.var .T)))) (.mul (.rd (.arr .fwd 220)) (.neg (.num 1 0)))) (.mul (.rd (.arr .rev 218)) (.mul (.neg (.rd (.var .T))) (.sub (.sub (.rd (.arr .dBdT 46)) (.rd (.arr .dBdT 25))) (.rd (.arr .dBdT 41))))))) (.rd (.var .rhoInv))),
  .set (.arr .jac 26) (.add (.rd (.arr .jac 26)) (.mul (.neg (.rd (.var .jTemp))) (.num 42080640000000002 15))),
  .set (.arr .jac 47) (.mul (.rd (.var .jTemp)) (.num 1693305 4)),
  .set (.arr .jac 42) (.add (.rd (.arr .jac 42)) (.mul (.neg (.rd (.var .jTemp))) (.num 12724985999999998 14)))]

/-- utilities/mechanisms/yao/lib/src/jacobs/jacob_5.c:4346-4351 -/
def jacobT221 : List CStmt := [
  .set (.var .jTemp) (.mul (.mul (.div (.num 1 0) (.rd (.var .T))) (.sub (.add (.mul (.sub (.rd (.arr .fwd 221)) (.rd (.arr .rev 219))) (.div (.num 3673502823471887 12) (.rd (.var .T)))) (.mul (.rd (.arr .fwd 221)) (.neg (.num 1 0)))) (.mul (.rd (.arr .rev 219)) (.mul (.neg (.rd (.var .T))) (.sub (.sub (.rd (.arr .dBdT 46)) (.rd (.arr .dBdT 39))) (.rd (.arr .dBdT 29))))))) (.rd (.var .rhoInv))),
  .set (.arr .jac 30) (.add (.rd (.arr .jac 30)) (.mul (.neg (.rd (.var .jTemp))) (.num 56107519999999994 15))),
  .set (.arr .jac 47) (.add (.rd (.arr .jac 47)) (.mul (.rd (.var .jTemp)) (.num 1693305 4))),
  .set (.arr .jac 40) (.add (.rd (.arr .jac 40)) (.mul (.neg (.rd (.var .jTemp))) (.num 11322297999999999 14)))]

/-- utilities/mechanisms/yao/lib/src/jacobs/jacob_5.c:4535-4540 -/
def jacobT222 : List CStmt := [
  .set (.var .jTemp) (.mul (.mul (.div (.num 1 0) (.rd (.var .T))) (.sub (.add (.mul (.sub (.rd (.arr .fwd 222)) (.rd (.arr .rev 220))) (.div (.num 3673502823471887 12) (.rd (.var .T)))) (.mul (.rd (.arr .fwd 222)) (.neg (.num 1 0)))) (.mul (.rd (.arr .rev 220)) (.mul (.neg (.rd (.var .T))) (.sub (.sub (.rd (.arr .dBdT 47)) (.rd (.arr .dBdT 32))) (.rd (.arr .dBdT 37))))))) (.rd (.var .rhoInv))),
  .set (.arr .jac 33) (.add (.rd (.arr .jac 33)) (.mul (.neg (.rd (.var .jTemp))) (.num 70134399999999999 15))),
  .set (.arr .jac 38) (.add (.rd (.arr .jac 38)) (.mul (.neg (.rd (.var .jTemp))) (.num 99196100000000001 15))),
  .set (.arr .jac 48) (.add (.rd (.arr .jac 48)) (.mul (.rd (.var .jTemp)) (.num 1693305 4)))]

/-- utilities/mechanisms/yao/lib/src/jacobs/jacob_5.c:4724-4729 -/
def jacobT223 : List CStmt := [
  .set (.var .jTemp) (.mul (.mul (.div (.num 1 0) (.rd (.var .T))) (.sub (.add (.mul (.sub (.rd (.arr .fwd 223)) (.rd (.arr .rev 221))) (.div (.num 3673502823471887 12) (.rd (.var .T)))) (.mul (.rd (.arr .fwd 223)) (.neg (.num 1 0)))) (.mul (.rd (.arr .rev 221)) (.mul (.neg (.rd (.var .T))) (.sub (.sub (.rd (.arr .dBdT 47)) (.rd (.arr .dBdT 42))) (.rd (.arr .dBdT 21))))))) (.rd (.var .rhoInv))),
  .set (.arr .jac 43) (.add (.rd (.arr .jac 43)) (.mul (.neg (.rd (.var .jTemp))) (.num 1402688 4))),
  .set (.arr .jac 22) (.add (.rd (.arr .jac 22)) (.mul (.neg (.rd (.var .jTemp))) (.num 29061699999999998 15))),
  .set (.arr .jac 48) (.add (.rd (.arr .jac 48)) (.mul (.rd (.var .jTemp)) (.num 1693305 4)))]

/-- utilities/mechanisms/yao/lib/src/jacobs/jacob_5.c:4913-4918 -/
def jacobT224 : List CStmt := [
  .set (.var .jTemp) (.mul (.mul (.div (.num 1 0) (.rd (.var .T))) (.sub (.add (.mul (.sub (.rd (.arr .fwd 224)) (.rd (.arr .rev 222))) (.div (.num 3673502823471887 12) (.rd (.var .T)))) (.mul (.rd (.arr .fwd 224)) (.neg (.num 1 0)))) (.mul (.rd (.arr .rev 222)) (.mul (.neg (.rd (.var .T))) (.sub (.sub (.rd (.arr .dBdT 47)) (.rd (.arr .dBdT 34))) (.rd (.arr .dBdT 35))))))) (.rd (.var .rhoInv))),
  .set (.arr .jac 35) (.add (.rd (.arr .jac 35)) (.mul (.neg (.rd (.var .jTemp))) (.num 84161280000000005 15))),
  .set (.arr .jac 36) (.add (.rd (.arr .jac 36)) (.mul (.neg (.rd (.var .jTemp))) (.num 85169219999999996 15))),
  .set (.arr .jac 48) (.add (.rd (.arr .jac 48)) (.mul (.rd (.var .jTemp)) (.num 1693305 4)))]

/-- utilities/mechanisms/yao/lib/src/jacobs/jacob_5.c:5102-5107 -/
def jacobT225 : List CStmt := [
  .set (.var .jTemp) (.mul (.mul (.div (.num 1 0) (.rd (.var .T))) (.sub (.add (.mul (.sub (.rd (.arr .fwd 225)) (.rd (.arr .rev 223))) (.div (.num 3673502823471887 12) (.rd (.var .T)))) (.mul (.rd (.arr .fwd 225)) (.neg (.num 1 0)))) (.mul (.rd (.arr .rev 223)) (.mul (.neg (.rd (.var .T))) (.sub (.sub (.rd (.arr .dBdT 47)) (.rd (.arr .dBdT 26))) (.rd (.arr .dBdT 40))))))) (.rd (.var .rhoInv))),
  .set (.arr .jac 41) (.add (.rd (.arr .jac 41)) (.mul (.neg (.rd (.var .jTemp))) (.num 12624191999999999 14))),
  .set (.arr .jac 27) (.add (.rd (.arr .jac 27)) (.mul (.neg (.rd (.var .jTemp))) (.num 4308858 5))),
  .set (.arr .jac 48) (.add (.rd (.arr .jac 48)) (.mul (.rd (.var .jTemp)) (.num 1693305 4)))]

/-- utilities/mechanisms/yao/lib/src/jacobs/jacob_5.c:5291-5296 -/
def jacobT226 : List CStmt := [
  .set (.var .jTemp) (.mul (.mul (.div (.num 1 0) (.rd (.var .T))) (.sub (.add (.mul (.sub (.rd (.arr .fwd 226)) (.rd (.arr .rev 224))) (.div (.num 3673502823471887 12) (.rd (.var .T)))) (.mul (.rd (.arr .fwd 226)) (.neg (.num 1 0)))) (.mul (.rd (.arr .rev 224)) (.mul (.neg (.rd (.var .T))) (.sub (.sub (.rd (.arr .dBdT 47)) (.rd (.arr .dBdT 33))) (.rd (.arr .dBdT 36))))))) (.rd (.var .rhoInv))),
  .set (.arr .jac 34) (.add (.rd (.arr .jac 34)) (.mul (.neg (.rd (.var .jTemp))) (.num 7114233999999999 14))),
  .set (.arr .jac 37) (.add (.rd (.arr .jac 37)) (.mul (.neg (.rd (.var .jTemp))) (.num 98188159999999996 15))),
  .set (.arr .jac 48) (.add (.rd (.arr .jac 48)) (.mul (.rd (.var .jTemp)) (.num 1693305 4)))]

/-- utilities/mechanisms/yao/lib/src/jacobs/jacob_5.c:5480-5485 -/
def jacobT227 : List CStmt := [
  .set (.var .jTemp) (.mul (.mul (.div (.num 1 0) (.rd (.var .T))) (.sub (.add (.mul (.sub (.rd (.arr .fwd 227)) (.rd (.arr .rev 225))) (.div (.num 3673502823471887 12) (.rd (.var .T)))) (.mul (.rd (.arr .fwd 227)) (.neg (.num 1 0)))) (.mul (.rd (.arr .rev 225)) (.mul (.neg (.rd (.var .T))) (.sub (.sub (.rd (.arr .dBdT 47)) (.rd (.arr .dBdT 30))) (.rd (.arr .dBdT 38))))))) (.rd (.var .rhoInv))),
  .set (.arr .jac 39) (.add (.rd (.arr .jac 39)) (.mul (.neg (.rd (.var .jTemp))) (.num 11221503999999999 14))),
  .set (.arr .jac 31) (.add (.rd (.arr .jac 31)) (.mul (.neg (.rd (.var .jTemp))) (.num 57115459999999999 15))),
  .set (.arr .jac 48) (.add (.rd (.arr .jac 48)) (.mul (.rd (.var .jTemp)) (.num 1693305 4)))]

/-- utilities/mechanisms/yao/lib/src/jacobs/jacob_5.c:5669-5674 -/
def jacobT228 : List CStmt := [
  .set (.var .jTemp) (.mul (.mul (.div (.num 1 0) (.rd (.var .T))) (.sub (.add (.mul (.sub (.rd (.arr .fwd 228)) (.rd (.arr .rev 226))) (.neg (.num 5 1))) (.mul (.rd (.arr .fwd 228)) (.neg (.num 1 0)))) (.mul (.rd (.arr .rev 226)) (.mul (.neg (.rd (.var .T))) (.sub (.sub (.rd (.arr .dBdT 44)) (.rd (.arr .dBdT 21))) (.rd (.arr .dBdT 43))))))) (.rd (.var .rhoInv))),
  .set (.arr .jac 44) (.add (.rd (.arr .jac 44)) (.mul (.neg (.rd (.var .jTemp))) (.num 14127673999999999 14))),
  .set (.arr .jac 45) (.mul (.rd (.var .jTemp)) (.num 17033843999999999 14)),
  .set (.arr .jac 22) (.add (.rd (.arr .jac 22)) (.mul (.neg (.rd (.var .jTemp))) (.num 29061699999999998 15)))]

/-- utilities/mechanisms/yao/lib/src/jacobs/jacob_5.c:5858-5863 -/
def jacobT229 : List CStmt := [
  .set (.var .jTemp) (.mul (.mul (.div (.num 1 0) (.rd (.var .T))) (.sub (.add (.mul (.sub (.rd (.arr .fwd 229)) (.rd (.arr .rev 227))) (.neg (.num 5 1))) (.mul (.rd (.arr .fwd 229)) (.neg (.num 1 0)))) (.mul (.rd (.arr .rev 227)) (.mul (.neg (.rd (.var .T))) (.sub (.sub (.rd (.arr .dBdT 44)) (.rd (.arr .dBdT 26))) (.rd (.arr .dBdT 41))))))) (.rd (.var .rhoInv))),
  .set (.arr .jac 42) (.add (.rd (.arr .jac 42)) (.mul (.neg (.rd (.var .jTemp))) (.num 12724985999999998 14))),
  .set (.arr .jac 27) (.add (.rd (.arr .jac 27)) (.mul (.neg (.rd (.var .jTemp))) (.num 4308858 5))),
  .set (.arr .jac 45) (.add (.rd (.arr .jac 45)) (.mul (.rd (.var .jTemp)) (.num 17033843999999999 14)))]

/-- utilities/mechanisms/yao/lib/src/jacobs/jacob_5.c:6047-6052 -/
def jacobT230 : List CStmt := [
  .set (.var .jTemp) (.mul (.mul (.div (.num 1 0) (.rd (.var .T))) (.sub (.add (.mul (.sub (.rd (.arr .fwd 230)) (.rd (.arr .rev 228))) (.neg (.num 5 1))) (.mul (.rd (.arr .fwd 230)) (.neg (.num 1 0)))) (.mul (.rd (.arr .rev 228)) (.mul (.neg (.rd (.var .T))) (.sub (.sub (.rd (.arr .dBdT 44)) (.rd (.arr .dBdT 39))) (.rd (.arr .dBdT 30))))))) (.rd (.var .rhoInv))),
  .set (.arr .jac 45) (.add (.rd (.arr .jac 45)) (.mul (.rd (.var .jTemp)) (.num 17033843999999999 14))),
  .set (.arr .jac 31) (.add (.rd (.arr .jac 31)) (.mul (.neg (.rd (.var .jTemp))) (.num 57115459999999999 15))),
  .set (.arr .jac 40) (.add (.rd (.arr .jac 40)) (.mul (.neg (.rd (.var .jTemp))) (.num 11322297999999999 14)))]

/-- utilities/mechanisms/yao/lib/src/jacobs/jacob_5.c:6236-6241 -/
def jacobT231 : List CStmt := [
  .set (.var .jTemp) (.mul (.mul (.div (.num 1 0) (.rd (.var .T))) (.sub (.add (.mul (.sub (.rd (.arr .fwd 231)) (.rd (.arr .rev 229))) (.neg (.num 5 1))) (.mul (.rd (.arr .fwd 231)) (.neg (.num 1 0)))) (.mul (.rd (.arr .rev 229)) (.mul (.neg (.rd (.var .T))) (.sub (.sub (.rd (.arr .dBdT 44)) (.rd (.arr .dBdT 33))) (.rd (.arr .dBdT 37))))))) (.rd (.var .rhoInv))),
  .set (.arr .jac 34) (.add (.rd (.arr .jac 34)) (.mul (.neg (.rd (.var .jTemp))) (.num 7114233999999999 14))),
  .set (.arr .jac 45) (.add (.rd (.arr .jac 45)) (.mul (.rd (.var .jTemp)) (.num 17033843999999999 14))),
  .set (.arr .jac 38) (.add (.rd (.arr .jac 38)) (.mul (.neg (.rd (.var .jTemp))) (.num 99196100000000001 15)))]

/-- utilities/mechanisms/yao/lib/src/jacobs/jacob_5.c:6419-6423 -/
def jacobT232 : List CStmt := [
  .set (.var .jTemp) (.mul (.mul (.div (.num 1 0) (.rd (.var .T))) (.sub (.add (.mul (.sub (.rd (.arr .fwd 232)) (.rd (.arr .rev 230))) (.neg (.num 5 1))) (.mul (.rd (.arr .fwd 232)) (.neg (.num 1 0)))) (.mul (.rd (.arr .rev 230)) (.mul (.neg (.rd (.var .T))) (.sub (.rd (.arr .dBdT 44)) (.mul (.num 2 0) (.rd (.arr .dBdT 35)))))))) (.rd (.var .rhoInv))),
  .set (.arr .jac 36) (.add (.rd (.arr .jac 36)) (.mul (.mul (.rd (.var .jTemp)) (.neg (.num 2 0))) (.num 85169219999999996 15))),
  .set (.arr .jac 45) (.add (.rd (.arr .jac 45)) (.mul (.rd (.var .jTemp)) (.num 17033843999999999 14)))]

/-- utilities/mechanisms/yao/lib/src/jacobs/jacob_5.c:6548-6554 -/
def jacobT233 : List CStmt := [
  .set (.var .jTemp) (.mul (.mul (.div (.num 1 0) (.rd (.var .T))) (.sub (.add (.mul (.sub (.rd (.arr .fwd 233)) (.rd (.arr .rev 231))) (.add (.num 254 2) (.div (.num 33997513801885029 13) (.rd (.var .T))))) (.mul (.rd (.arr .fwd 233)) (.neg (.num 1 0)))) (.mul (.rd (.arr .rev 231)) (.add (.neg (.num 1 0)) (.mul (.neg (.rd (.var .T))) (.sub (.sub (.add (.rd (.arr .dBdT 5)) (.rd (.arr .dBdT 45))) (.rd (.arr .dBdT 1))) (.rd (.arr .dBdT 44)))))))) (.rd (.var .rhoInv))),
  .set (.arr .jac 2) (.add (.rd (.arr .jac 2)) (.mul (.neg (.rd (.var .jTemp))) (.num 10079400000000001 16))),
  .set (.arr .jac 45) (.add (.rd (.arr .jac 45)) (.mul (.neg (.rd (.var .jTemp))) (.num 17033843999999999 14))),
  .set (.arr .jac 6) (.add (.rd (.arr .jac 6)) (.mul (.rd (.var .jTemp)) (.num 20158800000000001 16))),
  .set (.arr .jac 46) (.add (.rd (.arr .jac 46)) (.mul (.rd (.var .jTemp)) (.num 1693305 4)))]

/-- utilities/mechanisms/yao/lib/src/jacobs/jacob_5.c:6791-6797 -/
def jacobT234 : List CStmt := [
  .set (.var .jTemp) (.mul (.mul (.div (.num 1 0) (.rd (.var .T))) (.sub (.add (.mul (.sub (.rd (.arr .fwd 234)) (.rd (.arr .rev 232))) (.add (.num 23999999999999999 16) (.div (.num 2249894674485316 12) (.rd (.var .T))))) (.mul (.rd (.arr .fwd 234)) (.neg (.num 1 0)))) (.mul (.rd (.arr .rev 232)) (.add (.neg (.num 1 0)) (.mul (.neg (.rd (.var .T))) (.sub (.sub (.add (.rd (.arr .dBdT 5)) (.rd (.arr .dBdT 46))) (.rd (.arr .dBdT 1))) (.rd (.arr .dBdT 44)))))))) (.rd (.var .rhoInv))),
  .set (.arr .jac 2) (.add (.rd (.arr .jac 2)) (.mul (.neg (.rd (.var .jTemp))) (.num 10079400000000001 16))),
  .set (.arr .jac 45) (.add (.rd (.arr .jac 45)) (.mul (.neg (.rd (.var .jTemp))) (.num 17033843999999999 14))),
  .set (.arr .jac 6) (.add (.rd (.arr .jac 6)) (.mul (.rd (.var .jTemp)) (.num 20158800000000001 16))),
  .set (.arr .jac 47) (.add (.rd (.arr .jac 47)) (.mul (.rd (.var .jTemp)) (.num 1693305 4)))]

/-- utilities/mechanisms/yao/lib/src/jacobs/jacob_5.c:7034-7040 -/
def jacobT235 : List CStmt := [
  .set (.var .jTemp) (.mul (.mul (.div (.num 1 0) (.rd (.var .T))) (.sub (.add (.mul (.sub (.rd (.arr .fwd 235)) (.rd (.arr .rev 233))) (.add (.num 23999999999999999 16) (.div (.num 2249894674485316 12) (.rd (.var .T))))) (.mul (.rd (.arr .fwd 235)) (.neg (.num 1 0)))) (.mul (.rd (.arr .rev 233)) (.add (.neg (.num 1 0)) (.mul (.neg (.rd (.var .T))) (.sub (.sub (.add (.rd (.arr .dBdT 5)) (.rd (.arr .dBdT 47))) (.rd (.arr .dBdT 1))) (.rd (.arr .dBdT 44)))))))) (.rd (.var .rhoInv))),
  .set (.arr .jac 2) (.add (.rd (.arr .jac 2)) (.mul (.neg (.rd (.var .jTemp))) (.num 10079400000000001 16))),
  .set (.arr .jac 45) (.add (.rd (.arr .jac 45)) (.mul (.neg (.rd (.var .jTemp))) (.num 17033843999999999 14))),
  .set (.arr .jac 6) (.add (.rd (.arr .jac 6)) (.mul (.rd (.var .jTemp)) (.num 20158800000000001 16))),
  .set (.arr .jac 48) (.add (.rd (.arr .jac 48)) (.mul (.rd (.var .jTemp)) (.num 1693305 4)))]

/-- utilities/mechanisms/yao/lib/src/jacobs/jacob_5.c:7277-7283 -/
def jacobT236 : List CStmt := [
  .set (.var .jTemp) (.mul (.mul (.div (.num 1 0) (.rd (.var .T))) (.sub (.add (.mul (.sub (.rd (.arr .fwd 236)) (.rd (.arr .rev 234))) (.add (.num 26800000000000002 16) (.div (.num 18699639030166484 13) (.rd (.var .T))))) (.mul (.rd (.arr .fwd 236)) (.neg (.num 1 0)))) (.mul (.rd (.arr .rev 234)) (.add (.neg (.num 1 0)) (.mul (.neg (.rd (.var .T))) (.sub (.sub (.add (.rd (.arr .dBdT 45)) (.rd (.arr .dBdT 3))) (.rd (.arr .dBdT 44))) (.rd (.arr .dBdT 2)))))))) (.rd (.var .rhoInv))),
  .set (.arr .jac 3) (.add (.rd (.arr .jac 3)) (.mul (.neg (.rd (.var .jTemp))) (.num 159994 4))),
  .set (.arr .jac 4) (.add (.rd (.arr .jac 4)) (.mul (.rd (.var .jTemp)) (.num 17007339999999999 15))),
  .set (.arr .jac 45) (.add (.rd (.arr .jac 45)) (.mul (.neg (.rd (.var .jTemp))) (.num 17033843999999999 14))),
  .set (.arr .jac 46) (.add (.rd (.arr .jac 46)) (.mul (.rd (.var .jTemp)) (.num 1693305 4)))]

/-- utilities/mechanisms/yao/lib/src/jacobs/jacob_5.c:7520-7526 -/
def jacobT237 : List CStmt := [
  .set (.var .jTemp) (.mul (.mul (.div (.num 1 0) (.rd (.var .T))) (.sub (.add (.mul (.sub (.rd (.arr .fwd 237)) (.rd (.arr .rev 235))) (.add (.num 271 2) (.div (.num 10597804035933966 13) (.rd (.var .T))))) (.mul (.rd (.arr .fwd 237)) (.neg (.num 1 0)))) (.mul (.rd (.arr .rev 235)) (.add (.neg (.num 1 0)) (.mul (.neg (.rd (.var .T))) (.sub (.sub (.add (.rd (.arr .dBdT 46)) (.rd (.arr .dBdT 3))) (.rd (.arr .dBdT 44))) (.rd (.arr .dBdT 2)))))))) (.rd (.var .rhoInv))),
  .set (.arr .jac 3) (.add (.rd (.arr .jac 3)) (.mul (.neg (.rd (.var .jTemp))) (.num 159994 4))),
  .set (.arr .jac 4) (.add (.rd (.arr .jac 4)) (.mul (.rd (.var .jTemp)) (.num 17007339999999999 15))),
  .set (.arr .jac 45) (.add (.rd (.arr .jac 45)) (.mul (.neg (.rd (.var .jTemp))) (.num 17033843999999999 14))),
  .set (.arr .jac 47) (.add (.rd (.arr .jac 47)) (.mul (.rd (.var .jTemp)) (.num 1693305 4)))]

/-- utilities/mechanisms/yao/lib/src/jacobs/jacob_5.c:7763-7769 -/
def jacobT238 : List CStmt := [
  .set (.var .jTemp) (.mul (.mul (.div (.num 1 0) (.rd (.var .T))) (.sub (.add (.mul (.sub (.rd (.arr .fwd 238)) (.rd (.arr .rev 236))) (.add (.num 271 2) (.div (.num 10597804035933966 13) (.rd (.var .T))))) (.mul (.rd (.arr .fwd 238)) (.neg (.num 1 0)))) (.mul (.rd (.arr .rev 236)) (.add (.neg (.num 1 0)) (.mul (.neg (.rd (.var .T))) (.sub (.sub (.add (.rd (.arr .dBdT 47)) (.rd (.arr .dBdT 3))) (.rd (.arr .dBdT 44))) (.rd (.arr .dBdT 2)))))))) (.rd (.var .rhoInv))),
  .set (.arr .jac 3) (.add (.rd (.arr .jac 3)) (.mul (.neg (.rd (.var .jTemp))) (.num 159994 4))),
  .set (.arr .jac 4) (.add (.rd (.arr .jac 4)) (.mul (.rd (.var .jTemp)) (.num 17007339999999999 15))),
  .set (.arr .jac 45) (.add (.rd (.arr .jac 45)) (.mul (.neg (.rd (.var .jTemp))) (.num 17033843999999999 14))),
  .set (.arr .jac 48) (.add (.rd (.arr .jac 48)) (.mul (.rd (.var .jTemp)) (.num 1693305 4)))]

/-- utilities/mechanisms/yao/lib/src/jacobs/jacob_5.c:8006-8012 -/
def jacobT239 : List CStmt := [
  .set (.var .jTemp) (.mul (.mul (.div (.num 1 0) (.rd (.var .T))) (.sub (.add (.mul (.sub (.rd (.arr .fwd 239)) (.rd (.arr .rev 237))) (.add (.num 26600000000000001 16) (.div (.num 26519671068077872 14) (.rd (.var .T))))) (.mul (.rd (.arr .fwd 239)) (.neg (.num 1 0)))) (.mul (.rd (.arr .rev 237)) (.add (.neg (.num 1 0)) (.mul (.neg (.rd (.var .T))) (.sub (.sub (.add (.rd (.arr .dBdT 6)) (.rd (.arr .dBdT 45))) (.rd (.arr .dBdT 44))) (.rd (.arr .dBdT 3)))))))) (.rd (.var .rhoInv))),
  .set (.arr .jac 4) (.add (.rd (.arr .jac 4)) (.mul (.neg (.rd (.var .jTemp))) (.num 17007339999999999 15))),
  .set (.arr .jac 45) (.add (.rd (.arr .jac 45)) (.mul (.neg (.rd (.var .jTemp))) (.num 17033843999999999 14))),
  .set (.arr .jac 46) (.add (.rd (.arr .jac 46)) (.mul (.rd (.var .jTemp)) (.num 1693305 4))),
  .set (.arr .jac 7) (.add (.rd (.arr .jac 7)) (.mul (.rd (.var .jTemp)) (.num 18015280000000001 15)))]

/-- The derivatives with respect to the temperature in `eval_jacob_5`, one block per reaction, utilities/mechanisms/yao/lib/src/jacobs/jacob_5.c:5-8248. -/
def jacob5Blocks : List (List CStmt × List CStmt) := [
  (jacobT200, []), (jacobT201, []), (jacobT202, []), (jacobT203, []), (jacobT204, []), (jacobT205, []), (jacobT206, []), (jacobT207, []), (jacobT208, []), (jacobT209, []), (jacobT210, []), (jacobT211, []), (jacobT212, []), (jacobT213, []), (jacobT214, []), (jacobT215, []), (jacobT216, []), (jacobT217, []), (jacobT218, []), (jacobT219, []), (jacobT220, []), (jacobT221, []), (jacobT222, []), (jacobT223, []), (jacobT224, []), (jacobT225, []), (jacobT226, []), (jacobT227, []), (jacobT228, []), (jacobT229, []), (jacobT230, []), (jacobT231, []), (jacobT232, []), (jacobT233, []), (jacobT234, []), (jacobT235, []), (jacobT236, []), (jacobT237, []), (jacobT238, []), (jacobT239, [])]

end DLB.Mech.Yao
