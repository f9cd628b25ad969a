/- Generated by tools/gen_mechanisms.py from utilities/mechanisms/gri30/lib/src/jacobs/jacob_1.c. Do not edit. -/
import Verif.Model.CLang
set_option autoImplicit false
set_option maxRecDepth 1000000

namespace DLB.Mech.Gri30
open DLB

/-- utilities/mechanisms/gri30/lib/src/jacobs/jacob_1.c:5-17 -/
def jacob1Start : List CStmt := [
  .set (.var .logT) (.log (.rd (.var .T))),
  .set (.var .kf) (.num 0 0),
  .set (.var .jTemp) (.num 0 0),
  .set (.var .presModTemp) (.num 0 0),
  .set (.var .Kc) (.num 0 0),
  .set (.var .kr) (.num 0 0),
  .set (.var .Pr) (.num 0 0),
  .set (.var .Fcent) (.num 0 0),
  .set (.var .A) (.num 0 0),
  .set (.var .B) (.num 0 0),
  .set (.var .lnFAB) (.num 0 0),
  .set (.var .rhoInv) (.div (.num 1 0) (.rd (.var .rho)))]

/-- utilities/mechanisms/gri30/lib/src/jacobs/jacob_1.c:18-22 -/
def jacobT40 : List CStmt := [
  .set (.var .jTemp) (.mul (.mul (.div (.num 1 0) (.rd (.var .T))) (.sub (.add (.mul (.sub (.rd (.arr .fwd 40)) (.rd (.arr .rev 40))) (.neg (.num 125 2))) (.mul (.rd (.arr .fwd 40)) (.neg (.num 2 0)))) (.mul (.rd (.arr .rev 40)) (.add (.neg (.num 1 0)) (.mul (.neg (.rd (.var .T))) (.sub (.rd (.arr .dBdT 0)) (.mul (.num 2 0) (.rd (.arr .dBdT 1))))))))) (.rd (.var .rhoInv))),
  .set (.arr .jac 1) (.add (.rd (.arr .jac 1)) (.mul (.rd (.var .jTemp)) (.num 20158800000000001 16))),
  .set (.arr .jac 2) (.add (.rd (.arr .jac 2)) (.mul (.mul (.rd (.var .jTemp)) (.neg (.num 2 0))) (.num 10079400000000001 16)))]

/-- utilities/mechanisms/gri30/lib/src/jacobs/jacob_1.c:139-143 -/
def jacobT41 : List CStmt := [
  .set (.var .jTemp) (.mul (.mul (.div (.num 1 0) (.rd (.var .T))) (.sub (.add (.mul (.sub (.rd (.arr .fwd 41)) (.rd (.arr .rev 41))) (.neg (.num 2 0))) (.mul (.rd (.arr .fwd 41)) (.neg (.num 2 0)))) (.mul (.rd (.arr .rev 41)) (.add (.neg (.num 1 0)) (.mul (.neg (.rd (.var .T))) (.sub (.rd (.arr .dBdT 0)) (.mul (.num 2 0) (.rd (.arr .dBdT 1))))))))) (.rd (.var .rhoInv))),
  .set (.arr .jac 1) (.add (.rd (.arr .jac 1)) (.mul (.rd (.var .jTemp)) (.num 20158800000000001 16))),
  .set (.arr .jac 2) (.add (.rd (.arr .jac 2)) (.mul (.mul (.rd (.var .jTemp)) (.neg (.num 2 0))) (.num 10079400000000001 16)))]

/-- utilities/mechanisms/gri30/lib/src/jacobs/jacob_1.c:260-265 -/
def jacobT42 : List CStmt := [
  .set (.var .jTemp) (.mul (.add (.div (.mul (.neg (.rd (.arr .presMod 5))) (.sub (.rd (.arr .fwd 42)) (.rd (.arr .rev 42)))) (.rd (.var .T))) (.mul (.div (.rd (.arr .presMod 5)) (.rd (.var .T))) (.sub (.add (.mul (.sub (.rd (.arr .fwd 42)) (.rd (.arr .rev 42))) (.neg (.num 2 0))) (.mul (.rd (.arr .fwd 42)) (.neg (.num 1 0)))) (.mul (.rd (.arr .rev 42)) (.mul (.neg (.rd (.var .T))) (.sub (.sub (.rd (.arr .dBdT 5)) (.rd (.arr .dBdT 1))) (.rd (.arr .dBdT 4)))))))) (.rd (.var .rhoInv))),
  .set (.arr .jac 2) (.add (.rd (.arr .jac 2)) (.mul (.neg (.rd (.var .jTemp))) (.num 10079400000000001 16))),
  .set (.arr .jac 5) (.add (.rd (.arr .jac 5)) (.mul (.neg (.rd (.var .jTemp))) (.num 17007339999999999 15))),
  .set (.arr .jac 6) (.mul (.rd (.var .jTemp)) (.num 18015280000000001 15))]

/-- utilities/mechanisms/gri30/lib/src/jacobs/jacob_1.c:435-441 -/
def jacobT43 : List CStmt := [
  .set (.var .jTemp) (.mul (.mul (.div (.num 1 0) (.rd (.var .T))) (.sub (.add (.mul (.sub (.rd (.arr .fwd 43)) (.rd (.arr .rev 43))) (.div (.num 33766032802049813 14) (.rd (.var .T)))) (.mul (.rd (.arr .fwd 43)) (.neg (.num 1 0)))) (.mul (.rd (.arr .rev 43)) (.add (.neg (.num 1 0)) (.mul (.neg (.rd (.var .T))) (.sub (.sub (.add (.rd (.arr .dBdT 5)) (.rd (.arr .dBdT 2))) (.rd (.arr .dBdT 1))) (.rd (.arr .dBdT 6)))))))) (.rd (.var .rhoInv))),
  .set (.arr .jac 2) (.add (.rd (.arr .jac 2)) (.mul (.neg (.rd (.var .jTemp))) (.num 10079400000000001 16))),
  .set (.arr .jac 3) (.add (.rd (.arr .jac 3)) (.mul (.rd (.var .jTemp)) (.num 159994 4))),
  .set (.arr .jac 6) (.add (.rd (.arr .jac 6)) (.mul (.rd (.var .jTemp)) (.num 18015280000000001 15))),
  .set (.arr .jac 7) (.add (.rd (.arr .jac 7)) (.mul (.neg (.rd (.var .jTemp))) (.num 33006740000000001 15)))]

/-- utilities/mechanisms/gri30/lib/src/jacobs/jacob_1.c:662-668 -/
def jacobT44 : List CStmt := [
  .set (.var .jTemp) (.mul (.mul (.div (.num 1 0) (.rd (.var .T))) (.sub (.add (.mul (.sub (.rd (.arr .fwd 44)) (.rd (.arr .rev 44))) (.div (.num 5374384952695857 13) (.rd (.var .T)))) (.mul (.rd (.arr .fwd 44)) (.neg (.num 1 0)))) (.mul (.rd (.arr .rev 44)) (.add (.neg (.num 1 0)) (.mul (.neg (.rd (.var .T))) (.sub (.sub (.add (.rd (.arr .dBdT 0)) (.rd (.arr .dBdT 3))) (.rd (.arr .dBdT 1))) (.rd (.arr .dBdT 6)))))))) (.rd (.var .rhoInv))),
  .set (.arr .jac 1) (.add (.rd (.arr .jac 1)) (.mul (.rd (.var .jTemp)) (.num 20158800000000001 16))),
  .set (.arr .jac 2) (.add (.rd (.arr .jac 2)) (.mul (.neg (.rd (.var .jTemp))) (.num 10079400000000001 16))),
  .set (.arr .jac 4) (.add (.rd (.arr .jac 4)) (.mul (.rd (.var .jTemp)) (.num 31998799999999999 15))),
  .set (.arr .jac 7) (.add (.rd (.arr .jac 7)) (.mul (.neg (.rd (.var .jTemp))) (.num 33006740000000001 15)))]

/-- utilities/mechanisms/gri30/lib/src/jacobs/jacob_1.c:889-894 -/
def jacobT45 : List CStmt := [
  .set (.var .jTemp) (.mul (.mul (.div (.num 1 0) (.rd (.var .T))) (.sub (.add (.mul (.sub (.rd (.arr .fwd 45)) (.rd (.arr .rev 45))) (.div (.num 31954442368556829 14) (.rd (.var .T)))) (.mul (.rd (.arr .fwd 45)) (.neg (.num 1 0)))) (.mul (.rd (.arr .rev 45)) (.add (.neg (.num 1 0)) (.mul (.neg (.rd (.var .T))) (.sub (.sub (.mul (.num 2 0) (.rd (.arr .dBdT 4))) (.rd (.arr .dBdT 1))) (.rd (.arr .dBdT 6)))))))) (.rd (.var .rhoInv))),
  .set (.arr .jac 2) (.add (.rd (.arr .jac 2)) (.mul (.neg (.rd (.var .jTemp))) (.num 10079400000000001 16))),
  .set (.arr .jac 5) (.add (.rd (.arr .jac 5)) (.mul (.mul (.rd (.var .jTemp)) (.num 2 0)) (.num 17007339999999999 15))),
  .set (.arr .jac 7) (.add (.rd (.arr .jac 7)) (.mul (.neg (.rd (.var .jTemp))) (.num 33006740000000001 15)))]

/-- utilities/mechanisms/gri30/lib/src/jacobs/jacob_1.c:1063-1069 -/
def jacobT46 : List CStmt := [
  .set (.var .jTemp) (.mul (.mul (.div (.num 1 0) (.rd (.var .T))) (.sub (.add (.mul (.sub (.rd (.arr .fwd 46)) (.rd (.arr .rev 46))) (.add (.num 2 0) (.div (.num 26167417372676459 13) (.rd (.var .T))))) (.mul (.rd (.arr .fwd 46)) (.neg (.num 1 0)))) (.mul (.rd (.arr .rev 46)) (.add (.neg (.num 1 0)) (.mul (.neg (.rd (.var .T))) (.sub (.sub (.add (.rd (.arr .dBdT 0)) (.rd (.arr .dBdT 6))) (.rd (.arr .dBdT 1))) (.rd (.arr .dBdT 7)))))))) (.rd (.var .rhoInv))),
  .set (.arr .jac 1) (.add (.rd (.arr .jac 1)) (.mul (.rd (.var .jTemp)) (.num 20158800000000001 16))),
  .set (.arr .jac 2) (.add (.rd (.arr .jac 2)) (.mul (.neg (.rd (.var .jTemp))) (.num 10079400000000001 16))),
  .set (.arr .jac 7) (.add (.rd (.arr .jac 7)) (.mul (.rd (.var .jTemp)) (.num 33006740000000001 15))),
  .set (.arr .jac 8) (.add (.rd (.arr .jac 8)) (.mul (.neg (.rd (.var .jTemp))) (.num 34014679999999998 15)))]

/-- utilities/mechanisms/gri30/lib/src/jacobs/jacob_1.c:1290-1296 -/
def jacobT47 : List CStmt := [
  .set (.var .jTemp) (.mul (.mul (.div (.num 1 0) (.rd (.var .T))) (.sub (.add (.mul (.sub (.rd (.arr .fwd 47)) (.rd (.arr .rev 47))) (.div (.num 18115904334929855 13) (.rd (.var .T)))) (.mul (.rd (.arr .fwd 47)) (.neg (.num 1 0)))) (.mul (.rd (.arr .rev 47)) (.add (.neg (.num 1 0)) (.mul (.neg (.rd (.var .T))) (.sub (.sub (.add (.rd (.arr .dBdT 5)) (.rd (.arr .dBdT 4))) (.rd (.arr .dBdT 1))) (.rd (.arr .dBdT 7)))))))) (.rd (.var .rhoInv))),
  .set (.arr .jac 2) (.add (.rd (.arr .jac 2)) (.mul (.neg (.rd (.var .jTemp))) (.num 10079400000000001 16))),
  .set (.arr .jac 5) (.add (.rd (.arr .jac 5)) (.mul (.rd (.var .jTemp)) (.num 17007339999999999 15))),
  .set (.arr .jac 6) (.add (.rd (.arr .jac 6)) (.mul (.rd (.var .jTemp)) (.num 18015280000000001 15))),
  .set (.arr .jac 8) (.add (.rd (.arr .jac 8)) (.mul (.neg (.rd (.var .jTemp))) (.num 34014679999999998 15)))]

/-- utilities/mechanisms/gri30/lib/src/jacobs/jacob_1.c:1517-1523 -/
def jacobT48 : List CStmt := [
  .set (.var .jTemp) (.mul (.mul (.div (.num 1 0) (.rd (.var .T))) (.sub (.mul (.rd (.arr .fwd 48)) (.neg (.num 1 0))) (.mul (.rd (.arr .rev 48)) (.add (.neg (.num 1 0)) (.mul (.neg (.rd (.var .T))) (.sub (.sub (.add (.rd (.arr .dBdT 0)) (.rd (.arr .dBdT 8))) (.rd (.arr .dBdT 1))) (.rd (.arr .dBdT 9)))))))) (.rd (.var .rhoInv))),
  .set (.arr .jac 1) (.add (.rd (.arr .jac 1)) (.mul (.rd (.var .jTemp)) (.num 20158800000000001 16))),
  .set (.arr .jac 2) (.add (.rd (.arr .jac 2)) (.mul (.neg (.rd (.var .jTemp))) (.num 10079400000000001 16))),
  .set (.arr .jac 9) (.mul (.rd (.var .jTemp)) (.num 12010999999999999 15)),
  .set (.arr .jac 10) (.add (.rd (.arr .jac 10)) (.mul (.neg (.rd (.var .jTemp))) (.num 13018939999999999 15)))]

/-- utilities/mechanisms/gri30/lib/src/jacobs/jacob_1.c:1744-1755 -/
def jacobT49 : List CStmt := [
  .set (.var .concTemp) (.sub (.add (.add (.add (.add (.add (.add (.rd (.var .m)) (.mul (.num 1 0) (.rd (.arr .C 0)))) (.mul (.num 5 0) (.rd (.arr .C 5)))) (.mul (.num 1 0) (.rd (.arr .C 13)))) (.mul (.num 5 1) (.rd (.arr .C 14)))) (.mul (.num 1 0) (.rd (.arr .C 15)))) (.mul (.num 2 0) (.rd (.arr .C 26)))) (.mul (.num 3 1) (.rd (.arr .C 47)))),
  .set (.var .Pr) (.mul (.rd (.var .concTemp)) (.exp (.sub (.sub (.num 18970727080871637 15) (.mul (.num 276 2) (.rd (.var .logT)))) (.div (.num 80515130377466016 14) (.rd (.var .T)))))),
  .set (.var .Fcent) (.add (.add (.mul (.num 43799999999999994 17) (.exp (.div (.rd (.var .T)) (.neg (.num 91 0))))) (.mul (.num 56200000000000006 17) (.exp (.div (.rd (.var .T)) (.neg (.num 5836 0)))))) (.exp (.div (.neg (.num 8552 0)) (.rd (.var .T))))),
  .set (.var .A) (.sub (.sub (.log10 (.fmax (.rd (.var .Pr)) (.num 1 300))) (.mul (.num 67 2) (.log10 (.fmax (.rd (.var .Fcent)) (.num 1 300))))) (.num 4 1)),
  .set (.var .B) (.sub (.sub (.num 806 3) (.mul (.num 11762 4) (.log10 (.fmax (.rd (.var .Fcent)) (.num 1 300))))) (.mul (.num 14 2) (.log10 (.fmax (.rd (.var .Pr)) (.num 1 300))))),
  .set (.var .lnFAB) (.div (.mul (.mul (.num 2 0) (.log (.fmax (.rd (.var .Fcent)) (.num 1 300)))) (.rd (.var .A))) (.mul (.mul (.mul (.mul (.rd (.var .B)) (.rd (.var .B))) (.rd (.var .B))) (.add (.num 1 0) (.div (.mul (.rd (.var .A)) (.rd (.var .A))) (.mul (.rd (.var .B)) (.rd (.var .B)))))) (.add (.num 1 0) (.div (.mul (.rd (.var .A)) (.rd (.var .A))) (.mul (.rd (.var .B)) (.rd (.var .B))))))),
  .set (.var .jTemp) (.mul (.add (.mul (.mul (.rd (.arr .presMod 6)) (.sub (.add (.div (.sub (.add (.neg (.num 276 2)) (.div (.num 80515130377466016 14) (.rd (.var .T)))) (.num 1 0)) (.mul (.rd (.var .T)) (.add (.num 1 0) (.rd (.var .Pr))))) (.mul (.sub (.div (.num 1 0) (.mul (.rd (.var .Fcent)) (.add (.num 1 0) (.div (.mul (.rd (.var .A)) (.rd (.var .A))) (.mul (.rd (.var .B)) (.rd (.var .B))))))) (.div (.mul (.rd (.var .lnFAB)) (.add (.mul (.neg (.num 2909773028751787 16)) (.rd (.var .B))) (.mul (.num 51081716961460466 17) (.rd (.var .A))))) (.rd (.var .Fcent)))) (.add (.sub (.mul (.neg (.num 48131868131868127 19)) (.exp (.div (.rd (.var .T)) (.neg (.num 91 0))))) (.mul (.num 96298834818368749 21) (.exp (.div (.rd (.var .T)) (.neg (.num 5836 0)))))) (.mul (.div (.num 8552 0) (.mul (.rd (.var .T)) (.rd (.var .T)))) (.exp (.div (.neg (.num 8552 0)) (.rd (.var .T)))))))) (.div (.mul (.mul (.rd (.var .lnFAB)) (.add (.mul (.num 43429448190325176 17) (.rd (.var .B))) (.mul (.num 60801227466455256 18) (.rd (.var .A))))) (.sub (.add (.neg (.num 27599999999999998 16)) (.div (.num 80515130377466016 14) (.rd (.var .T)))) (.num 1 0))) (.rd (.var .T))))) (.sub (.rd (.arr .fwd 49)) (.rd (.arr .rev 49)))) (.mul (.div (.rd (.arr .presMod 6)) (.rd (.var .T))) (.sub (.mul (.rd (.arr .fwd 49)) (.neg (.num 1 0))) (.mul (.rd (.arr .rev 49)) (.mul (.neg (.rd (.var .T))) (.sub (.sub (.rd (.arr .dBdT 12)) (.rd (.arr .dBdT 1))) (.rd (.arr .dBdT 10)))))))) (.rd (.var .rhoInv))),
  .set (.arr .jac 2) (.add (.rd (.arr .jac 2)) (.mul (.neg (.rd (.var .jTemp))) (.num 10079400000000001 16))),
  .set (.arr .jac 11) (.add (.rd (.arr .jac 11)) (.mul (.neg (.rd (.var .jTemp))) (.num 14026879999999998 15))),
  .set (.arr .jac 13) (.add (.rd (.arr .jac 13)) (.mul (.rd (.var .jTemp)) (.num 1503482 5)))]

/-- utilities/mechanisms/gri30/lib/src/jacobs/jacob_1.c:1926-1932 -/
def jacobT50 : List CStmt := [
  .set (.var .jTemp) (.mul (.mul (.div (.num 1 0) (.rd (.var .T))) (.sub (.mul (.rd (.arr .fwd 50)) (.neg (.num 1 0))) (.mul (.rd (.arr .rev 50)) (.add (.neg (.num 1 0)) (.mul (.neg (.rd (.var .T))) (.sub (.sub (.add (.rd (.arr .dBdT 0)) (.rd (.arr .dBdT 9))) (.rd (.arr .dBdT 11))) (.rd (.arr .dBdT 1)))))))) (.rd (.var .rhoInv))),
  .set (.arr .jac 1) (.add (.rd (.arr .jac 1)) (.mul (.rd (.var .jTemp)) (.num 20158800000000001 16))),
  .set (.arr .jac 2) (.add (.rd (.arr .jac 2)) (.mul (.neg (.rd (.var .jTemp))) (.num 10079400000000001 16))),
  .set (.arr .jac 12) (.add (.rd (.arr .jac 12)) (.mul (.neg (.rd (.var .jTemp))) (.num 14026879999999998 15))),
  .set (.arr .jac 10) (.add (.rd (.arr .jac 10)) (.mul (.rd (.var .jTemp)) (.num 13018939999999999 15)))]

/-- utilities/mechanisms/gri30/lib/src/jacobs/jacob_1.c:2153-2164 -/
def jacobT51 : List CStmt := [
  .set (.var .concTemp) (.add (.rd (.var .concTemp)) (.mul (.num 1 0) (.rd (.arr .C 13)))),
  .set (.var .Pr) (.mul (.rd (.var .concTemp)) (.exp (.sub (.sub (.num 32870061872547048 15) (.mul (.num 4226 3) (.rd (.var .logT)))) (.div (.num 95813005149184551 14) (.rd (.var .T)))))),
  .set (.var .Fcent) (.add (.add (.mul (.num 21699999999999997 17) (.exp (.div (.rd (.var .T)) (.neg (.num 74 0))))) (.mul (.num 78300000000000003 17) (.exp (.div (.rd (.var .T)) (.neg (.num 2941 0)))))) (.exp (.div (.neg (.num 6964 0)) (.rd (.var .T))))),
  .set (.var .A) (.sub (.sub (.log10 (.fmax (.rd (.var .Pr)) (.num 1 300))) (.mul (.num 67 2) (.log10 (.fmax (.rd (.var .Fcent)) (.num 1 300))))) (.num 4 1)),
  .set (.var .B) (.sub (.sub (.num 806 3) (.mul (.num 11762 4) (.log10 (.fmax (.rd (.var .Fcent)) (.num 1 300))))) (.mul (.num 14 2) (.log10 (.fmax (.rd (.var .Pr)) (.num 1 300))))),
  .set (.var .lnFAB) (.div (.mul (.mul (.num 2 0) (.log (.fmax (.rd (.var .Fcent)) (.num 1 300)))) (.rd (.var .A))) (.mul (.mul (.mul (.mul (.rd (.var .B)) (.rd (.var .B))) (.rd (.var .B))) (.add (.num 1 0) (.div (.mul (.rd (.var .A)) (.rd (.var .A))) (.mul (.rd (.var .B)) (.rd (.var .B)))))) (.add (.num 1 0) (.div (.mul (.rd (.var .A)) (.rd (.var .A))) (.mul (.rd (.var .B)) (.rd (.var .B))))))),
  .set (.var .jTemp) (.mul (.add (.mul (.mul (.rd (.arr .presMod 7)) (.sub (.add (.div (.sub (.add (.neg (.num 4226 3)) (.div (.num 95813005149184551 14) (.rd (.var .T)))) (.num 1 0)) (.mul (.rd (.var .T)) (.add (.num 1 0) (.rd (.var .Pr))))) (.mul (.sub (.div (.num 1 0) (.mul (.rd (.var .Fcent)) (.add (.num 1 0) (.div (.mul (.rd (.var .A)) (.rd (.var .A))) (.mul (.rd (.var .B)) (.rd (.var .B))))))) (.div (.mul (.rd (.var .lnFAB)) (.add (.mul (.neg (.num 2909773028751787 16)) (.rd (.var .B))) (.mul (.num 51081716961460466 17) (.rd (.var .A))))) (.rd (.var .Fcent)))) (.add (.sub (.mul (.neg (.num 29324324324324319 19)) (.exp (.div (.rd (.var .T)) (.neg (.num 74 0))))) (.mul (.num 26623597415844952 20) (.exp (.div (.rd (.var .T)) (.neg (.num 2941 0)))))) (.mul (.div (.num 6964 0) (.mul (.rd (.var .T)) (.rd (.var .T)))) (.exp (.div (.neg (.num 6964 0)) (.rd (.var .T)))))))) (.div (.mul (.mul (.rd (.var .lnFAB)) (.add (.mul (.num 43429448190325176 17) (.rd (.var .B))) (.mul (.num 60801227466455256 18) (.rd (.var .A))))) (.sub (.add (.neg (.num 4226 3)) (.div (.num 95813005149184551 14) (.rd (.var .T)))) (.num 1 0))) (.rd (.var .T))))) (.sub (.rd (.arr .fwd 51)) (.rd (.arr .rev 51)))) (.mul (.div (.rd (.arr .presMod 7)) (.rd (.var .T))) (.sub (.add (.mul (.sub (.rd (.arr .fwd 51)) (.rd (.arr .rev 51))) (.add (.neg (.num 53400000000000003 17)) (.div (.num 26972568676451118 14) (.rd (.var .T))))) (.mul (.rd (.arr .fwd 51)) (.neg (.num 1 0)))) (.mul (.rd (.arr .rev 51)) (.mul (.neg (.rd (.var .T))) (.sub (.sub (.rd (.arr .dBdT 13)) (.rd (.arr .dBdT 1))) (.rd (.arr .dBdT 12)))))))) (.rd (.var .rhoInv))),
  .set (.arr .jac 2) (.add (.rd (.arr .jac 2)) (.mul (.neg (.rd (.var .jTemp))) (.num 10079400000000001 16))),
  .set (.arr .jac 13) (.add (.rd (.arr .jac 13)) (.mul (.neg (.rd (.var .jTemp))) (.num 1503482 5))),
  .set (.arr .jac 14) (.add (.rd (.arr .jac 14)) (.mul (.rd (.var .jTemp)) (.num 16042760000000001 15)))]

/-- utilities/mechanisms/gri30/lib/src/jacobs/jacob_1.c:2335-2341 -/
def jacobT52 : List CStmt := [
  .set (.var .jTemp) (.mul (.mul (.div (.num 1 0) (.rd (.var .T))) (.sub (.add (.mul (.sub (.rd (.arr .fwd 52)) (.rd (.arr .rev 52))) (.add (.num 16200000000000001 16) (.div (.num 5454900083073323 12) (.rd (.var .T))))) (.mul (.rd (.arr .fwd 52)) (.neg (.num 1 0)))) (.mul (.rd (.arr .rev 52)) (.add (.neg (.num 1 0)) (.mul (.neg (.rd (.var .T))) (.sub (.sub (.add (.rd (.arr .dBdT 0)) (.rd (.arr .dBdT 12))) (.rd (.arr .dBdT 1))) (.rd (.arr .dBdT 13)))))))) (.rd (.var .rhoInv))),
  .set (.arr .jac 1) (.add (.rd (.arr .jac 1)) (.mul (.rd (.var .jTemp)) (.num 20158800000000001 16))),
  .set (.arr .jac 2) (.add (.rd (.arr .jac 2)) (.mul (.neg (.rd (.var .jTemp))) (.num 10079400000000001 16))),
  .set (.arr .jac 13) (.add (.rd (.arr .jac 13)) (.mul (.rd (.var .jTemp)) (.num 1503482 5))),
  .set (.arr .jac 14) (.add (.rd (.arr .jac 14)) (.mul (.neg (.rd (.var .jTemp))) (.num 16042760000000001 15)))]

/-- utilities/mechanisms/gri30/lib/src/jacobs/jacob_1.c:2562-2573 -/
def jacobT53 : List CStmt := [
  .set (.var .concTemp) (.add (.rd (.var .concTemp)) (.mul (.neg (.num 1 0)) (.rd (.arr .C 13)))),
  .set (.var .Pr) (.mul (.rd (.var .concTemp)) (.exp (.sub (.sub (.num 21541306291345244 15) (.mul (.num 305 2) (.rd (.var .logT)))) (.div (.num 34470540192852638 14) (.rd (.var .T)))))),
  .set (.var .Fcent) (.add (.add (.mul (.num 21760000000000002 17) (.exp (.div (.rd (.var .T)) (.neg (.num 271 0))))) (.mul (.num 78239999999999998 17) (.exp (.div (.rd (.var .T)) (.neg (.num 2755 0)))))) (.exp (.div (.neg (.num 6570 0)) (.rd (.var .T))))),
  .set (.var .A) (.sub (.sub (.log10 (.fmax (.rd (.var .Pr)) (.num 1 300))) (.mul (.num 67 2) (.log10 (.fmax (.rd (.var .Fcent)) (.num 1 300))))) (.num 4 1)),
  .set (.var .B) (.sub (.sub (.num 806 3) (.mul (.num 11762 4) (.log10 (.fmax (.rd (.var .Fcent)) (.num 1 300))))) (.mul (.num 14 2) (.log10 (.fmax (.rd (.var .Pr)) (.num 1 300))))),
  .set (.var .lnFAB) (.div (.mul (.mul (.num 2 0) (.log (.fmax (.rd (.var .Fcent)) (.num 1 300)))) (.rd (.var .A))) (.mul (.mul (.mul (.mul (.rd (.var .B)) (.rd (.var .B))) (.rd (.var .B))) (.add (.num 1 0) (.div (.mul (.rd (.var .A)) (.rd (.var .A))) (.mul (.rd (.var .B)) (.rd (.var .B)))))) (.add (.num 1 0) (.div (.mul (.rd (.var .A)) (.rd (.var .A))) (.mul (.rd (.var .B)) (.rd (.var .B))))))),
  .set (.var .jTemp) (.mul (.add (.mul (.mul (.rd (.arr .presMod 8)) (.sub (.add (.div (.sub (.add (.neg (.num 305 2)) (.div (.num 34470540192852638 14) (.rd (.var .T)))) (.num 1 0)) (.mul (.rd (.var .T)) (.add (.num 1 0) (.rd (.var .Pr))))) (.mul (.sub (.div (.num 1 0) (.mul (.rd (.var .Fcent)) (.add (.num 1 0) (.div (.mul (.rd (.var .A)) (.rd (.var .A))) (.mul (.rd (.var .B)) (.rd (.var .B))))))) (.div (.mul (.rd (.var .lnFAB)) (.add (.mul (.neg (.num 2909773028751787 16)) (.rd (.var .B))) (.mul (.num 51081716961460466 17) (.rd (.var .A))))) (.rd (.var .Fcent)))) (.add (.sub (.mul (.neg (.num 80295202952029529 20)) (.exp (.div (.rd (.var .T)) (.neg (.num 271 0))))) (.mul (.num 28399274047186931 20) (.exp (.div (.rd (.var .T)) (.neg (.num 2755 0)))))) (.mul (.div (.num 6570 0) (.mul (.rd (.var .T)) (.rd (.var .T)))) (.exp (.div (.neg (.num 6570 0)) (.rd (.var .T)))))))) (.div (.mul (.mul (.rd (.var .lnFAB)) (.add (.mul (.num 43429448190325176 17) (.rd (.var .B))) (.mul (.num 60801227466455256 18) (.rd (.var .A))))) (.sub (.add (.neg (.num 30499999999999998 16)) (.div (.num 34470540192852638 14) (.rd (.var .T)))) (.num 1 0))) (.rd (.var .T))))) (.sub (.rd (.arr .fwd 53)) (.rd (.arr .rev 53)))) (.mul (.div (.rd (.arr .presMod 8)) (.rd (.var .T))) (.sub (.add (.mul (.sub (.rd (.arr .fwd 53)) (.rd (.arr .rev 53))) (.add (.num 47999999999999998 17) (.div (.neg (.num 1308370868633823 13)) (.rd (.var .T))))) (.mul (.rd (.arr .fwd 53)) (.neg (.num 1 0)))) (.mul (.rd (.arr .rev 53)) (.mul (.neg (.rd (.var .T))) (.sub (.sub (.rd (.arr .dBdT 17)) (.rd (.arr .dBdT 1))) (.rd (.arr .dBdT 16)))))))) (.rd (.var .rhoInv))),
  .set (.arr .jac 17) (.add (.rd (.arr .jac 17)) (.mul (.neg (.rd (.var .jTemp))) (.num 29018339999999998 15))),
  .set (.arr .jac 2) (.add (.rd (.arr .jac 2)) (.mul (.neg (.rd (.var .jTemp))) (.num 10079400000000001 16))),
  .set (.arr .jac 18) (.add (.rd (.arr .jac 18)) (.mul (.rd (.var .jTemp)) (.num 3002628 5)))]

/-- utilities/mechanisms/gri30/lib/src/jacobs/jacob_1.c:2744-2750 -/
def jacobT54 : List CStmt := [
  .set (.var .jTemp) (.mul (.mul (.div (.num 1 0) (.rd (.var .T))) (.sub (.mul (.rd (.arr .fwd 54)) (.neg (.num 1 0))) (.mul (.rd (.arr .rev 54)) (.add (.neg (.num 1 0)) (.mul (.neg (.rd (.var .T))) (.sub (.sub (.add (.rd (.arr .dBdT 0)) (.rd (.arr .dBdT 14))) (.rd (.arr .dBdT 1))) (.rd (.arr .dBdT 16)))))))) (.rd (.var .rhoInv))),
  .set (.arr .jac 17) (.add (.rd (.arr .jac 17)) (.mul (.neg (.rd (.var .jTemp))) (.num 29018339999999998 15))),
  .set (.arr .jac 2) (.add (.rd (.arr .jac 2)) (.mul (.neg (.rd (.var .jTemp))) (.num 10079400000000001 16))),
  .set (.arr .jac 15) (.add (.rd (.arr .jac 15)) (.mul (.rd (.var .jTemp)) (.num 28010399999999997 15))),
  .set (.arr .jac 1) (.add (.rd (.arr .jac 1)) (.mul (.rd (.var .jTemp)) (.num 20158800000000001 16)))]

/-- utilities/mechanisms/gri30/lib/src/jacobs/jacob_1.c:2971-2982 -/
def jacobT55 : List CStmt := [
  .set (.var .concTemp) (.add (.rd (.var .concTemp)) (.mul (.num 3 1) (.rd (.arr .C 47)))),
  .set (.var .Pr) (.mul (.rd (.var .concTemp)) (.exp (.sub (.sub (.num 39999149620793091 15) (.mul (.num 5274 3) (.rd (.var .logT)))) (.div (.num 14744333250373465 13) (.rd (.var .T)))))),
  .set (.var .Fcent) (.add (.add (.mul (.num 28129999999999999 17) (.exp (.div (.rd (.var .T)) (.neg (.num 10300000000000001 14))))) (.mul (.num 71870000000000001 17) (.exp (.div (.rd (.var .T)) (.neg (.num 1291 0)))))) (.exp (.div (.neg (.num 4160 0)) (.rd (.var .T))))),
  .set (.var .A) (.sub (.sub (.log10 (.fmax (.rd (.var .Pr)) (.num 1 300))) (.mul (.num 67 2) (.log10 (.fmax (.rd (.var .Fcent)) (.num 1 300))))) (.num 4 1)),
  .set (.var .B) (.sub (.sub (.num 806 3) (.mul (.num 11762 4) (.log10 (.fmax (.rd (.var .Fcent)) (.num 1 300))))) (.mul (.num 14 2) (.log10 (.fmax (.rd (.var .Pr)) (.num 1 300))))),
  .set (.var .lnFAB) (.div (.mul (.mul (.num 2 0) (.log (.fmax (.rd (.var .Fcent)) (.num 1 300)))) (.rd (.var .A))) (.mul (.mul (.mul (.mul (.rd (.var .B)) (.rd (.var .B))) (.rd (.var .B))) (.add (.num 1 0) (.div (.mul (.rd (.var .A)) (.rd (.var .A))) (.mul (.rd (.var .B)) (.rd (.var .B)))))) (.add (.num 1 0) (.div (.mul (.rd (.var .A)) (.rd (.var .A))) (.mul (.rd (.var .B)) (.rd (.var .B))))))),
  .set (.var .jTemp) (.mul (.add (.mul (.mul (.rd (.arr .presMod 9)) (.sub (.add (.div (.sub (.add (.neg (.num 5274 3)) (.div (.num 14744333250373465 13) (.rd (.var .T)))) (.num 1 0)) (.mul (.rd (.var .T)) (.add (.num 1 0) (.rd (.var .Pr))))) (.mul (.sub (.div (.num 1 0) (.mul (.rd (.var .Fcent)) (.add (.num 1 0) (.div (.mul (.rd (.var .A)) (.rd (.var .A))) (.mul (.rd (.var .B)) (.rd (.var .B))))))) (.div (.mul (.rd (.var .lnFAB)) (.add (.mul (.neg (.num 2909773028751787 16)) (.rd (.var .B))) (.mul (.num 51081716961460466 17) (.rd (.var .A))))) (.rd (.var .Fcent)))) (.add (.sub (.mul (.neg (.num 27310679611650479 19)) (.exp (.div (.rd (.var .T)) (.neg (.num 10300000000000001 14))))) (.mul (.num 55670023237800153 20) (.exp (.div (.rd (.var .T)) (.neg (.num 1291 0)))))) (.mul (.div (.num 4160 0) (.mul (.rd (.var .T)) (.rd (.var .T)))) (.exp (.div (.neg (.num 4160 0)) (.rd (.var .T)))))))) (.div (.mul (.mul (.rd (.var .lnFAB)) (.add (.mul (.num 43429448190325176 17) (.rd (.var .B))) (.mul (.num 60801227466455256 18) (.rd (.var .A))))) (.sub (.add (.neg (.num 5274 3)) (.div (.num 14744333250373465 13) (.rd (.var .T)))) (.num 1 0))) (.rd (.var .T))))) (.sub (.rd (.arr .fwd 55)) (.rd (.arr .rev 55)))) (.mul (.div (.rd (.arr .presMod 9)) (.rd (.var .T))) (.sub (.add (.mul (.sub (.rd (.arr .fwd 55)) (.rd (.arr .rev 55))) (.add (.num 45400000000000001 17) (.div (.num 18115904334929855 13) (.rd (.var .T))))) (.mul (.rd (.arr .fwd 55)) (.neg (.num 1 0)))) (.mul (.rd (.arr .rev 55)) (.mul (.neg (.rd (.var .T))) (.sub (.sub (.rd (.arr .dBdT 18)) (.rd (.arr .dBdT 17))) (.rd (.arr .dBdT 1)))))))) (.rd (.var .rhoInv))),
  .set (.arr .jac 18) (.add (.rd (.arr .jac 18)) (.mul (.neg (.rd (.var .jTemp))) (.num 3002628 5))),
  .set (.arr .jac 19) (.add (.rd (.arr .jac 19)) (.mul (.rd (.var .jTemp)) (.num 31034219999999998 15))),
  .set (.arr .jac 2) (.add (.rd (.arr .jac 2)) (.mul (.neg (.rd (.var .jTemp))) (.num 10079400000000001 16)))]

/-- utilities/mechanisms/gri30/lib/src/jacobs/jacob_1.c:3153-3163 -/
def jacobT56 : List CStmt := [
  .set (.var .Pr) (.mul (.rd (.var .concTemp)) (.exp (.sub (.sub (.num 35943419894698771 15) (.mul (.num 5254 3) (.rd (.var .logT)))) (.div (.num 14895299119831213 13) (.rd (.var .T)))))),
  .set (.var .Fcent) (.add (.add (.mul (.num 24199999999999999 17) (.exp (.div (.rd (.var .T)) (.neg (.num 94 0))))) (.mul (.num 75800000000000001 17) (.exp (.div (.rd (.var .T)) (.neg (.num 1555 0)))))) (.exp (.div (.neg (.num 4200 0)) (.rd (.var .T))))),
  .set (.var .A) (.sub (.sub (.log10 (.fmax (.rd (.var .Pr)) (.num 1 300))) (.mul (.num 67 2) (.log10 (.fmax (.rd (.var .Fcent)) (.num 1 300))))) (.num 4 1)),
  .set (.var .B) (.sub (.sub (.num 806 3) (.mul (.num 11762 4) (.log10 (.fmax (.rd (.var .Fcent)) (.num 1 300))))) (.mul (.num 14 2) (.log10 (.fmax (.rd (.var .Pr)) (.num 1 300))))),
  .set (.var .lnFAB) (.div (.mul (.mul (.num 2 0) (.log (.fmax (.rd (.var .Fcent)) (.num 1 300)))) (.rd (.var .A))) (.mul (.mul (.mul (.mul (.rd (.var .B)) (.rd (.var .B))) (.rd (.var .B))) (.add (.num 1 0) (.div (.mul (.rd (.var .A)) (.rd (.var .A))) (.mul (.rd (.var .B)) (.rd (.var .B)))))) (.add (.num 1 0) (.div (.mul (.rd (.var .A)) (.rd (.var .A))) (.mul (.rd (.var .B)) (.rd (.var .B))))))),
  .set (.var .jTemp) (.mul (.add (.mul (.mul (.rd (.arr .presMod 10)) (.sub (.add (.div (.sub (.add (.neg (.num 5254 3)) (.div (.num 14895299119831213 13) (.rd (.var .T)))) (.num 1 0)) (.mul (.rd (.var .T)) (.add (.num 1 0) (.rd (.var .Pr))))) (.mul (.sub (.div (.num 1 0) (.mul (.rd (.var .Fcent)) (.add (.num 1 0) (.div (.mul (.rd (.var .A)) (.rd (.var .A))) (.mul (.rd (.var .B)) (.rd (.var .B))))))) (.div (.mul (.rd (.var .lnFAB)) (.add (.mul (.neg (.num 2909773028751787 16)) (.rd (.var .B))) (.mul (.num 51081716961460466 17) (.rd (.var .A))))) (.rd (.var .Fcent)))) (.add (.sub (.mul (.neg (.num 25744680851063828 19)) (.exp (.div (.rd (.var .T)) (.neg (.num 94 0))))) (.mul (.num 48745980707395501 20) (.exp (.div (.rd (.var .T)) (.neg (.num 1555 0)))))) (.mul (.div (.num 4200 0) (.mul (.rd (.var .T)) (.rd (.var .T)))) (.exp (.div (.neg (.num 4200 0)) (.rd (.var .T)))))))) (.div (.mul (.mul (.rd (.var .lnFAB)) (.add (.mul (.num 43429448190325176 17) (.rd (.var .B))) (.mul (.num 60801227466455256 18) (.rd (.var .A))))) (.sub (.add (.neg (.num 52539999999999996 16)) (.div (.num 14895299119831213 13) (.rd (.var .T)))) (.num 1 0))) (.rd (.var .T))))) (.sub (.rd (.arr .fwd 56)) (.rd (.arr .rev 56)))) (.mul (.div (.rd (.arr .presMod 10)) (.rd (.var .T))) (.sub (.add (.mul (.sub (.rd (.arr .fwd 56)) (.rd (.arr .rev 56))) (.add (.num 45400000000000001 17) (.div (.num 1308370868633823 12) (.rd (.var .T))))) (.mul (.rd (.arr .fwd 56)) (.neg (.num 1 0)))) (.mul (.rd (.arr .rev 56)) (.mul (.neg (.rd (.var .T))) (.sub (.sub (.rd (.arr .dBdT 19)) (.rd (.arr .dBdT 17))) (.rd (.arr .dBdT 1)))))))) (.rd (.var .rhoInv))),
  .set (.arr .jac 18) (.add (.rd (.arr .jac 18)) (.mul (.neg (.rd (.var .jTemp))) (.num 3002628 5))),
  .set (.arr .jac 20) (.add (.rd (.arr .jac 20)) (.mul (.rd (.var .jTemp)) (.num 31034219999999998 15))),
  .set (.arr .jac 2) (.add (.rd (.arr .jac 2)) (.mul (.neg (.rd (.var .jTemp))) (.num 10079400000000001 16)))]

/-- utilities/mechanisms/gri30/lib/src/jacobs/jacob_1.c:3334-3340 -/
def jacobT57 : List CStmt := [
  .set (.var .jTemp) (.mul (.mul (.div (.num 1 0) (.rd (.var .T))) (.sub (.add (.mul (.sub (.rd (.arr .fwd 57)) (.rd (.arr .rev 57))) (.add (.num 18999999999999999 16) (.div (.num 1379828046843824 12) (.rd (.var .T))))) (.mul (.rd (.arr .fwd 57)) (.neg (.num 1 0)))) (.mul (.rd (.arr .rev 57)) (.add (.neg (.num 1 0)) (.mul (.neg (.rd (.var .T))) (.sub (.sub (.add (.rd (.arr .dBdT 0)) (.rd (.arr .dBdT 16))) (.rd (.arr .dBdT 17))) (.rd (.arr .dBdT 1)))))))) (.rd (.var .rhoInv))),
  .set (.arr .jac 1) (.add (.rd (.arr .jac 1)) (.mul (.rd (.var .jTemp)) (.num 20158800000000001 16))),
  .set (.arr .jac 18) (.add (.rd (.arr .jac 18)) (.mul (.neg (.rd (.var .jTemp))) (.num 3002628 5))),
  .set (.arr .jac 17) (.add (.rd (.arr .jac 17)) (.mul (.rd (.var .jTemp)) (.num 29018339999999998 15))),
  .set (.arr .jac 2) (.add (.rd (.arr .jac 2)) (.mul (.neg (.rd (.var .jTemp))) (.num 10079400000000001 16)))]

/-- utilities/mechanisms/gri30/lib/src/jacobs/jacob_1.c:3561-3571 -/
def jacobT58 : List CStmt := [
  .set (.var .Pr) (.mul (.rd (.var .concTemp)) (.exp (.sub (.sub (.num 38260292778337643 15) (.mul (.num 515 2) (.rd (.var .logT)))) (.div (.num 25130785069066583 13) (.rd (.var .T)))))),
  .set (.var .Fcent) (.add (.add (.mul (.num 40000000000000002 17) (.exp (.div (.rd (.var .T)) (.neg (.num 100 0))))) (.mul (.num 59999999999999998 17) (.exp (.div (.rd (.var .T)) (.neg (.num 90000 0)))))) (.exp (.div (.neg (.num 10000 0)) (.rd (.var .T))))),
  .set (.var .A) (.sub (.sub (.log10 (.fmax (.rd (.var .Pr)) (.num 1 300))) (.mul (.num 67 2) (.log10 (.fmax (.rd (.var .Fcent)) (.num 1 300))))) (.num 4 1)),
  .set (.var .B) (.sub (.sub (.num 806 3) (.mul (.num 11762 4) (.log10 (.fmax (.rd (.var .Fcent)) (.num 1 300))))) (.mul (.num 14 2) (.log10 (.fmax (.rd (.var .Pr)) (.num 1 300))))),
  .set (.var .lnFAB) (.div (.mul (.mul (.num 2 0) (.log (.fmax (.rd (.var .Fcent)) (.num 1 300)))) (.rd (.var .A))) (.mul (.mul (.mul (.mul (.rd (.var .B)) (.rd (.var .B))) (.rd (.var .B))) (.add (.num 1 0) (.div (.mul (.rd (.var .A)) (.rd (.var .A))) (.mul (.rd (.var .B)) (.rd (.var .B)))))) (.add (.num 1 0) (.div (.mul (.rd (.var .A)) (.rd (.var .A))) (.mul (.rd (.var .B)) (.rd (.var .B))))))),
  .set (.var .jTemp) (.mul (.add (.mul (.mul (.rd (.arr .presMod 11)) (.sub (.add (.div (.sub (.add (.neg (.num 515 2)) (.div (.num 25130785069066583 13) (.rd (.var .T)))) (.num 1 0)) (.mul (.rd (.var .T)) (.add (.num 1 0) (.rd (.var .Pr))))) (.mul (.sub (.div (.num 1 0) (.mul (.rd (.var .Fcent)) (.add (.num 1 0) (.div (.mul (.rd (.var .A)) (.rd (.var .A))) (.mul (.rd (.var .B)) (.rd (.var .B))))))) (.div (.mul (.rd (.var .lnFAB)) (.add (.mul (.neg (.num 2909773028751787 16)) (.rd (.var .B))) (.mul (.num 51081716961460466 17) (.rd (.var .A))))) (.rd (.var .Fcent)))) (.add (.sub (.mul (.neg (.num 40000000000000001 19)) (.exp (.div (.rd (.var .T)) (.neg (.num 100 0))))) (.mul (.num 66666666666666666 22) (.exp (.div (.rd (.var .T)) (.neg (.num 90000 0)))))) (.mul (.div (.num 10000 0) (.mul (.rd (.var .T)) (.rd (.var .T)))) (.exp (.div (.neg (.num 10000 0)) (.rd (.var .T)))))))) (.div (.mul (.mul (.rd (.var .lnFAB)) (.add (.mul (.num 43429448190325176 17) (.rd (.var .B))) (.mul (.num 60801227466455256 18) (.rd (.var .A))))) (.sub (.add (.neg (.num 51500000000000004 16)) (.div (.num 25130785069066583 13) (.rd (.var .T)))) (.num 1 0))) (.rd (.var .T))))) (.sub (.rd (.arr .fwd 58)) (.rd (.arr .rev 58)))) (.mul (.div (.rd (.arr .presMod 11)) (.rd (.var .T))) (.sub (.add (.mul (.sub (.rd (.arr .fwd 58)) (.rd (.arr .rev 58))) (.add (.num 5 1) (.div (.num 43276882577887989 15) (.rd (.var .T))))) (.mul (.rd (.arr .fwd 58)) (.neg (.num 1 0)))) (.mul (.rd (.arr .rev 58)) (.mul (.neg (.rd (.var .T))) (.sub (.sub (.rd (.arr .dBdT 20)) (.rd (.arr .dBdT 18))) (.rd (.arr .dBdT 1)))))))) (.rd (.var .rhoInv))),
  .set (.arr .jac 2) (.add (.rd (.arr .jac 2)) (.mul (.neg (.rd (.var .jTemp))) (.num 10079400000000001 16))),
  .set (.arr .jac 19) (.add (.rd (.arr .jac 19)) (.mul (.neg (.rd (.var .jTemp))) (.num 31034219999999998 15))),
  .set (.arr .jac 21) (.add (.rd (.arr .jac 21)) (.mul (.rd (.var .jTemp)) (.num 32042159999999996 15)))]

/-- utilities/mechanisms/gri30/lib/src/jacobs/jacob_1.c:3742-3748 -/
def jacobT59 : List CStmt := [
  .set (.var .jTemp) (.mul (.mul (.div (.num 1 0) (.rd (.var .T))) (.sub (.mul (.rd (.arr .fwd 59)) (.neg (.num 1 0))) (.mul (.rd (.arr .rev 59)) (.add (.neg (.num 1 0)) (.mul (.neg (.rd (.var .T))) (.sub (.sub (.add (.rd (.arr .dBdT 17)) (.rd (.arr .dBdT 0))) (.rd (.arr .dBdT 18))) (.rd (.arr .dBdT 1)))))))) (.rd (.var .rhoInv))),
  .set (.arr .jac 1) (.add (.rd (.arr .jac 1)) (.mul (.rd (.var .jTemp)) (.num 20158800000000001 16))),
  .set (.arr .jac 2) (.add (.rd (.arr .jac 2)) (.mul (.neg (.rd (.var .jTemp))) (.num 10079400000000001 16))),
  .set (.arr .jac 19) (.add (.rd (.arr .jac 19)) (.mul (.neg (.rd (.var .jTemp))) (.num 31034219999999998 15))),
  .set (.arr .jac 18) (.add (.rd (.arr .jac 18)) (.mul (.rd (.var .jTemp)) (.num 3002628 5)))]

/-- utilities/mechanisms/gri30/lib/src/jacobs/jacob_1.c:3969-3975 -/
def jacobT60 : List CStmt := [
  .set (.var .jTemp) (.mul (.mul (.div (.num 1 0) (.rd (.var .T))) (.sub (.add (.mul (.sub (.rd (.arr .fwd 60)) (.rd (.arr .rev 60))) (.add (.num 65000000000000002 17) (.div (.neg (.num 14291435642000218 14)) (.rd (.var .T))))) (.mul (.rd (.arr .fwd 60)) (.neg (.num 1 0)))) (.mul (.rd (.arr .rev 60)) (.add (.neg (.num 1 0)) (.mul (.neg (.rd (.var .T))) (.sub (.sub (.add (.rd (.arr .dBdT 12)) (.rd (.arr .dBdT 4))) (.rd (.arr .dBdT 18))) (.rd (.arr .dBdT 1)))))))) (.rd (.var .rhoInv))),
  .set (.arr .jac 2) (.add (.rd (.arr .jac 2)) (.mul (.neg (.rd (.var .jTemp))) (.num 10079400000000001 16))),
  .set (.arr .jac 19) (.add (.rd (.arr .jac 19)) (.mul (.neg (.rd (.var .jTemp))) (.num 31034219999999998 15))),
  .set (.arr .jac 13) (.add (.rd (.arr .jac 13)) (.mul (.rd (.var .jTemp)) (.num 1503482 5))),
  .set (.arr .jac 5) (.add (.rd (.arr .jac 5)) (.mul (.rd (.var .jTemp)) (.num 17007339999999999 15)))]

/-- utilities/mechanisms/gri30/lib/src/jacobs/jacob_1.c:4196-4202 -/
def jacobT61 : List CStmt := [
  .set (.var .jTemp) (.mul (.mul (.div (.num 1 0) (.rd (.var .T))) (.sub (.add (.mul (.sub (.rd (.arr .fwd 61)) (.rd (.arr .rev 61))) (.add (.neg (.num 89999999999999997 18)) (.div (.num 30696393456408919 14) (.rd (.var .T))))) (.mul (.rd (.arr .fwd 61)) (.neg (.num 1 0)))) (.mul (.rd (.arr .rev 61)) (.add (.neg (.num 1 0)) (.mul (.neg (.rd (.var .T))) (.sub (.sub (.add (.rd (.arr .dBdT 11)) (.rd (.arr .dBdT 5))) (.rd (.arr .dBdT 18))) (.rd (.arr .dBdT 1)))))))) (.rd (.var .rhoInv))),
  .set (.arr .jac 2) (.add (.rd (.arr .jac 2)) (.mul (.neg (.rd (.var .jTemp))) (.num 10079400000000001 16))),
  .set (.arr .jac 19) (.add (.rd (.arr .jac 19)) (.mul (.neg (.rd (.var .jTemp))) (.num 31034219999999998 15))),
  .set (.arr .jac 12) (.add (.rd (.arr .jac 12)) (.mul (.rd (.var .jTemp)) (.num 14026879999999998 15))),
  .set (.arr .jac 6) (.add (.rd (.arr .jac 6)) (.mul (.rd (.var .jTemp)) (.num 18015280000000001 15)))]

/-- utilities/mechanisms/gri30/lib/src/jacobs/jacob_1.c:4423-4433 -/
def jacobT62 : List CStmt := [
  .set (.var .Pr) (.mul (.rd (.var .concTemp)) (.exp (.sub (.sub (.num 60518336608630285 15) (.mul (.num 7955 3) (.rd (.var .logT)))) (.div (.num 70601704949740524 13) (.rd (.var .T)))))),
  .set (.var .Fcent) (.add (.add (.mul (.num 30000000000000004 17) (.exp (.div (.rd (.var .T)) (.neg (.num 100 0))))) (.mul (.num 69999999999999996 17) (.exp (.div (.rd (.var .T)) (.neg (.num 90000 0)))))) (.exp (.div (.neg (.num 10000 0)) (.rd (.var .T))))),
  .set (.var .A) (.sub (.sub (.log10 (.fmax (.rd (.var .Pr)) (.num 1 300))) (.mul (.num 67 2) (.log10 (.fmax (.rd (.var .Fcent)) (.num 1 300))))) (.num 4 1)),
  .set (.var .B) (.sub (.sub (.num 806 3) (.mul (.num 11762 4) (.log10 (.fmax (.rd (.var .Fcent)) (.num 1 300))))) (.mul (.num 14 2) (.log10 (.fmax (.rd (.var .Pr)) (.num 1 300))))),
  .set (.var .lnFAB) (.div (.mul (.mul (.num 2 0) (.log (.fmax (.rd (.var .Fcent)) (.num 1 300)))) (.rd (.var .A))) (.mul (.mul (.mul (.mul (.rd (.var .B)) (.rd (.var .B))) (.rd (.var .B))) (.add (.num 1 0) (.div (.mul (.rd (.var .A)) (.rd (.var .A))) (.mul (.rd (.var .B)) (.rd (.var .B)))))) (.add (.num 1 0) (.div (.mul (.rd (.var .A)) (.rd (.var .A))) (.mul (.rd (.var .B)) (.rd (.var .B))))))),
  .set (.var .jTemp) (.mul (.add (.mul (.mul (.rd (.arr .presMod 12)) (.sub (.add (.div (.sub (.add (.neg (.num 7955 3)) (.div (.num 70601704949740524 13) (.rd (.var .T)))) (.num 1 0)) (.mul (.rd (.var .T)) (.add (.num 1 0) (.rd (.var .Pr))))) (.mul (.sub (.div (.num 1 0) (.mul (.rd (.var .Fcent)) (.add (.num 1 0) (.div (.mul (.rd (.var .A)) (.rd (.var .A))) (.mul (.rd (.var .B)) (.rd (.var .B))))))) (.div (.mul (.rd (.var .lnFAB)) (.add (.mul (.neg (.num 2909773028751787 16)) (.rd (.var .B))) (.mul (.num 51081716961460466 17) (.rd (.var .A))))) (.rd (.var .Fcent)))) (.add (.sub (.mul (.neg (.num 30000000000000005 19)) (.exp (.div (.rd (.var .T)) (.neg (.num 100 0))))) (.mul (.num 77777777777777775 22) (.exp (.div (.rd (.var .T)) (.neg (.num 90000 0)))))) (.mul (.div (.num 10000 0) (.mul (.rd (.var .T)) (.rd (.var .T)))) (.exp (.div (.neg (.num 10000 0)) (.rd (.var .T)))))))) (.div (.mul (.mul (.rd (.var .lnFAB)) (.add (.mul (.num 43429448190325176 17) (.rd (.var .B))) (.mul (.num 60801227466455256 18) (.rd (.var .A))))) (.sub (.add (.neg (.num 79550000000000001 16)) (.div (.num 70601704949740524 13) (.rd (.var .T)))) (.num 1 0))) (.rd (.var .T))))) (.sub (.rd (.arr .fwd 62)) (.rd (.arr .rev 62)))) (.mul (.div (.rd (.arr .presMod 12)) (.rd (.var .T))) (.sub (.add (.mul (.sub (.rd (.arr .fwd 62)) (.rd (.arr .rev 62))) (.add (.num 51500000000000001 17) (.div (.num 2516097824295813 14) (.rd (.var .T))))) (.mul (.rd (.arr .fwd 62)) (.neg (.num 1 0)))) (.mul (.rd (.arr .rev 62)) (.mul (.neg (.rd (.var .T))) (.sub (.sub (.rd (.arr .dBdT 20)) (.rd (.arr .dBdT 1))) (.rd (.arr .dBdT 19)))))))) (.rd (.var .rhoInv))),
  .set (.arr .jac 2) (.add (.rd (.arr .jac 2)) (.mul (.neg (.rd (.var .jTemp))) (.num 10079400000000001 16))),
  .set (.arr .jac 20) (.add (.rd (.arr .jac 20)) (.mul (.neg (.rd (.var .jTemp))) (.num 31034219999999998 15))),
  .set (.arr .jac 21) (.add (.rd (.arr .jac 21)) (.mul (.rd (.var .jTemp)) (.num 32042159999999996 15)))]

/-- utilities/mechanisms/gri30/lib/src/jacobs/jacob_1.c:4604-4608 -/
def jacobT63 : List CStmt := [
  .set (.var .jTemp) (.mul (.mul (.div (.num 1 0) (.rd (.var .T))) (.sub (.add (.mul (.sub (.rd (.arr .fwd 63)) (.rd (.arr .rev 63))) (.add (.num 16299999999999999 16) (.div (.num 96819444278902893 14) (.rd (.var .T))))) (.mul (.rd (.arr .fwd 63)) (.neg (.num 1 0)))) (.mul (.rd (.arr .rev 63)) (.add (.neg (.num 1 0)) (.mul (.neg (.rd (.var .T))) (.sub (.rd (.arr .dBdT 18)) (.rd (.arr .dBdT 19)))))))) (.rd (.var .rhoInv))),
  .set (.arr .jac 19) (.add (.rd (.arr .jac 19)) (.mul (.rd (.var .jTemp)) (.num 31034219999999998 15))),
  .set (.arr .jac 20) (.add (.rd (.arr .jac 20)) (.mul (.neg (.rd (.var .jTemp))) (.num 31034219999999998 15)))]

/-- utilities/mechanisms/gri30/lib/src/jacobs/jacob_1.c:4725-4731 -/
def jacobT64 : List CStmt := [
  .set (.var .jTemp) (.mul (.mul (.div (.num 1 0) (.rd (.var .T))) (.sub (.mul (.rd (.arr .fwd 64)) (.neg (.num 1 0))) (.mul (.rd (.arr .rev 64)) (.add (.neg (.num 1 0)) (.mul (.neg (.rd (.var .T))) (.sub (.sub (.add (.rd (.arr .dBdT 17)) (.rd (.arr .dBdT 0))) (.rd (.arr .dBdT 1))) (.rd (.arr .dBdT 19)))))))) (.rd (.var .rhoInv))),
  .set (.arr .jac 1) (.add (.rd (.arr .jac 1)) (.mul (.rd (.var .jTemp)) (.num 20158800000000001 16))),
  .set (.arr .jac 2) (.add (.rd (.arr .jac 2)) (.mul (.neg (.rd (.var .jTemp))) (.num 10079400000000001 16))),
  .set (.arr .jac 20) (.add (.rd (.arr .jac 20)) (.mul (.neg (.rd (.var .jTemp))) (.num 31034219999999998 15))),
  .set (.arr .jac 18) (.add (.rd (.arr .jac 18)) (.mul (.rd (.var .jTemp)) (.num 3002628 5)))]

/-- utilities/mechanisms/gri30/lib/src/jacobs/jacob_1.c:4952-4958 -/
def jacobT65 : List CStmt := [
  .set (.var .jTemp) (.mul (.mul (.div (.num 1 0) (.rd (.var .T))) (.sub (.add (.mul (.sub (.rd (.arr .fwd 65)) (.rd (.arr .rev 65))) (.add (.num 5 1) (.div (.neg (.num 55354152134507892 15)) (.rd (.var .T))))) (.mul (.rd (.arr .fwd 65)) (.neg (.num 1 0)))) (.mul (.rd (.arr .rev 65)) (.add (.neg (.num 1 0)) (.mul (.neg (.rd (.var .T))) (.sub (.sub (.add (.rd (.arr .dBdT 12)) (.rd (.arr .dBdT 4))) (.rd (.arr .dBdT 1))) (.rd (.arr .dBdT 19)))))))) (.rd (.var .rhoInv))),
  .set (.arr .jac 2) (.add (.rd (.arr .jac 2)) (.mul (.neg (.rd (.var .jTemp))) (.num 10079400000000001 16))),
  .set (.arr .jac 20) (.add (.rd (.arr .jac 20)) (.mul (.neg (.rd (.var .jTemp))) (.num 31034219999999998 15))),
  .set (.arr .jac 13) (.add (.rd (.arr .jac 13)) (.mul (.rd (.var .jTemp)) (.num 1503482 5))),
  .set (.arr .jac 5) (.add (.rd (.arr .jac 5)) (.mul (.rd (.var .jTemp)) (.num 17007339999999999 15)))]

/-- utilities/mechanisms/gri30/lib/src/jacobs/jacob_1.c:5179-5185 -/
def jacobT66 : List CStmt := [
  .set (.var .jTemp) (.mul (.mul (.div (.num 1 0) (.rd (.var .T))) (.sub (.add (.mul (.sub (.rd (.arr .fwd 66)) (.rd (.arr .rev 66))) (.add (.neg (.num 23000000000000001 17)) (.div (.num 53844493439930397 14) (.rd (.var .T))))) (.mul (.rd (.arr .fwd 66)) (.neg (.num 1 0)))) (.mul (.rd (.arr .rev 66)) (.add (.neg (.num 1 0)) (.mul (.neg (.rd (.var .T))) (.sub (.sub (.add (.rd (.arr .dBdT 11)) (.rd (.arr .dBdT 5))) (.rd (.arr .dBdT 1))) (.rd (.arr .dBdT 19)))))))) (.rd (.var .rhoInv))),
  .set (.arr .jac 12) (.add (.rd (.arr .jac 12)) (.mul (.rd (.var .jTemp)) (.num 14026879999999998 15))),
  .set (.arr .jac 2) (.add (.rd (.arr .jac 2)) (.mul (.neg (.rd (.var .jTemp))) (.num 10079400000000001 16))),
  .set (.arr .jac 20) (.add (.rd (.arr .jac 20)) (.mul (.neg (.rd (.var .jTemp))) (.num 31034219999999998 15))),
  .set (.arr .jac 6) (.add (.rd (.arr .jac 6)) (.mul (.rd (.var .jTemp)) (.num 18015280000000001 15)))]

/-- utilities/mechanisms/gri30/lib/src/jacobs/jacob_1.c:5406-5412 -/
def jacobT67 : List CStmt := [
  .set (.var .jTemp) (.mul (.mul (.div (.num 1 0) (.rd (.var .T))) (.sub (.add (.mul (.sub (.rd (.arr .fwd 67)) (.rd (.arr .rev 67))) (.add (.num 21000000000000001 16) (.div (.num 24506792808641221 13) (.rd (.var .T))))) (.mul (.rd (.arr .fwd 67)) (.neg (.num 1 0)))) (.mul (.rd (.arr .rev 67)) (.add (.neg (.num 1 0)) (.mul (.neg (.rd (.var .T))) (.sub (.sub (.add (.rd (.arr .dBdT 0)) (.rd (.arr .dBdT 18))) (.rd (.arr .dBdT 20))) (.rd (.arr .dBdT 1)))))))) (.rd (.var .rhoInv))),
  .set (.arr .jac 1) (.add (.rd (.arr .jac 1)) (.mul (.rd (.var .jTemp)) (.num 20158800000000001 16))),
  .set (.arr .jac 2) (.add (.rd (.arr .jac 2)) (.mul (.neg (.rd (.var .jTemp))) (.num 10079400000000001 16))),
  .set (.arr .jac 19) (.add (.rd (.arr .jac 19)) (.mul (.rd (.var .jTemp)) (.num 31034219999999998 15))),
  .set (.arr .jac 21) (.add (.rd (.arr .jac 21)) (.mul (.neg (.rd (.var .jTemp))) (.num 32042159999999996 15)))]

/-- utilities/mechanisms/gri30/lib/src/jacobs/jacob_1.c:5633-5639 -/
def jacobT68 : List CStmt := [
  .set (.var .jTemp) (.mul (.mul (.div (.num 1 0) (.rd (.var .T))) (.sub (.add (.mul (.sub (.rd (.arr .fwd 68)) (.rd (.arr .rev 68))) (.add (.num 21000000000000001 16) (.div (.num 24506792808641221 13) (.rd (.var .T))))) (.mul (.rd (.arr .fwd 68)) (.neg (.num 1 0)))) (.mul (.rd (.arr .rev 68)) (.add (.neg (.num 1 0)) (.mul (.neg (.rd (.var .T))) (.sub (.sub (.add (.rd (.arr .dBdT 0)) (.rd (.arr .dBdT 19))) (.rd (.arr .dBdT 20))) (.rd (.arr .dBdT 1)))))))) (.rd (.var .rhoInv))),
  .set (.arr .jac 1) (.add (.rd (.arr .jac 1)) (.mul (.rd (.var .jTemp)) (.num 20158800000000001 16))),
  .set (.arr .jac 2) (.add (.rd (.arr .jac 2)) (.mul (.neg (.rd (.var .jTemp))) (.num 10079400000000001 16))),
  .set (.arr .jac 20) (.add (.rd (.arr .jac 20)) (.mul (.rd (.var .jTemp)) (.num 31034219999999998 15))),
  .set (.arr .jac 21) (.add (.rd (.arr .jac 21)) (.mul (.neg (.rd (.var .jTemp))) (.num 32042159999999996 15)))]

/-- utilities/mechanisms/gri30/lib/src/jacobs/jacob_1.c:5860-5871 -/
def jacobT69 : List CStmt := [
  .set (.var .concTemp) (.add (.rd (.var .concTemp)) (.mul (.neg (.num 3 1)) (.rd (.arr .C 47)))),
  .set (.var .Pr) (.mul (.rd (.var .concTemp)) (.exp (.sub (.sub (.num 31255362048904914 15) (.mul (.num 38 1) (.rd (.var .logT)))) (.div (.num 95611717323240896 14) (.rd (.var .T)))))),
  .set (.var .Fcent) (.add (.add (.mul (.num 35360000000000003 17) (.exp (.div (.rd (.var .T)) (.neg (.num 132 0))))) (.mul (.num 64639999999999997 17) (.exp (.div (.rd (.var .T)) (.neg (.num 1315 0)))))) (.exp (.div (.neg (.num 5566 0)) (.rd (.var .T))))),
  .set (.var .A) (.sub (.sub (.log10 (.fmax (.rd (.var .Pr)) (.num 1 300))) (.mul (.num 67 2) (.log10 (.fmax (.rd (.var .Fcent)) (.num 1 300))))) (.num 4 1)),
  .set (.var .B) (.sub (.sub (.num 806 3) (.mul (.num 11762 4) (.log10 (.fmax (.rd (.var .Fcent)) (.num 1 300))))) (.mul (.num 14 2) (.log10 (.fmax (.rd (.var .Pr)) (.num 1 300))))),
  .set (.var .lnFAB) (.div (.mul (.mul (.num 2 0) (.log (.fmax (.rd (.var .Fcent)) (.num 1 300)))) (.rd (.var .A))) (.mul (.mul (.mul (.mul (.rd (.var .B)) (.rd (.var .B))) (.rd (.var .B))) (.add (.num 1 0) (.div (.mul (.rd (.var .A)) (.rd (.var .A))) (.mul (.rd (.var .B)) (.rd (.var .B)))))) (.add (.num 1 0) (.div (.mul (.rd (.var .A)) (.rd (.var .A))) (.mul (.rd (.var .B)) (.rd (.var .B))))))),
  .set (.var .jTemp) (.mul (.add (.mul (.mul (.rd (.arr .presMod 13)) (.sub (.add (.div (.sub (.add (.neg (.num 38 1)) (.div (.num 95611717323240896 14) (.rd (.var .T)))) (.num 1 0)) (.mul (.rd (.var .T)) (.add (.num 1 0) (.rd (.var .Pr))))) (.mul (.sub (.div (.num 1 0) (.mul (.rd (.var .Fcent)) (.add (.num 1 0) (.div (.mul (.rd (.var .A)) (.rd (.var .A))) (.mul (.rd (.var .B)) (.rd (.var .B))))))) (.div (.mul (.rd (.var .lnFAB)) (.add (.mul (.neg (.num 2909773028751787 16)) (.rd (.var .B))) (.mul (.num 51081716961460466 17) (.rd (.var .A))))) (.rd (.var .Fcent)))) (.add (.sub (.mul (.neg (.num 2678787878787879 18)) (.exp (.div (.rd (.var .T)) (.neg (.num 132 0))))) (.mul (.num 49155893536121666 20) (.exp (.div (.rd (.var .T)) (.neg (.num 1315 0)))))) (.mul (.div (.num 5566 0) (.mul (.rd (.var .T)) (.rd (.var .T)))) (.exp (.div (.neg (.num 5566 0)) (.rd (.var .T)))))))) (.div (.mul (.mul (.rd (.var .lnFAB)) (.add (.mul (.num 43429448190325176 17) (.rd (.var .B))) (.mul (.num 60801227466455256 18) (.rd (.var .A))))) (.sub (.add (.neg (.num 37999999999999998 16)) (.div (.num 95611717323240896 14) (.rd (.var .T)))) (.num 1 0))) (.rd (.var .T))))) (.sub (.rd (.arr .fwd 69)) (.rd (.arr .rev 69)))) (.mul (.div (.rd (.arr .presMod 13)) (.rd (.var .T))) (.sub (.add (.mul (.sub (.rd (.arr .fwd 69)) (.rd (.arr .rev 69))) (.neg (.num 1 0))) (.mul (.rd (.arr .fwd 69)) (.neg (.num 1 0)))) (.mul (.rd (.arr .rev 69)) (.mul (.neg (.rd (.var .T))) (.sub (.sub (.rd (.arr .dBdT 22)) (.rd (.arr .dBdT 1))) (.rd (.arr .dBdT 21)))))))) (.rd (.var .rhoInv))),
  .set (.arr .jac 2) (.add (.rd (.arr .jac 2)) (.mul (.neg (.rd (.var .jTemp))) (.num 10079400000000001 16))),
  .set (.arr .jac 22) (.add (.rd (.arr .jac 22)) (.mul (.neg (.rd (.var .jTemp))) (.num 2502994 5))),
  .set (.arr .jac 23) (.add (.rd (.arr .jac 23)) (.mul (.rd (.var .jTemp)) (.num 26037879999999998 15)))]

/-- utilities/mechanisms/gri30/lib/src/jacobs/jacob_1.c:6042-6052 -/
def jacobT70 : List CStmt := [
  .set (.var .Pr) (.mul (.rd (.var .concTemp)) (.exp (.sub (.sub (.num 57176861793842377 15) (.mul (.num 727 2) (.rd (.var .logT)))) (.div (.num 24255183026211639 13) (.rd (.var .T)))))),
  .set (.var .Fcent) (.add (.add (.mul (.num 24929999999999997 17) (.exp (.div (.rd (.var .T)) (.neg (.num 98500000000000014 15))))) (.mul (.num 75070000000000003 17) (.exp (.div (.rd (.var .T)) (.neg (.num 1302 0)))))) (.exp (.div (.neg (.num 4167 0)) (.rd (.var .T))))),
  .set (.var .A) (.sub (.sub (.log10 (.fmax (.rd (.var .Pr)) (.num 1 300))) (.mul (.num 67 2) (.log10 (.fmax (.rd (.var .Fcent)) (.num 1 300))))) (.num 4 1)),
  .set (.var .B) (.sub (.sub (.num 806 3) (.mul (.num 11762 4) (.log10 (.fmax (.rd (.var .Fcent)) (.num 1 300))))) (.mul (.num 14 2) (.log10 (.fmax (.rd (.var .Pr)) (.num 1 300))))),
  .set (.var .lnFAB) (.div (.mul (.mul (.num 2 0) (.log (.fmax (.rd (.var .Fcent)) (.num 1 300)))) (.rd (.var .A))) (.mul (.mul (.mul (.mul (.rd (.var .B)) (.rd (.var .B))) (.rd (.var .B))) (.add (.num 1 0) (.div (.mul (.rd (.var .A)) (.rd (.var .A))) (.mul (.rd (.var .B)) (.rd (.var .B)))))) (.add (.num 1 0) (.div (.mul (.rd (.var .A)) (.rd (.var .A))) (.mul (.rd (.var .B)) (.rd (.var .B))))))),
  .set (.var .jTemp) (.mul (.add (.mul (.mul (.rd (.arr .presMod 14)) (.sub (.add (.div (.sub (.add (.neg (.num 727 2)) (.div (.num 24255183026211639 13) (.rd (.var .T)))) (.num 1 0)) (.mul (.rd (.var .T)) (.add (.num 1 0) (.rd (.var .Pr))))) (.mul (.sub (.div (.num 1 0) (.mul (.rd (.var .Fcent)) (.add (.num 1 0) (.div (.mul (.rd (.var .A)) (.rd (.var .A))) (.mul (.rd (.var .B)) (.rd (.var .B))))))) (.div (.mul (.rd (.var .lnFAB)) (.add (.mul (.neg (.num 2909773028751787 16)) (.rd (.var .B))) (.mul (.num 51081716961460466 17) (.rd (.var .A))))) (.rd (.var .Fcent)))) (.add (.sub (.mul (.neg (.num 25309644670050754 19)) (.exp (.div (.rd (.var .T)) (.neg (.num 98500000000000014 15))))) (.mul (.num 57657450076804915 20) (.exp (.div (.rd (.var .T)) (.neg (.num 1302 0)))))) (.mul (.div (.num 4167 0) (.mul (.rd (.var .T)) (.rd (.var .T)))) (.exp (.div (.neg (.num 4167 0)) (.rd (.var .T)))))))) (.div (.mul (.mul (.rd (.var .lnFAB)) (.add (.mul (.num 43429448190325176 17) (.rd (.var .B))) (.mul (.num 60801227466455256 18) (.rd (.var .A))))) (.sub (.add (.neg (.num 72699999999999996 16)) (.div (.num 24255183026211639 13) (.rd (.var .T)))) (.num 1 0))) (.rd (.var .T))))) (.sub (.rd (.arr .fwd 70)) (.rd (.arr .rev 70)))) (.mul (.div (.rd (.arr .presMod 14)) (.rd (.var .T))) (.sub (.add (.mul (.sub (.rd (.arr .fwd 70)) (.rd (.arr .rev 70))) (.div (.num 12077269556619904 13) (.rd (.var .T)))) (.mul (.rd (.arr .fwd 70)) (.neg (.num 1 0)))) (.mul (.rd (.arr .rev 70)) (.mul (.neg (.rd (.var .T))) (.sub (.sub (.rd (.arr .dBdT 23)) (.rd (.arr .dBdT 1))) (.rd (.arr .dBdT 22)))))))) (.rd (.var .rhoInv))),
  .set (.arr .jac 2) (.add (.rd (.arr .jac 2)) (.mul (.neg (.rd (.var .jTemp))) (.num 10079400000000001 16))),
  .set (.arr .jac 23) (.add (.rd (.arr .jac 23)) (.mul (.neg (.rd (.var .jTemp))) (.num 26037879999999998 15))),
  .set (.arr .jac 24) (.add (.rd (.arr .jac 24)) (.mul (.rd (.var .jTemp)) (.num 27045819999999999 15)))]

/-- utilities/mechanisms/gri30/lib/src/jacobs/jacob_1.c:6223-6233 -/
def jacobT71 : List CStmt := [
  .set (.var .Pr) (.mul (.rd (.var .concTemp)) (.exp (.sub (.sub (.num 33070243935553826 15) (.mul (.num 413 2) (.rd (.var .logT)))) (.div (.num 15297874771718543 13) (.rd (.var .T)))))),
  .set (.var .Fcent) (.add (.add (.mul (.num 21799999999999997 17) (.exp (.div (.rd (.var .T)) (.neg (.num 20749999999999997 14))))) (.mul (.num 78200000000000003 17) (.exp (.div (.rd (.var .T)) (.neg (.num 2663 0)))))) (.exp (.div (.neg (.num 6095 0)) (.rd (.var .T))))),
  .set (.var .A) (.sub (.sub (.log10 (.fmax (.rd (.var .Pr)) (.num 1 300))) (.mul (.num 67 2) (.log10 (.fmax (.rd (.var .Fcent)) (.num 1 300))))) (.num 4 1)),
  .set (.var .B) (.sub (.sub (.num 806 3) (.mul (.num 11762 4) (.log10 (.fmax (.rd (.var .Fcent)) (.num 1 300))))) (.mul (.num 14 2) (.log10 (.fmax (.rd (.var .Pr)) (.num 1 300))))),
  .set (.var .lnFAB) (.div (.mul (.mul (.num 2 0) (.log (.fmax (.rd (.var .Fcent)) (.num 1 300)))) (.rd (.var .A))) (.mul (.mul (.mul (.mul (.rd (.var .B)) (.rd (.var .B))) (.rd (.var .B))) (.add (.num 1 0) (.div (.mul (.rd (.var .A)) (.rd (.var .A))) (.mul (.rd (.var .B)) (.rd (.var .B)))))) (.add (.num 1 0) (.div (.mul (.rd (.var .A)) (.rd (.var .A))) (.mul (.rd (.var .B)) (.rd (.var .B))))))),
  .set (.var .jTemp) (.mul (.add (.mul (.mul (.rd (.arr .presMod 15)) (.sub (.add (.div (.sub (.add (.neg (.num 413 2)) (.div (.num 15297874771718543 13) (.rd (.var .T)))) (.num 1 0)) (.mul (.rd (.var .T)) (.add (.num 1 0) (.rd (.var .Pr))))) (.mul (.sub (.div (.num 1 0) (.mul (.rd (.var .Fcent)) (.add (.num 1 0) (.div (.mul (.rd (.var .A)) (.rd (.var .A))) (.mul (.rd (.var .B)) (.rd (.var .B))))))) (.div (.mul (.rd (.var .lnFAB)) (.add (.mul (.neg (.num 2909773028751787 16)) (.rd (.var .B))) (.mul (.num 51081716961460466 17) (.rd (.var .A))))) (.rd (.var .Fcent)))) (.add (.sub (.mul (.neg (.num 10506024096385543 19)) (.exp (.div (.rd (.var .T)) (.neg (.num 20749999999999997 14))))) (.mul (.num 29365377393916639 20) (.exp (.div (.rd (.var .T)) (.neg (.num 2663 0)))))) (.mul (.div (.num 6095 0) (.mul (.rd (.var .T)) (.rd (.var .T)))) (.exp (.div (.neg (.num 6095 0)) (.rd (.var .T)))))))) (.div (.mul (.mul (.rd (.var .lnFAB)) (.add (.mul (.num 43429448190325176 17) (.rd (.var .B))) (.mul (.num 60801227466455256 18) (.rd (.var .A))))) (.sub (.add (.neg (.num 41299999999999999 16)) (.div (.num 15297874771718543 13) (.rd (.var .T)))) (.num 1 0))) (.rd (.var .T))))) (.sub (.rd (.arr .fwd 71)) (.rd (.arr .rev 71)))) (.mul (.div (.rd (.arr .presMod 15)) (.rd (.var .T))) (.sub (.add (.mul (.sub (.rd (.arr .fwd 71)) (.rd (.arr .rev 71))) (.add (.num 27000000000000002 17) (.div (.num 14090147816056555 14) (.rd (.var .T))))) (.mul (.rd (.arr .fwd 71)) (.neg (.num 1 0)))) (.mul (.rd (.arr .rev 71)) (.mul (.neg (.rd (.var .T))) (.sub (.sub (.rd (.arr .dBdT 24)) (.rd (.arr .dBdT 1))) (.rd (.arr .dBdT 23)))))))) (.rd (.var .rhoInv))),
  .set (.arr .jac 25) (.add (.rd (.arr .jac 25)) (.mul (.rd (.var .jTemp)) (.num 28053759999999997 15))),
  .set (.arr .jac 2) (.add (.rd (.arr .jac 2)) (.mul (.neg (.rd (.var .jTemp))) (.num 10079400000000001 16))),
  .set (.arr .jac 24) (.add (.rd (.arr .jac 24)) (.mul (.neg (.rd (.var .jTemp))) (.num 27045819999999999 15)))]

/-- utilities/mechanisms/gri30/lib/src/jacobs/jacob_1.c:6404-6410 -/
def jacobT72 : List CStmt := [
  .set (.var .jTemp) (.mul (.mul (.div (.num 1 0) (.rd (.var .T))) (.sub (.mul (.rd (.arr .fwd 72)) (.neg (.num 1 0))) (.mul (.rd (.arr .rev 72)) (.add (.neg (.num 1 0)) (.mul (.neg (.rd (.var .T))) (.sub (.sub (.add (.rd (.arr .dBdT 0)) (.rd (.arr .dBdT 22))) (.rd (.arr .dBdT 1))) (.rd (.arr .dBdT 23)))))))) (.rd (.var .rhoInv))),
  .set (.arr .jac 1) (.add (.rd (.arr .jac 1)) (.mul (.rd (.var .jTemp)) (.num 20158800000000001 16))),
  .set (.arr .jac 2) (.add (.rd (.arr .jac 2)) (.mul (.neg (.rd (.var .jTemp))) (.num 10079400000000001 16))),
  .set (.arr .jac 23) (.add (.rd (.arr .jac 23)) (.mul (.rd (.var .jTemp)) (.num 26037879999999998 15))),
  .set (.arr .jac 24) (.add (.rd (.arr .jac 24)) (.mul (.neg (.rd (.var .jTemp))) (.num 27045819999999999 15)))]

/-- utilities/mechanisms/gri30/lib/src/jacobs/jacob_1.c:6631-6641 -/
def jacobT73 : List CStmt := [
  .set (.var .Pr) (.mul (.rd (.var .concTemp)) (.exp (.sub (.sub (.num 6227515802649706 14) (.mul (.num 8074 3) (.rd (.var .logT)))) (.div (.num 25915807590246877 13) (.rd (.var .T)))))),
  .set (.var .Fcent) (.add (.add (.mul (.num 24700000000000055 18) (.exp (.div (.rd (.var .T)) (.neg (.num 20999999999999997 14))))) (.mul (.num 97529999999999994 17) (.exp (.div (.rd (.var .T)) (.neg (.num 98399999999999989 14)))))) (.exp (.div (.neg (.num 4374 0)) (.rd (.var .T))))),
  .set (.var .A) (.sub (.sub (.log10 (.fmax (.rd (.var .Pr)) (.num 1 300))) (.mul (.num 67 2) (.log10 (.fmax (.rd (.var .Fcent)) (.num 1 300))))) (.num 4 1)),
  .set (.var .B) (.sub (.sub (.num 806 3) (.mul (.num 11762 4) (.log10 (.fmax (.rd (.var .Fcent)) (.num 1 300))))) (.mul (.num 14 2) (.log10 (.fmax (.rd (.var .Pr)) (.num 1 300))))),
  .set (.var .lnFAB) (.div (.mul (.mul (.num 2 0) (.log (.fmax (.rd (.var .Fcent)) (.num 1 300)))) (.rd (.var .A))) (.mul (.mul (.mul (.mul (.rd (.var .B)) (.rd (.var .B))) (.rd (.var .B))) (.add (.num 1 0) (.div (.mul (.rd (.var .A)) (.rd (.var .A))) (.mul (.rd (.var .B)) (.rd (.var .B)))))) (.add (.num 1 0) (.div (.mul (.rd (.var .A)) (.rd (.var .A))) (.mul (.rd (.var .B)) (.rd (.var .B))))))),
  .set (.var .jTemp) (.mul (.add (.mul (.mul (.rd (.arr .presMod 16)) (.sub (.add (.div (.sub (.add (.neg (.num 8074 3)) (.div (.num 25915807590246877 13) (.rd (.var .T)))) (.num 1 0)) (.mul (.rd (.var .T)) (.add (.num 1 0) (.rd (.var .Pr))))) (.mul (.sub (.div (.num 1 0) (.mul (.rd (.var .Fcent)) (.add (.num 1 0) (.div (.mul (.rd (.var .A)) (.rd (.var .A))) (.mul (.rd (.var .B)) (.rd (.var .B))))))) (.div (.mul (.rd (.var .lnFAB)) (.add (.mul (.neg (.num 2909773028751787 16)) (.rd (.var .B))) (.mul (.num 51081716961460466 17) (.rd (.var .A))))) (.rd (.var .Fcent)))) (.add (.sub (.mul (.neg (.num 11761904761904789 20)) (.exp (.div (.rd (.var .T)) (.neg (.num 20999999999999997 14))))) (.mul (.num 991158536585366 18) (.exp (.div (.rd (.var .T)) (.neg (.num 98399999999999989 14)))))) (.mul (.div (.num 4374 0) (.mul (.rd (.var .T)) (.rd (.var .T)))) (.exp (.div (.neg (.num 4374 0)) (.rd (.var .T)))))))) (.div (.mul (.mul (.rd (.var .lnFAB)) (.add (.mul (.num 43429448190325176 17) (.rd (.var .B))) (.mul (.num 60801227466455256 18) (.rd (.var .A))))) (.sub (.add (.neg (.num 80739999999999998 16)) (.div (.num 25915807590246877 13) (.rd (.var .T)))) (.num 1 0))) (.rd (.var .T))))) (.sub (.rd (.arr .fwd 73)) (.rd (.arr .rev 73)))) (.mul (.div (.rd (.arr .presMod 16)) (.rd (.var .T))) (.sub (.add (.mul (.sub (.rd (.arr .fwd 73)) (.rd (.arr .rev 73))) (.add (.num 45400000000000001 17) (.div (.num 91585960804367608 14) (.rd (.var .T))))) (.mul (.rd (.arr .fwd 73)) (.neg (.num 1 0)))) (.mul (.rd (.arr .rev 73)) (.mul (.neg (.rd (.var .T))) (.sub (.sub (.rd (.arr .dBdT 25)) (.rd (.arr .dBdT 1))) (.rd (.arr .dBdT 24)))))))) (.rd (.var .rhoInv))),
  .set (.arr .jac 25) (.add (.rd (.arr .jac 25)) (.mul (.neg (.rd (.var .jTemp))) (.num 28053759999999997 15))),
  .set (.arr .jac 2) (.add (.rd (.arr .jac 2)) (.mul (.neg (.rd (.var .jTemp))) (.num 10079400000000001 16))),
  .set (.arr .jac 26) (.add (.rd (.arr .jac 26)) (.mul (.rd (.var .jTemp)) (.num 29061699999999998 15)))]

/-- utilities/mechanisms/gri30/lib/src/jacobs/jacob_1.c:6812-6818 -/
def jacobT74 : List CStmt := [
  .set (.var .jTemp) (.mul (.mul (.div (.num 1 0) (.rd (.var .T))) (.sub (.add (.mul (.sub (.rd (.arr .fwd 74)) (.rd (.arr .rev 74))) (.add (.num 25299999999999998 16) (.div (.num 6159407473876151 12) (.rd (.var .T))))) (.mul (.rd (.arr .fwd 74)) (.neg (.num 1 0)))) (.mul (.rd (.arr .rev 74)) (.add (.neg (.num 1 0)) (.mul (.neg (.rd (.var .T))) (.sub (.sub (.add (.rd (.arr .dBdT 0)) (.rd (.arr .dBdT 23))) (.rd (.arr .dBdT 1))) (.rd (.arr .dBdT 24)))))))) (.rd (.var .rhoInv))),
  .set (.arr .jac 25) (.add (.rd (.arr .jac 25)) (.mul (.neg (.rd (.var .jTemp))) (.num 28053759999999997 15))),
  .set (.arr .jac 2) (.add (.rd (.arr .jac 2)) (.mul (.neg (.rd (.var .jTemp))) (.num 10079400000000001 16))),
  .set (.arr .jac 1) (.add (.rd (.arr .jac 1)) (.mul (.rd (.var .jTemp)) (.num 20158800000000001 16))),
  .set (.arr .jac 24) (.add (.rd (.arr .jac 24)) (.mul (.rd (.var .jTemp)) (.num 27045819999999999 15)))]

/-- utilities/mechanisms/gri30/lib/src/jacobs/jacob_1.c:7039-7049 -/
def jacobT75 : List CStmt := [
  .set (.var .Pr) (.mul (.rd (.var .concTemp)) (.exp (.sub (.sub (.num 47391841735846086 15) (.mul (.num 609 2) (.rd (.var .logT)))) (.div (.num 25689358786060257 13) (.rd (.var .T)))))),
  .set (.var .Fcent) (.add (.add (.mul (.num 15780000000000005 17) (.exp (.div (.rd (.var .T)) (.neg (.num 125 0))))) (.mul (.num 84219999999999995 17) (.exp (.div (.rd (.var .T)) (.neg (.num 2219 0)))))) (.exp (.div (.neg (.num 6882 0)) (.rd (.var .T))))),
  .set (.var .A) (.sub (.sub (.log10 (.fmax (.rd (.var .Pr)) (.num 1 300))) (.mul (.num 67 2) (.log10 (.fmax (.rd (.var .Fcent)) (.num 1 300))))) (.num 4 1)),
  .set (.var .B) (.sub (.sub (.num 806 3) (.mul (.num 11762 4) (.log10 (.fmax (.rd (.var .Fcent)) (.num 1 300))))) (.mul (.num 14 2) (.log10 (.fmax (.rd (.var .Pr)) (.num 1 300))))),
  .set (.var .lnFAB) (.div (.mul (.mul (.num 2 0) (.log (.fmax (.rd (.var .Fcent)) (.num 1 300)))) (.rd (.var .A))) (.mul (.mul (.mul (.mul (.rd (.var .B)) (.rd (.var .B))) (.rd (.var .B))) (.add (.num 1 0) (.div (.mul (.rd (.var .A)) (.rd (.var .A))) (.mul (.rd (.var .B)) (.rd (.var .B)))))) (.add (.num 1 0) (.div (.mul (.rd (.var .A)) (.rd (.var .A))) (.mul (.rd (.var .B)) (.rd (.var .B))))))),
  .set (.var .jTemp) (.mul (.add (.mul (.mul (.rd (.arr .presMod 17)) (.sub (.add (.div (.sub (.add (.neg (.num 609 2)) (.div (.num 25689358786060257 13) (.rd (.var .T)))) (.num 1 0)) (.mul (.rd (.var .T)) (.add (.num 1 0) (.rd (.var .Pr))))) (.mul (.sub (.div (.num 1 0) (.mul (.rd (.var .Fcent)) (.add (.num 1 0) (.div (.mul (.rd (.var .A)) (.rd (.var .A))) (.mul (.rd (.var .B)) (.rd (.var .B))))))) (.div (.mul (.rd (.var .lnFAB)) (.add (.mul (.neg (.num 2909773028751787 16)) (.rd (.var .B))) (.mul (.num 51081716961460466 17) (.rd (.var .A))))) (.rd (.var .Fcent)))) (.add (.sub (.mul (.neg (.num 12624000000000003 19)) (.exp (.div (.rd (.var .T)) (.neg (.num 125 0))))) (.mul (.num 37954033348355115 20) (.exp (.div (.rd (.var .T)) (.neg (.num 2219 0)))))) (.mul (.div (.num 6882 0) (.mul (.rd (.var .T)) (.rd (.var .T)))) (.exp (.div (.neg (.num 6882 0)) (.rd (.var .T)))))))) (.div (.mul (.mul (.rd (.var .lnFAB)) (.add (.mul (.num 43429448190325176 17) (.rd (.var .B))) (.mul (.num 60801227466455256 18) (.rd (.var .A))))) (.sub (.add (.neg (.num 60899999999999999 16)) (.div (.num 25689358786060257 13) (.rd (.var .T)))) (.num 1 0))) (.rd (.var .T))))) (.sub (.rd (.arr .fwd 75)) (.rd (.arr .rev 75)))) (.mul (.div (.rd (.arr .presMod 17)) (.rd (.var .T))) (.sub (.add (.mul (.sub (.rd (.arr .fwd 75)) (.rd (.arr .rev 75))) (.add (.neg (.num 98999999999999999 17)) (.div (.num 79508691247747697 14) (.rd (.var .T))))) (.mul (.rd (.arr .fwd 75)) (.neg (.num 1 0)))) (.mul (.rd (.arr .rev 75)) (.mul (.neg (.rd (.var .T))) (.sub (.sub (.rd (.arr .dBdT 26)) (.rd (.arr .dBdT 1))) (.rd (.arr .dBdT 25)))))))) (.rd (.var .rhoInv))),
  .set (.arr .jac 2) (.add (.rd (.arr .jac 2)) (.mul (.neg (.rd (.var .jTemp))) (.num 10079400000000001 16))),
  .set (.arr .jac 27) (.add (.rd (.arr .jac 27)) (.mul (.rd (.var .jTemp)) (.num 3006964 5))),
  .set (.arr .jac 26) (.add (.rd (.arr .jac 26)) (.mul (.neg (.rd (.var .jTemp))) (.num 29061699999999998 15)))]

/-- utilities/mechanisms/gri30/lib/src/jacobs/jacob_1.c:7220-7226 -/
def jacobT76 : List CStmt := [
  .set (.var .jTemp) (.mul (.mul (.div (.num 1 0) (.rd (.var .T))) (.sub (.mul (.rd (.arr .fwd 76)) (.neg (.num 1 0))) (.mul (.rd (.arr .rev 76)) (.add (.neg (.num 1 0)) (.mul (.neg (.rd (.var .T))) (.sub (.sub (.add (.rd (.arr .dBdT 0)) (.rd (.arr .dBdT 24))) (.rd (.arr .dBdT 1))) (.rd (.arr .dBdT 25)))))))) (.rd (.var .rhoInv))),
  .set (.arr .jac 1) (.add (.rd (.arr .jac 1)) (.mul (.rd (.var .jTemp)) (.num 20158800000000001 16))),
  .set (.arr .jac 2) (.add (.rd (.arr .jac 2)) (.mul (.neg (.rd (.var .jTemp))) (.num 10079400000000001 16))),
  .set (.arr .jac 25) (.add (.rd (.arr .jac 25)) (.mul (.rd (.var .jTemp)) (.num 28053759999999997 15))),
  .set (.arr .jac 26) (.add (.rd (.arr .jac 26)) (.mul (.neg (.rd (.var .jTemp))) (.num 29061699999999998 15)))]

/-- utilities/mechanisms/gri30/lib/src/jacobs/jacob_1.c:7447-7453 -/
def jacobT77 : List CStmt := [
  .set (.var .jTemp) (.mul (.mul (.div (.num 1 0) (.rd (.var .T))) (.sub (.add (.mul (.sub (.rd (.arr .fwd 77)) (.rd (.arr .rev 77))) (.add (.num 18999999999999999 16) (.div (.num 37892433233894944 13) (.rd (.var .T))))) (.mul (.rd (.arr .fwd 77)) (.neg (.num 1 0)))) (.mul (.rd (.arr .rev 77)) (.add (.neg (.num 1 0)) (.mul (.neg (.rd (.var .T))) (.sub (.sub (.add (.rd (.arr .dBdT 0)) (.rd (.arr .dBdT 25))) (.rd (.arr .dBdT 26))) (.rd (.arr .dBdT 1)))))))) (.rd (.var .rhoInv))),
  .set (.arr .jac 1) (.add (.rd (.arr .jac 1)) (.mul (.rd (.var .jTemp)) (.num 20158800000000001 16))),
  .set (.arr .jac 2) (.add (.rd (.arr .jac 2)) (.mul (.neg (.rd (.var .jTemp))) (.num 10079400000000001 16))),
  .set (.arr .jac 27) (.add (.rd (.arr .jac 27)) (.mul (.neg (.rd (.var .jTemp))) (.num 3006964 5))),
  .set (.arr .jac 26) (.add (.rd (.arr .jac 26)) (.mul (.rd (.var .jTemp)) (.num 29061699999999998 15)))]

/-- utilities/mechanisms/gri30/lib/src/jacobs/jacob_1.c:7674-7680 -/
def jacobT78 : List CStmt := [
  .set (.var .jTemp) (.mul (.mul (.div (.num 1 0) (.rd (.var .T))) (.sub (.mul (.rd (.arr .fwd 78)) (.neg (.num 1 0))) (.mul (.rd (.arr .rev 78)) (.add (.neg (.num 1 0)) (.mul (.neg (.rd (.var .T))) (.sub (.sub (.add (.rd (.arr .dBdT 11)) (.rd (.arr .dBdT 14))) (.rd (.arr .dBdT 1))) (.rd (.arr .dBdT 27)))))))) (.rd (.var .rhoInv))),
  .set (.arr .jac 12) (.add (.rd (.arr .jac 12)) (.mul (.rd (.var .jTemp)) (.num 14026879999999998 15))),
  .set (.arr .jac 2) (.add (.rd (.arr .jac 2)) (.mul (.neg (.rd (.var .jTemp))) (.num 10079400000000001 16))),
  .set (.arr .jac 28) (.add (.rd (.arr .jac 28)) (.mul (.neg (.rd (.var .jTemp))) (.num 41029339999999998 15))),
  .set (.arr .jac 15) (.add (.rd (.arr .jac 15)) (.mul (.rd (.var .jTemp)) (.num 28010399999999997 15)))]

/-- utilities/mechanisms/gri30/lib/src/jacobs/jacob_1.c:7901-7907 -/
def jacobT79 : List CStmt := [
  .set (.var .jTemp) (.mul (.mul (.div (.num 1 0) (.rd (.var .T))) (.sub (.add (.mul (.sub (.rd (.arr .fwd 79)) (.rd (.arr .rev 79))) (.div (.num 4025756518873301 12) (.rd (.var .T)))) (.mul (.rd (.arr .fwd 79)) (.neg (.num 1 0)))) (.mul (.rd (.arr .rev 79)) (.add (.neg (.num 1 0)) (.mul (.neg (.rd (.var .T))) (.sub (.sub (.add (.rd (.arr .dBdT 0)) (.rd (.arr .dBdT 27))) (.rd (.arr .dBdT 1))) (.rd (.arr .dBdT 28)))))))) (.rd (.var .rhoInv))),
  .set (.arr .jac 1) (.add (.rd (.arr .jac 1)) (.mul (.rd (.var .jTemp)) (.num 20158800000000001 16))),
  .set (.arr .jac 2) (.add (.rd (.arr .jac 2)) (.mul (.neg (.rd (.var .jTemp))) (.num 10079400000000001 16))),
  .set (.arr .jac 28) (.add (.rd (.arr .jac 28)) (.mul (.rd (.var .jTemp)) (.num 41029339999999998 15))),
  .set (.arr .jac 29) (.add (.rd (.arr .jac 29)) (.mul (.neg (.rd (.var .jTemp))) (.num 42037279999999996 15)))]

/-- The derivatives with respect to the temperature in `eval_jacob_1`, one block per reaction, utilities/mechanisms/gri30/lib/src/jacobs/jacob_1.c:5-8127. -/
def jacob1Blocks : List (List CStmt × List CStmt) := [
  (jacobT40, []), (jacobT41, []), (jacobT42, []), (jacobT43, []), (jacobT44, []), (jacobT45, []), (jacobT46, []), (jacobT47, []), (jacobT48, []), (jacobT49, []), (jacobT50, []), (jacobT51, []), (jacobT52, []), (jacobT53, []), (jacobT54, []), (jacobT55, []), (jacobT56, []), (jacobT57, []), (jacobT58, []), (jacobT59, []), (jacobT60, []), (jacobT61, []), (jacobT62, []), (jacobT63, []), (jacobT64, []), (jacobT65, []), (jacobT66, []), (jacobT67, []), (jacobT68, []), (jacobT69, []), (jacobT70, []), (jacobT71, []), (jacobT72, []), (jacobT73, []), (jacobT74, []), (jacobT75, []), (jacobT76, []), (jacobT77, []), (jacobT78, []), (jacobT79, [])]

end DLB.Mech.Gri30
