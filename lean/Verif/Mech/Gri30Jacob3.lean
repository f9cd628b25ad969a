/- Generated by tools/gen_mechanisms.py from utilities/mechanisms/gri30/lib/src/jacobs/jacob_3.c. Do not edit. -/
import Verif.Model.CLang
set_option autoImplicit false
set_option maxRecDepth 1000000

namespace DLB.Mech.Gri30
open DLB

/-- utilities/mechanisms/gri30/lib/src/jacobs/jacob_3.c:5-17 -/
def jacob3Start : List CStmt := [
  .set (.var .logT) (.log (.rd (.var .T))),
  .set (.var .kf) (.num 0 0),
  .set (.var .jTemp) (.num 0 0),
  .set (.var .presModTemp) (.num 0 0),
  .set (.var .Kc) (.num 0 0),
  .set (.var .kr) (.num 0 0),
  .set (.var .Pr) (.num 0 0),
  .set (.var .Fcent) (.num 0 0),
  .set (.var .A) (.num 0 0),
  .set (.var .B) (.num 0 0),
  .set (.var .lnFAB) (.num 0 0),
  .set (.var .rhoInv) (.div (.num 1 0) (.rd (.var .rho)))]

/-- utilities/mechanisms/gri30/lib/src/jacobs/jacob_3.c:18-24 -/
def jacobT120 : List CStmt := [
  .set (.var .jTemp) (.mul (.mul (.div (.num 1 0) (.rd (.var .T))) (.sub (.add (.mul (.sub (.rd (.arr .fwd 120)) (.rd (.arr .rev 120))) (.add (.num 2 0) (.div (.num 60386347783099518 13) (.rd (.var .T))))) (.mul (.rd (.arr .fwd 120)) (.neg (.num 1 0)))) (.mul (.rd (.arr .rev 120)) (.add (.neg (.num 1 0)) (.mul (.neg (.rd (.var .T))) (.sub (.sub (.add (.rd (.arr .dBdT 7)) (.rd (.arr .dBdT 16))) (.rd (.arr .dBdT 17))) (.rd (.arr .dBdT 6)))))))) (.rd (.var .rhoInv))),
  .set (.arr .jac 17) (.add (.rd (.arr .jac 17)) (.mul (.rd (.var .jTemp)) (.num 29018339999999998 15))),
  .set (.arr .jac 18) (.add (.rd (.arr .jac 18)) (.mul (.neg (.rd (.var .jTemp))) (.num 3002628 5))),
  .set (.arr .jac 7) (.add (.rd (.arr .jac 7)) (.mul (.neg (.rd (.var .jTemp))) (.num 33006740000000001 15))),
  .set (.arr .jac 8) (.add (.rd (.arr .jac 8)) (.mul (.rd (.var .jTemp)) (.num 34014679999999998 15)))]

/-- utilities/mechanisms/gri30/lib/src/jacobs/jacob_3.c:245-251 -/
def jacobT121 : List CStmt := [
  .set (.var .jTemp) (.mul (.mul (.div (.num 1 0) (.rd (.var .T))) (.sub (.add (.mul (.sub (.rd (.arr .fwd 121)) (.rd (.arr .rev 121))) (.div (.num 28985446935887768 14) (.rd (.var .T)))) (.mul (.rd (.arr .fwd 121)) (.neg (.num 1 0)))) (.mul (.rd (.arr .rev 121)) (.add (.neg (.num 1 0)) (.mul (.neg (.rd (.var .T))) (.sub (.sub (.add (.rd (.arr .dBdT 14)) (.rd (.arr .dBdT 2))) (.rd (.arr .dBdT 8))) (.rd (.arr .dBdT 3)))))))) (.rd (.var .rhoInv))),
  .set (.arr .jac 9) (.add (.rd (.arr .jac 9)) (.mul (.neg (.rd (.var .jTemp))) (.num 12010999999999999 15))),
  .set (.arr .jac 3) (.add (.rd (.arr .jac 3)) (.mul (.rd (.var .jTemp)) (.num 159994 4))),
  .set (.arr .jac 4) (.add (.rd (.arr .jac 4)) (.mul (.neg (.rd (.var .jTemp))) (.num 31998799999999999 15))),
  .set (.arr .jac 15) (.add (.rd (.arr .jac 15)) (.mul (.rd (.var .jTemp)) (.num 28010399999999997 15)))]

/-- utilities/mechanisms/gri30/lib/src/jacobs/jacob_3.c:472-478 -/
def jacobT122 : List CStmt := [
  .set (.var .jTemp) (.mul (.mul (.div (.num 1 0) (.rd (.var .T))) (.sub (.mul (.rd (.arr .fwd 122)) (.neg (.num 1 0))) (.mul (.rd (.arr .rev 122)) (.add (.neg (.num 1 0)) (.mul (.neg (.rd (.var .T))) (.sub (.sub (.add (.rd (.arr .dBdT 1)) (.rd (.arr .dBdT 21))) (.rd (.arr .dBdT 8))) (.rd (.arr .dBdT 10)))))))) (.rd (.var .rhoInv))),
  .set (.arr .jac 9) (.add (.rd (.arr .jac 9)) (.mul (.neg (.rd (.var .jTemp))) (.num 12010999999999999 15))),
  .set (.arr .jac 2) (.add (.rd (.arr .jac 2)) (.mul (.rd (.var .jTemp)) (.num 10079400000000001 16))),
  .set (.arr .jac 11) (.add (.rd (.arr .jac 11)) (.mul (.neg (.rd (.var .jTemp))) (.num 14026879999999998 15))),
  .set (.arr .jac 22) (.add (.rd (.arr .jac 22)) (.mul (.rd (.var .jTemp)) (.num 2502994 5)))]

/-- utilities/mechanisms/gri30/lib/src/jacobs/jacob_3.c:699-705 -/
def jacobT123 : List CStmt := [
  .set (.var .jTemp) (.mul (.mul (.div (.num 1 0) (.rd (.var .T))) (.sub (.mul (.rd (.arr .fwd 123)) (.neg (.num 1 0))) (.mul (.rd (.arr .rev 123)) (.add (.neg (.num 1 0)) (.mul (.neg (.rd (.var .T))) (.sub (.sub (.add (.rd (.arr .dBdT 1)) (.rd (.arr .dBdT 22))) (.rd (.arr .dBdT 8))) (.rd (.arr .dBdT 12)))))))) (.rd (.var .rhoInv))),
  .set (.arr .jac 9) (.add (.rd (.arr .jac 9)) (.mul (.neg (.rd (.var .jTemp))) (.num 12010999999999999 15))),
  .set (.arr .jac 2) (.add (.rd (.arr .jac 2)) (.mul (.rd (.var .jTemp)) (.num 10079400000000001 16))),
  .set (.arr .jac 13) (.add (.rd (.arr .jac 13)) (.mul (.neg (.rd (.var .jTemp))) (.num 1503482 5))),
  .set (.arr .jac 23) (.add (.rd (.arr .jac 23)) (.mul (.rd (.var .jTemp)) (.num 26037879999999998 15)))]

/-- utilities/mechanisms/gri30/lib/src/jacobs/jacob_3.c:926-932 -/
def jacobT124 : List CStmt := [
  .set (.var .jTemp) (.mul (.mul (.div (.num 1 0) (.rd (.var .T))) (.sub (.mul (.rd (.arr .fwd 124)) (.neg (.num 1 0))) (.mul (.rd (.arr .rev 124)) (.add (.neg (.num 1 0)) (.mul (.neg (.rd (.var .T))) (.sub (.sub (.add (.rd (.arr .dBdT 16)) (.rd (.arr .dBdT 2))) (.rd (.arr .dBdT 9))) (.rd (.arr .dBdT 3)))))))) (.rd (.var .rhoInv))),
  .set (.arr .jac 17) (.add (.rd (.arr .jac 17)) (.mul (.rd (.var .jTemp)) (.num 29018339999999998 15))),
  .set (.arr .jac 10) (.add (.rd (.arr .jac 10)) (.mul (.neg (.rd (.var .jTemp))) (.num 13018939999999999 15))),
  .set (.arr .jac 3) (.add (.rd (.arr .jac 3)) (.mul (.rd (.var .jTemp)) (.num 159994 4))),
  .set (.arr .jac 4) (.add (.rd (.arr .jac 4)) (.mul (.neg (.rd (.var .jTemp))) (.num 31998799999999999 15)))]

/-- utilities/mechanisms/gri30/lib/src/jacobs/jacob_3.c:1153-1159 -/
def jacobT125 : List CStmt := [
  .set (.var .jTemp) (.mul (.mul (.div (.num 1 0) (.rd (.var .T))) (.sub (.add (.mul (.sub (.rd (.arr .fwd 125)) (.rd (.arr .rev 125))) (.div (.num 15650128467119957 13) (.rd (.var .T)))) (.mul (.rd (.arr .fwd 125)) (.neg (.num 1 0)))) (.mul (.rd (.arr .rev 125)) (.add (.neg (.num 1 0)) (.mul (.neg (.rd (.var .T))) (.sub (.sub (.add (.rd (.arr .dBdT 1)) (.rd (.arr .dBdT 10))) (.rd (.arr .dBdT 0))) (.rd (.arr .dBdT 9)))))))) (.rd (.var .rhoInv))),
  .set (.arr .jac 1) (.add (.rd (.arr .jac 1)) (.mul (.neg (.rd (.var .jTemp))) (.num 20158800000000001 16))),
  .set (.arr .jac 10) (.add (.rd (.arr .jac 10)) (.mul (.neg (.rd (.var .jTemp))) (.num 13018939999999999 15))),
  .set (.arr .jac 11) (.add (.rd (.arr .jac 11)) (.mul (.rd (.var .jTemp)) (.num 14026879999999998 15))),
  .set (.arr .jac 2) (.add (.rd (.arr .jac 2)) (.mul (.rd (.var .jTemp)) (.num 10079400000000001 16)))]

/-- utilities/mechanisms/gri30/lib/src/jacobs/jacob_3.c:1380-1386 -/
def jacobT126 : List CStmt := [
  .set (.var .jTemp) (.mul (.mul (.div (.num 1 0) (.rd (.var .T))) (.sub (.add (.mul (.sub (.rd (.arr .fwd 126)) (.rd (.arr .rev 126))) (.div (.neg (.num 37993077146866779 14)) (.rd (.var .T)))) (.mul (.rd (.arr .fwd 126)) (.neg (.num 1 0)))) (.mul (.rd (.arr .rev 126)) (.add (.neg (.num 1 0)) (.mul (.neg (.rd (.var .T))) (.sub (.sub (.add (.rd (.arr .dBdT 17)) (.rd (.arr .dBdT 1))) (.rd (.arr .dBdT 5))) (.rd (.arr .dBdT 9)))))))) (.rd (.var .rhoInv))),
  .set (.arr .jac 10) (.add (.rd (.arr .jac 10)) (.mul (.neg (.rd (.var .jTemp))) (.num 13018939999999999 15))),
  .set (.arr .jac 2) (.add (.rd (.arr .jac 2)) (.mul (.rd (.var .jTemp)) (.num 10079400000000001 16))),
  .set (.arr .jac 6) (.add (.rd (.arr .jac 6)) (.mul (.neg (.rd (.var .jTemp))) (.num 18015280000000001 15))),
  .set (.arr .jac 18) (.add (.rd (.arr .jac 18)) (.mul (.rd (.var .jTemp)) (.num 3002628 5)))]

/-- utilities/mechanisms/gri30/lib/src/jacobs/jacob_3.c:1607-1613 -/
def jacobT127 : List CStmt := [
  .set (.var .jTemp) (.mul (.mul (.div (.num 1 0) (.rd (.var .T))) (.sub (.mul (.rd (.arr .fwd 127)) (.neg (.num 1 0))) (.mul (.rd (.arr .rev 127)) (.add (.neg (.num 1 0)) (.mul (.neg (.rd (.var .T))) (.sub (.sub (.add (.rd (.arr .dBdT 1)) (.rd (.arr .dBdT 22))) (.rd (.arr .dBdT 10))) (.rd (.arr .dBdT 9)))))))) (.rd (.var .rhoInv))),
  .set (.arr .jac 10) (.add (.rd (.arr .jac 10)) (.mul (.neg (.rd (.var .jTemp))) (.num 13018939999999999 15))),
  .set (.arr .jac 11) (.add (.rd (.arr .jac 11)) (.mul (.neg (.rd (.var .jTemp))) (.num 14026879999999998 15))),
  .set (.arr .jac 23) (.add (.rd (.arr .jac 23)) (.mul (.rd (.var .jTemp)) (.num 26037879999999998 15))),
  .set (.arr .jac 2) (.add (.rd (.arr .jac 2)) (.mul (.rd (.var .jTemp)) (.num 10079400000000001 16)))]

/-- utilities/mechanisms/gri30/lib/src/jacobs/jacob_3.c:1834-1840 -/
def jacobT128 : List CStmt := [
  .set (.var .jTemp) (.mul (.mul (.div (.num 1 0) (.rd (.var .T))) (.sub (.mul (.rd (.arr .fwd 128)) (.neg (.num 1 0))) (.mul (.rd (.arr .rev 128)) (.add (.neg (.num 1 0)) (.mul (.neg (.rd (.var .T))) (.sub (.sub (.add (.rd (.arr .dBdT 1)) (.rd (.arr .dBdT 23))) (.rd (.arr .dBdT 9))) (.rd (.arr .dBdT 12)))))))) (.rd (.var .rhoInv))),
  .set (.arr .jac 10) (.add (.rd (.arr .jac 10)) (.mul (.neg (.rd (.var .jTemp))) (.num 13018939999999999 15))),
  .set (.arr .jac 24) (.add (.rd (.arr .jac 24)) (.mul (.rd (.var .jTemp)) (.num 27045819999999999 15))),
  .set (.arr .jac 13) (.add (.rd (.arr .jac 13)) (.mul (.neg (.rd (.var .jTemp))) (.num 1503482 5))),
  .set (.arr .jac 2) (.add (.rd (.arr .jac 2)) (.mul (.rd (.var .jTemp)) (.num 10079400000000001 16)))]

/-- utilities/mechanisms/gri30/lib/src/jacobs/jacob_3.c:2061-2067 -/
def jacobT129 : List CStmt := [
  .set (.var .jTemp) (.mul (.mul (.div (.num 1 0) (.rd (.var .T))) (.sub (.mul (.rd (.arr .fwd 129)) (.neg (.num 1 0))) (.mul (.rd (.arr .rev 129)) (.add (.neg (.num 1 0)) (.mul (.neg (.rd (.var .T))) (.sub (.sub (.add (.rd (.arr .dBdT 1)) (.rd (.arr .dBdT 24))) (.rd (.arr .dBdT 9))) (.rd (.arr .dBdT 13)))))))) (.rd (.var .rhoInv))),
  .set (.arr .jac 25) (.add (.rd (.arr .jac 25)) (.mul (.rd (.var .jTemp)) (.num 28053759999999997 15))),
  .set (.arr .jac 10) (.add (.rd (.arr .jac 10)) (.mul (.neg (.rd (.var .jTemp))) (.num 13018939999999999 15))),
  .set (.arr .jac 14) (.add (.rd (.arr .jac 14)) (.mul (.neg (.rd (.var .jTemp))) (.num 16042760000000001 15))),
  .set (.arr .jac 2) (.add (.rd (.arr .jac 2)) (.mul (.rd (.var .jTemp)) (.num 10079400000000001 16)))]

/-- utilities/mechanisms/gri30/lib/src/jacobs/jacob_3.c:2288-2299 -/
def jacobT130 : List CStmt := [
  .set (.var .concTemp) (.sub (.add (.add (.add (.add (.add (.add (.rd (.var .m)) (.mul (.num 1 0) (.rd (.arr .C 0)))) (.mul (.num 5 0) (.rd (.arr .C 5)))) (.mul (.num 1 0) (.rd (.arr .C 13)))) (.mul (.num 5 1) (.rd (.arr .C 14)))) (.mul (.num 1 0) (.rd (.arr .C 15)))) (.mul (.num 2 0) (.rd (.arr .C 26)))) (.mul (.num 3 1) (.rd (.arr .C 47)))),
  .set (.var .Pr) (.mul (.rd (.var .concTemp)) (.exp (.sub (.sub (.num 27011124397108194 15) (.mul (.num 374 2) (.rd (.var .logT)))) (.div (.num 97423307756733891 14) (.rd (.var .T)))))),
  .set (.var .Fcent) (.add (.add (.mul (.num 42430000000000001 17) (.exp (.div (.rd (.var .T)) (.neg (.num 23700000000000003 14))))) (.mul (.num 57569999999999999 17) (.exp (.div (.rd (.var .T)) (.neg (.num 1652 0)))))) (.exp (.div (.neg (.num 5069 0)) (.rd (.var .T))))),
  .set (.var .A) (.sub (.sub (.log10 (.fmax (.rd (.var .Pr)) (.num 1 300))) (.mul (.num 67 2) (.log10 (.fmax (.rd (.var .Fcent)) (.num 1 300))))) (.num 4 1)),
  .set (.var .B) (.sub (.sub (.num 806 3) (.mul (.num 11762 4) (.log10 (.fmax (.rd (.var .Fcent)) (.num 1 300))))) (.mul (.num 14 2) (.log10 (.fmax (.rd (.var .Pr)) (.num 1 300))))),
  .set (.var .lnFAB) (.div (.mul (.mul (.num 2 0) (.log (.fmax (.rd (.var .Fcent)) (.num 1 300)))) (.rd (.var .A))) (.mul (.mul (.mul (.mul (.rd (.var .B)) (.rd (.var .B))) (.rd (.var .B))) (.add (.num 1 0) (.div (.mul (.rd (.var .A)) (.rd (.var .A))) (.mul (.rd (.var .B)) (.rd (.var .B)))))) (.add (.num 1 0) (.div (.mul (.rd (.var .A)) (.rd (.var .A))) (.mul (.rd (.var .B)) (.rd (.var .B))))))),
  .set (.var .jTemp) (.mul (.add (.mul (.mul (.rd (.arr .presMod 21)) (.sub (.add (.div (.sub (.add (.neg (.num 374 2)) (.div (.num 97423307756733891 14) (.rd (.var .T)))) (.num 1 0)) (.mul (.rd (.var .T)) (.add (.num 1 0) (.rd (.var .Pr))))) (.mul (.sub (.div (.num 1 0) (.mul (.rd (.var .Fcent)) (.add (.num 1 0) (.div (.mul (.rd (.var .A)) (.rd (.var .A))) (.mul (.rd (.var .B)) (.rd (.var .B))))))) (.div (.mul (.rd (.var .lnFAB)) (.add (.mul (.neg (.num 2909773028751787 16)) (.rd (.var .B))) (.mul (.num 51081716961460466 17) (.rd (.var .A))))) (.rd (.var .Fcent)))) (.add (.sub (.mul (.neg (.num 17902953586497888 19)) (.exp (.div (.rd (.var .T)) (.neg (.num 23700000000000003 14))))) (.mul (.num 3484866828087167 19) (.exp (.div (.rd (.var .T)) (.neg (.num 1652 0)))))) (.mul (.div (.num 5069 0) (.mul (.rd (.var .T)) (.rd (.var .T)))) (.exp (.div (.neg (.num 5069 0)) (.rd (.var .T)))))))) (.div (.mul (.mul (.rd (.var .lnFAB)) (.add (.mul (.num 43429448190325176 17) (.rd (.var .B))) (.mul (.num 60801227466455256 18) (.rd (.var .A))))) (.sub (.add (.neg (.num 37400000000000002 16)) (.div (.num 97423307756733891 14) (.rd (.var .T)))) (.num 1 0))) (.rd (.var .T))))) (.sub (.rd (.arr .fwd 130)) (.rd (.arr .rev 130)))) (.mul (.div (.rd (.arr .presMod 21)) (.rd (.var .T))) (.sub (.mul (.rd (.arr .fwd 130)) (.neg (.num 1 0))) (.mul (.rd (.arr .rev 130)) (.mul (.neg (.rd (.var .T))) (.sub (.sub (.rd (.arr .dBdT 27)) (.rd (.arr .dBdT 9))) (.rd (.arr .dBdT 14)))))))) (.rd (.var .rhoInv))),
  .set (.arr .jac 10) (.add (.rd (.arr .jac 10)) (.mul (.neg (.rd (.var .jTemp))) (.num 13018939999999999 15))),
  .set (.arr .jac 28) (.add (.rd (.arr .jac 28)) (.mul (.rd (.var .jTemp)) (.num 41029339999999998 15))),
  .set (.arr .jac 15) (.add (.rd (.arr .jac 15)) (.mul (.neg (.rd (.var .jTemp))) (.num 28010399999999997 15)))]

/-- utilities/mechanisms/gri30/lib/src/jacobs/jacob_3.c:2470-2476 -/
def jacobT131 : List CStmt := [
  .set (.var .jTemp) (.mul (.mul (.div (.num 1 0) (.rd (.var .T))) (.sub (.add (.mul (.sub (.rd (.arr .fwd 131)) (.rd (.arr .rev 131))) (.div (.num 79468433682558962 13) (.rd (.var .T)))) (.mul (.rd (.arr .fwd 131)) (.neg (.num 1 0)))) (.mul (.rd (.arr .rev 131)) (.add (.neg (.num 1 0)) (.mul (.neg (.rd (.var .T))) (.sub (.sub (.add (.rd (.arr .dBdT 14)) (.rd (.arr .dBdT 16))) (.rd (.arr .dBdT 9))) (.rd (.arr .dBdT 15)))))))) (.rd (.var .rhoInv))),
  .set (.arr .jac 17) (.add (.rd (.arr .jac 17)) (.mul (.rd (.var .jTemp)) (.num 29018339999999998 15))),
  .set (.arr .jac 10) (.add (.rd (.arr .jac 10)) (.mul (.neg (.rd (.var .jTemp))) (.num 13018939999999999 15))),
  .set (.arr .jac 15) (.add (.rd (.arr .jac 15)) (.mul (.rd (.var .jTemp)) (.num 28010399999999997 15))),
  .set (.arr .jac 16) (.add (.rd (.arr .jac 16)) (.mul (.neg (.rd (.var .jTemp))) (.num 44009799999999998 15)))]

/-- utilities/mechanisms/gri30/lib/src/jacobs/jacob_3.c:2697-2703 -/
def jacobT132 : List CStmt := [
  .set (.var .jTemp) (.mul (.mul (.div (.num 1 0) (.rd (.var .T))) (.sub (.add (.mul (.sub (.rd (.arr .fwd 132)) (.rd (.arr .rev 132))) (.div (.neg (.num 25915807590246874 14)) (.rd (.var .T)))) (.mul (.rd (.arr .fwd 132)) (.neg (.num 1 0)))) (.mul (.rd (.arr .rev 132)) (.add (.neg (.num 1 0)) (.mul (.neg (.rd (.var .T))) (.sub (.sub (.add (.rd (.arr .dBdT 1)) (.rd (.arr .dBdT 28))) (.rd (.arr .dBdT 17))) (.rd (.arr .dBdT 9)))))))) (.rd (.var .rhoInv))),
  .set (.arr .jac 18) (.add (.rd (.arr .jac 18)) (.mul (.neg (.rd (.var .jTemp))) (.num 3002628 5))),
  .set (.arr .jac 2) (.add (.rd (.arr .jac 2)) (.mul (.rd (.var .jTemp)) (.num 10079400000000001 16))),
  .set (.arr .jac 29) (.add (.rd (.arr .jac 29)) (.mul (.rd (.var .jTemp)) (.num 42037279999999996 15))),
  .set (.arr .jac 10) (.add (.rd (.arr .jac 10)) (.mul (.neg (.rd (.var .jTemp))) (.num 13018939999999999 15)))]

/-- utilities/mechanisms/gri30/lib/src/jacobs/jacob_3.c:2924-2930 -/
def jacobT133 : List CStmt := [
  .set (.var .jTemp) (.mul (.mul (.div (.num 1 0) (.rd (.var .T))) (.sub (.mul (.rd (.arr .fwd 133)) (.neg (.num 1 0))) (.mul (.rd (.arr .rev 133)) (.add (.neg (.num 1 0)) (.mul (.neg (.rd (.var .T))) (.sub (.sub (.add (.rd (.arr .dBdT 14)) (.rd (.arr .dBdT 22))) (.rd (.arr .dBdT 9))) (.rd (.arr .dBdT 27)))))))) (.rd (.var .rhoInv))),
  .set (.arr .jac 10) (.add (.rd (.arr .jac 10)) (.mul (.neg (.rd (.var .jTemp))) (.num 13018939999999999 15))),
  .set (.arr .jac 28) (.add (.rd (.arr .jac 28)) (.mul (.neg (.rd (.var .jTemp))) (.num 41029339999999998 15))),
  .set (.arr .jac 23) (.add (.rd (.arr .jac 23)) (.mul (.rd (.var .jTemp)) (.num 26037879999999998 15))),
  .set (.arr .jac 15) (.add (.rd (.arr .jac 15)) (.mul (.rd (.var .jTemp)) (.num 28010399999999997 15)))]

/-- utilities/mechanisms/gri30/lib/src/jacobs/jacob_3.c:3151-3158 -/
def jacobT134 : List CStmt := [
  .set (.var .jTemp) (.mul (.mul (.div (.num 1 0) (.rd (.var .T))) (.mul (.rd (.arr .fwd 134)) (.add (.div (.num 75482934728874397 14) (.rd (.var .T))) (.neg (.num 1 0))))) (.rd (.var .rhoInv))),
  .set (.arr .jac 2) (.add (.rd (.arr .jac 2)) (.mul (.rd (.var .jTemp)) (.num 10079400000000001 16))),
  .set (.arr .jac 11) (.add (.rd (.arr .jac 11)) (.mul (.neg (.rd (.var .jTemp))) (.num 14026879999999998 15))),
  .set (.arr .jac 4) (.add (.rd (.arr .jac 4)) (.mul (.neg (.rd (.var .jTemp))) (.num 31998799999999999 15))),
  .set (.arr .jac 5) (.add (.rd (.arr .jac 5)) (.mul (.rd (.var .jTemp)) (.num 17007339999999999 15))),
  .set (.arr .jac 15) (.add (.rd (.arr .jac 15)) (.mul (.rd (.var .jTemp)) (.num 28010399999999997 15)))]

/-- utilities/mechanisms/gri30/lib/src/jacobs/jacob_3.c:3423-3429 -/
def jacobT135 : List CStmt := [
  .set (.var .jTemp) (.mul (.mul (.div (.num 1 0) (.rd (.var .T))) (.sub (.add (.mul (.sub (.rd (.arr .fwd 135)) (.rd (.arr .rev 134))) (.add (.num 2 0) (.div (.num 36382774539317456 13) (.rd (.var .T))))) (.mul (.rd (.arr .fwd 135)) (.neg (.num 1 0)))) (.mul (.rd (.arr .rev 134)) (.add (.neg (.num 1 0)) (.mul (.neg (.rd (.var .T))) (.sub (.sub (.add (.rd (.arr .dBdT 1)) (.rd (.arr .dBdT 12))) (.rd (.arr .dBdT 0))) (.rd (.arr .dBdT 10)))))))) (.rd (.var .rhoInv))),
  .set (.arr .jac 1) (.add (.rd (.arr .jac 1)) (.mul (.neg (.rd (.var .jTemp))) (.num 20158800000000001 16))),
  .set (.arr .jac 2) (.add (.rd (.arr .jac 2)) (.mul (.rd (.var .jTemp)) (.num 10079400000000001 16))),
  .set (.arr .jac 11) (.add (.rd (.arr .jac 11)) (.mul (.neg (.rd (.var .jTemp))) (.num 14026879999999998 15))),
  .set (.arr .jac 13) (.add (.rd (.arr .jac 13)) (.mul (.rd (.var .jTemp)) (.num 1503482 5)))]

/-- utilities/mechanisms/gri30/lib/src/jacobs/jacob_3.c:3650-3655 -/
def jacobT136 : List CStmt := [
  .set (.var .jTemp) (.mul (.mul (.div (.num 1 0) (.rd (.var .T))) (.sub (.add (.mul (.sub (.rd (.arr .fwd 136)) (.rd (.arr .rev 135))) (.div (.num 60104544826778383 13) (.rd (.var .T)))) (.mul (.rd (.arr .fwd 136)) (.neg (.num 1 0)))) (.mul (.rd (.arr .rev 135)) (.add (.neg (.num 1 0)) (.mul (.neg (.rd (.var .T))) (.sub (.add (.rd (.arr .dBdT 0)) (.rd (.arr .dBdT 22))) (.mul (.num 2 0) (.rd (.arr .dBdT 10))))))))) (.rd (.var .rhoInv))),
  .set (.arr .jac 1) (.add (.rd (.arr .jac 1)) (.mul (.rd (.var .jTemp)) (.num 20158800000000001 16))),
  .set (.arr .jac 11) (.add (.rd (.arr .jac 11)) (.mul (.mul (.rd (.var .jTemp)) (.neg (.num 2 0))) (.num 14026879999999998 15))),
  .set (.arr .jac 23) (.add (.rd (.arr .jac 23)) (.mul (.rd (.var .jTemp)) (.num 26037879999999998 15)))]

/-- utilities/mechanisms/gri30/lib/src/jacobs/jacob_3.c:3824-3830 -/
def jacobT137 : List CStmt := [
  .set (.var .jTemp) (.mul (.mul (.div (.num 1 0) (.rd (.var .T))) (.sub (.mul (.rd (.arr .fwd 137)) (.neg (.num 1 0))) (.mul (.rd (.arr .rev 136)) (.add (.neg (.num 1 0)) (.mul (.neg (.rd (.var .T))) (.sub (.sub (.add (.rd (.arr .dBdT 1)) (.rd (.arr .dBdT 24))) (.rd (.arr .dBdT 10))) (.rd (.arr .dBdT 12)))))))) (.rd (.var .rhoInv))),
  .set (.arr .jac 25) (.add (.rd (.arr .jac 25)) (.mul (.rd (.var .jTemp)) (.num 28053759999999997 15))),
  .set (.arr .jac 2) (.add (.rd (.arr .jac 2)) (.mul (.rd (.var .jTemp)) (.num 10079400000000001 16))),
  .set (.arr .jac 11) (.add (.rd (.arr .jac 11)) (.mul (.neg (.rd (.var .jTemp))) (.num 14026879999999998 15))),
  .set (.arr .jac 13) (.add (.rd (.arr .jac 13)) (.mul (.neg (.rd (.var .jTemp))) (.num 1503482 5)))]

/-- utilities/mechanisms/gri30/lib/src/jacobs/jacob_3.c:4051-4056 -/
def jacobT138 : List CStmt := [
  .set (.var .jTemp) (.mul (.mul (.div (.num 1 0) (.rd (.var .T))) (.sub (.add (.mul (.sub (.rd (.arr .fwd 138)) (.rd (.arr .rev 137))) (.add (.num 2 0) (.div (.num 41616258013852748 13) (.rd (.var .T))))) (.mul (.rd (.arr .fwd 138)) (.neg (.num 1 0)))) (.mul (.rd (.arr .rev 137)) (.add (.neg (.num 1 0)) (.mul (.neg (.rd (.var .T))) (.sub (.sub (.mul (.num 2 0) (.rd (.arr .dBdT 12))) (.rd (.arr .dBdT 10))) (.rd (.arr .dBdT 13)))))))) (.rd (.var .rhoInv))),
  .set (.arr .jac 11) (.add (.rd (.arr .jac 11)) (.mul (.neg (.rd (.var .jTemp))) (.num 14026879999999998 15))),
  .set (.arr .jac 13) (.add (.rd (.arr .jac 13)) (.mul (.mul (.rd (.var .jTemp)) (.num 2 0)) (.num 1503482 5))),
  .set (.arr .jac 14) (.add (.rd (.arr .jac 14)) (.mul (.neg (.rd (.var .jTemp))) (.num 16042760000000001 15)))]

/-- utilities/mechanisms/gri30/lib/src/jacobs/jacob_3.c:4225-4235 -/
def jacobT139 : List CStmt := [
  .set (.var .Pr) (.mul (.rd (.var .concTemp)) (.exp (.sub (.sub (.num 42646793898822224 15) (.mul (.num 561 2) (.rd (.var .logT)))) (.div (.num 13008225751609357 13) (.rd (.var .T)))))),
  .set (.var .Fcent) (.add (.add (.mul (.num 4093 4) (.exp (.div (.rd (.var .T)) (.neg (.num 275 0))))) (.mul (.num 5907 4) (.exp (.div (.rd (.var .T)) (.neg (.num 1226 0)))))) (.exp (.div (.neg (.num 5185 0)) (.rd (.var .T))))),
  .set (.var .A) (.sub (.sub (.log10 (.fmax (.rd (.var .Pr)) (.num 1 300))) (.mul (.num 67 2) (.log10 (.fmax (.rd (.var .Fcent)) (.num 1 300))))) (.num 4 1)),
  .set (.var .B) (.sub (.sub (.num 806 3) (.mul (.num 11762 4) (.log10 (.fmax (.rd (.var .Fcent)) (.num 1 300))))) (.mul (.num 14 2) (.log10 (.fmax (.rd (.var .Pr)) (.num 1 300))))),
  .set (.var .lnFAB) (.div (.mul (.mul (.num 2 0) (.log (.fmax (.rd (.var .Fcent)) (.num 1 300)))) (.rd (.var .A))) (.mul (.mul (.mul (.mul (.rd (.var .B)) (.rd (.var .B))) (.rd (.var .B))) (.add (.num 1 0) (.div (.mul (.rd (.var .A)) (.rd (.var .A))) (.mul (.rd (.var .B)) (.rd (.var .B)))))) (.add (.num 1 0) (.div (.mul (.rd (.var .A)) (.rd (.var .A))) (.mul (.rd (.var .B)) (.rd (.var .B))))))),
  .set (.var .jTemp) (.mul (.add (.mul (.mul (.rd (.arr .presMod 22)) (.sub (.add (.div (.sub (.add (.neg (.num 561 2)) (.div (.num 13008225751609357 13) (.rd (.var .T)))) (.num 1 0)) (.mul (.rd (.var .T)) (.add (.num 1 0) (.rd (.var .Pr))))) (.mul (.sub (.div (.num 1 0) (.mul (.rd (.var .Fcent)) (.add (.num 1 0) (.div (.mul (.rd (.var .A)) (.rd (.var .A))) (.mul (.rd (.var .B)) (.rd (.var .B))))))) (.div (.mul (.rd (.var .lnFAB)) (.add (.mul (.neg (.num 2909773028751787 16)) (.rd (.var .B))) (.mul (.num 51081716961460466 17) (.rd (.var .A))))) (.rd (.var .Fcent)))) (.add (.sub (.mul (.neg (.num 14883636363636364 19)) (.exp (.div (.rd (.var .T)) (.neg (.num 275 0))))) (.mul (.num 48181076672104407 20) (.exp (.div (.rd (.var .T)) (.neg (.num 1226 0)))))) (.mul (.div (.num 5185 0) (.mul (.rd (.var .T)) (.rd (.var .T)))) (.exp (.div (.neg (.num 5185 0)) (.rd (.var .T)))))))) (.div (.mul (.mul (.rd (.var .lnFAB)) (.add (.mul (.num 43429448190325176 17) (.rd (.var .B))) (.mul (.num 60801227466455256 18) (.rd (.var .A))))) (.sub (.add (.neg (.num 56100000000000003 16)) (.div (.num 13008225751609357 13) (.rd (.var .T)))) (.num 1 0))) (.rd (.var .T))))) (.sub (.rd (.arr .fwd 139)) (.rd (.arr .rev 138)))) (.mul (.div (.rd (.arr .presMod 22)) (.rd (.var .T))) (.sub (.add (.mul (.sub (.rd (.arr .fwd 139)) (.rd (.arr .rev 138))) (.add (.num 5 1) (.div (.num 22695202375148233 13) (.rd (.var .T))))) (.mul (.rd (.arr .fwd 139)) (.neg (.num 1 0)))) (.mul (.rd (.arr .rev 138)) (.mul (.neg (.rd (.var .T))) (.sub (.sub (.rd (.arr .dBdT 28)) (.rd (.arr .dBdT 10))) (.rd (.arr .dBdT 14)))))))) (.rd (.var .rhoInv))),
  .set (.arr .jac 11) (.add (.rd (.arr .jac 11)) (.mul (.neg (.rd (.var .jTemp))) (.num 14026879999999998 15))),
  .set (.arr .jac 29) (.add (.rd (.arr .jac 29)) (.mul (.rd (.var .jTemp)) (.num 42037279999999996 15))),
  .set (.arr .jac 15) (.add (.rd (.arr .jac 15)) (.mul (.neg (.rd (.var .jTemp))) (.num 28010399999999997 15)))]

/-- utilities/mechanisms/gri30/lib/src/jacobs/jacob_3.c:4406-4412 -/
def jacobT140 : List CStmt := [
  .set (.var .jTemp) (.mul (.mul (.div (.num 1 0) (.rd (.var .T))) (.sub (.mul (.rd (.arr .fwd 140)) (.neg (.num 1 0))) (.mul (.rd (.arr .rev 139)) (.add (.neg (.num 1 0)) (.mul (.neg (.rd (.var .T))) (.sub (.sub (.add (.rd (.arr .dBdT 23)) (.rd (.arr .dBdT 14))) (.rd (.arr .dBdT 10))) (.rd (.arr .dBdT 27)))))))) (.rd (.var .rhoInv))),
  .set (.arr .jac 11) (.add (.rd (.arr .jac 11)) (.mul (.neg (.rd (.var .jTemp))) (.num 14026879999999998 15))),
  .set (.arr .jac 28) (.add (.rd (.arr .jac 28)) (.mul (.neg (.rd (.var .jTemp))) (.num 41029339999999998 15))),
  .set (.arr .jac 15) (.add (.rd (.arr .jac 15)) (.mul (.rd (.var .jTemp)) (.num 28010399999999997 15))),
  .set (.arr .jac 24) (.add (.rd (.arr .jac 24)) (.mul (.rd (.var .jTemp)) (.num 27045819999999999 15)))]

/-- utilities/mechanisms/gri30/lib/src/jacobs/jacob_3.c:4633-4637 -/
def jacobT141 : List CStmt := [
  .set (.var .jTemp) (.mul (.mul (.div (.num 1 0) (.rd (.var .T))) (.sub (.add (.mul (.sub (.rd (.arr .fwd 141)) (.rd (.arr .rev 140))) (.div (.num 30193173891549759 14) (.rd (.var .T)))) (.mul (.rd (.arr .fwd 141)) (.neg (.num 1 0)))) (.mul (.rd (.arr .rev 140)) (.add (.neg (.num 1 0)) (.mul (.neg (.rd (.var .T))) (.sub (.rd (.arr .dBdT 10)) (.rd (.arr .dBdT 11)))))))) (.rd (.var .rhoInv))),
  .set (.arr .jac 11) (.add (.rd (.arr .jac 11)) (.mul (.rd (.var .jTemp)) (.num 14026879999999998 15))),
  .set (.arr .jac 12) (.add (.rd (.arr .jac 12)) (.mul (.neg (.rd (.var .jTemp))) (.num 14026879999999998 15)))]

/-- utilities/mechanisms/gri30/lib/src/jacobs/jacob_3.c:4754-4758 -/
def jacobT142 : List CStmt := [
  .set (.var .jTemp) (.mul (.mul (.div (.num 1 0) (.rd (.var .T))) (.sub (.add (.mul (.sub (.rd (.arr .fwd 142)) (.rd (.arr .rev 141))) (.div (.num 30193173891549759 14) (.rd (.var .T)))) (.mul (.rd (.arr .fwd 142)) (.neg (.num 1 0)))) (.mul (.rd (.arr .rev 141)) (.add (.neg (.num 1 0)) (.mul (.neg (.rd (.var .T))) (.sub (.rd (.arr .dBdT 10)) (.rd (.arr .dBdT 11)))))))) (.rd (.var .rhoInv))),
  .set (.arr .jac 11) (.add (.rd (.arr .jac 11)) (.mul (.rd (.var .jTemp)) (.num 14026879999999998 15))),
  .set (.arr .jac 12) (.add (.rd (.arr .jac 12)) (.mul (.neg (.rd (.var .jTemp))) (.num 14026879999999998 15)))]

/-- utilities/mechanisms/gri30/lib/src/jacobs/jacob_3.c:4875-4882 -/
def jacobT143 : List CStmt := [
  .set (.var .jTemp) (.mul (.mul (.div (.num 1 0) (.rd (.var .T))) (.sub (.mul (.rd (.arr .fwd 143)) (.neg (.num 1 0))) (.mul (.rd (.arr .rev 142)) (.add (.neg (.num 2 0)) (.mul (.neg (.rd (.var .T))) (.sub (.sub (.add (.add (.rd (.arr .dBdT 1)) (.rd (.arr .dBdT 14))) (.rd (.arr .dBdT 4))) (.rd (.arr .dBdT 11))) (.rd (.arr .dBdT 3)))))))) (.rd (.var .rhoInv))),
  .set (.arr .jac 4) (.add (.rd (.arr .jac 4)) (.mul (.neg (.rd (.var .jTemp))) (.num 31998799999999999 15))),
  .set (.arr .jac 2) (.add (.rd (.arr .jac 2)) (.mul (.rd (.var .jTemp)) (.num 10079400000000001 16))),
  .set (.arr .jac 12) (.add (.rd (.arr .jac 12)) (.mul (.neg (.rd (.var .jTemp))) (.num 14026879999999998 15))),
  .set (.arr .jac 5) (.add (.rd (.arr .jac 5)) (.mul (.rd (.var .jTemp)) (.num 17007339999999999 15))),
  .set (.arr .jac 15) (.add (.rd (.arr .jac 15)) (.mul (.rd (.var .jTemp)) (.num 28010399999999997 15)))]

/-- utilities/mechanisms/gri30/lib/src/jacobs/jacob_3.c:5155-5161 -/
def jacobT144 : List CStmt := [
  .set (.var .jTemp) (.mul (.mul (.div (.num 1 0) (.rd (.var .T))) (.sub (.mul (.rd (.arr .fwd 144)) (.neg (.num 1 0))) (.mul (.rd (.arr .rev 143)) (.add (.neg (.num 1 0)) (.mul (.neg (.rd (.var .T))) (.sub (.sub (.add (.rd (.arr .dBdT 5)) (.rd (.arr .dBdT 14))) (.rd (.arr .dBdT 11))) (.rd (.arr .dBdT 3)))))))) (.rd (.var .rhoInv))),
  .set (.arr .jac 4) (.add (.rd (.arr .jac 4)) (.mul (.neg (.rd (.var .jTemp))) (.num 31998799999999999 15))),
  .set (.arr .jac 12) (.add (.rd (.arr .jac 12)) (.mul (.neg (.rd (.var .jTemp))) (.num 14026879999999998 15))),
  .set (.arr .jac 6) (.add (.rd (.arr .jac 6)) (.mul (.rd (.var .jTemp)) (.num 18015280000000001 15))),
  .set (.arr .jac 15) (.add (.rd (.arr .jac 15)) (.mul (.rd (.var .jTemp)) (.num 28010399999999997 15)))]

/-- utilities/mechanisms/gri30/lib/src/jacobs/jacob_3.c:5382-5388 -/
def jacobT145 : List CStmt := [
  .set (.var .jTemp) (.mul (.mul (.div (.num 1 0) (.rd (.var .T))) (.sub (.mul (.rd (.arr .fwd 145)) (.neg (.num 1 0))) (.mul (.rd (.arr .rev 144)) (.add (.neg (.num 1 0)) (.mul (.neg (.rd (.var .T))) (.sub (.sub (.add (.rd (.arr .dBdT 1)) (.rd (.arr .dBdT 12))) (.rd (.arr .dBdT 0))) (.rd (.arr .dBdT 11)))))))) (.rd (.var .rhoInv))),
  .set (.arr .jac 1) (.add (.rd (.arr .jac 1)) (.mul (.neg (.rd (.var .jTemp))) (.num 20158800000000001 16))),
  .set (.arr .jac 2) (.add (.rd (.arr .jac 2)) (.mul (.rd (.var .jTemp)) (.num 10079400000000001 16))),
  .set (.arr .jac 12) (.add (.rd (.arr .jac 12)) (.mul (.neg (.rd (.var .jTemp))) (.num 14026879999999998 15))),
  .set (.arr .jac 13) (.add (.rd (.arr .jac 13)) (.mul (.rd (.var .jTemp)) (.num 1503482 5)))]

/-- utilities/mechanisms/gri30/lib/src/jacobs/jacob_3.c:5609-5620 -/
def jacobT146 : List CStmt := [
  .set (.var .concTemp) (.add (.rd (.var .concTemp)) (.mul (.num 3 1) (.rd (.arr .C 47)))),
  .set (.var .Pr) (.mul (.rd (.var .concTemp)) (.exp (.sub (.sub (.num 40505029522672174 15) (.mul (.num 52 1) (.rd (.var .logT)))) (.div (.num 19600402051264382 13) (.rd (.var .T)))))),
  .set (.var .Fcent) (.add (.add (.mul (.num 39729999999999999 17) (.exp (.div (.rd (.var .T)) (.neg (.num 208 0))))) (.mul (.num 60270000000000001 17) (.exp (.div (.rd (.var .T)) (.neg (.num 39219999999999995 13)))))) (.exp (.div (.neg (.num 10180 0)) (.rd (.var .T))))),
  .set (.var .A) (.sub (.sub (.log10 (.fmax (.rd (.var .Pr)) (.num 1 300))) (.mul (.num 67 2) (.log10 (.fmax (.rd (.var .Fcent)) (.num 1 300))))) (.num 4 1)),
  .set (.var .B) (.sub (.sub (.num 806 3) (.mul (.num 11762 4) (.log10 (.fmax (.rd (.var .Fcent)) (.num 1 300))))) (.mul (.num 14 2) (.log10 (.fmax (.rd (.var .Pr)) (.num 1 300))))),
  .set (.var .lnFAB) (.div (.mul (.mul (.num 2 0) (.log (.fmax (.rd (.var .Fcent)) (.num 1 300)))) (.rd (.var .A))) (.mul (.mul (.mul (.mul (.rd (.var .B)) (.rd (.var .B))) (.rd (.var .B))) (.add (.num 1 0) (.div (.mul (.rd (.var .A)) (.rd (.var .A))) (.mul (.rd (.var .B)) (.rd (.var .B)))))) (.add (.num 1 0) (.div (.mul (.rd (.var .A)) (.rd (.var .A))) (.mul (.rd (.var .B)) (.rd (.var .B))))))),
  .set (.var .jTemp) (.mul (.add (.mul (.mul (.rd (.arr .presMod 23)) (.sub (.add (.div (.sub (.add (.neg (.num 52 1)) (.div (.num 19600402051264382 13) (.rd (.var .T)))) (.num 1 0)) (.mul (.rd (.var .T)) (.add (.num 1 0) (.rd (.var .Pr))))) (.mul (.sub (.div (.num 1 0) (.mul (.rd (.var .Fcent)) (.add (.num 1 0) (.div (.mul (.rd (.var .A)) (.rd (.var .A))) (.mul (.rd (.var .B)) (.rd (.var .B))))))) (.div (.mul (.rd (.var .lnFAB)) (.add (.mul (.neg (.num 2909773028751787 16)) (.rd (.var .B))) (.mul (.num 51081716961460466 17) (.rd (.var .A))))) (.rd (.var .Fcent)))) (.add (.sub (.mul (.neg (.num 19100961538461537 19)) (.exp (.div (.rd (.var .T)) (.neg (.num 208 0))))) (.mul (.num 15367159612442632 20) (.exp (.div (.rd (.var .T)) (.neg (.num 39219999999999995 13)))))) (.mul (.div (.num 10180 0) (.mul (.rd (.var .T)) (.rd (.var .T)))) (.exp (.div (.neg (.num 10180 0)) (.rd (.var .T)))))))) (.div (.mul (.mul (.rd (.var .lnFAB)) (.add (.mul (.num 43429448190325176 17) (.rd (.var .B))) (.mul (.num 60801227466455256 18) (.rd (.var .A))))) (.sub (.add (.neg (.num 52000000000000002 16)) (.div (.num 19600402051264382 13) (.rd (.var .T)))) (.num 1 0))) (.rd (.var .T))))) (.sub (.rd (.arr .fwd 146)) (.rd (.arr .rev 145)))) (.mul (.div (.rd (.arr .presMod 23)) (.rd (.var .T))) (.sub (.add (.mul (.sub (.rd (.arr .fwd 146)) (.rd (.arr .rev 145))) (.add (.neg (.num 11599999999999999 16)) (.div (.num 57618640176374117 14) (.rd (.var .T))))) (.mul (.rd (.arr .fwd 146)) (.neg (.num 1 0)))) (.mul (.rd (.arr .rev 145)) (.mul (.neg (.rd (.var .T))) (.sub (.sub (.rd (.arr .dBdT 20)) (.rd (.arr .dBdT 11))) (.rd (.arr .dBdT 5)))))))) (.rd (.var .rhoInv))),
  .set (.arr .jac 12) (.add (.rd (.arr .jac 12)) (.mul (.neg (.rd (.var .jTemp))) (.num 14026879999999998 15))),
  .set (.arr .jac 21) (.add (.rd (.arr .jac 21)) (.mul (.rd (.var .jTemp)) (.num 32042159999999996 15))),
  .set (.arr .jac 6) (.add (.rd (.arr .jac 6)) (.mul (.neg (.rd (.var .jTemp))) (.num 18015280000000001 15)))]

/-- utilities/mechanisms/gri30/lib/src/jacobs/jacob_3.c:5791-5795 -/
def jacobT147 : List CStmt := [
  .set (.var .jTemp) (.mul (.mul (.div (.num 1 0) (.rd (.var .T))) (.sub (.mul (.rd (.arr .fwd 147)) (.neg (.num 1 0))) (.mul (.rd (.arr .rev 146)) (.add (.neg (.num 1 0)) (.mul (.neg (.rd (.var .T))) (.sub (.rd (.arr .dBdT 10)) (.rd (.arr .dBdT 11)))))))) (.rd (.var .rhoInv))),
  .set (.arr .jac 11) (.add (.rd (.arr .jac 11)) (.mul (.rd (.var .jTemp)) (.num 14026879999999998 15))),
  .set (.arr .jac 12) (.add (.rd (.arr .jac 12)) (.mul (.neg (.rd (.var .jTemp))) (.num 14026879999999998 15)))]

/-- utilities/mechanisms/gri30/lib/src/jacobs/jacob_3.c:5912-5918 -/
def jacobT148 : List CStmt := [
  .set (.var .jTemp) (.mul (.mul (.div (.num 1 0) (.rd (.var .T))) (.sub (.add (.mul (.sub (.rd (.arr .fwd 148)) (.rd (.arr .rev 147))) (.div (.neg (.num 28683515196972269 14)) (.rd (.var .T)))) (.mul (.rd (.arr .fwd 148)) (.neg (.num 1 0)))) (.mul (.rd (.arr .rev 147)) (.add (.neg (.num 1 0)) (.mul (.neg (.rd (.var .T))) (.sub (.sub (.add (.rd (.arr .dBdT 1)) (.rd (.arr .dBdT 24))) (.rd (.arr .dBdT 11))) (.rd (.arr .dBdT 12)))))))) (.rd (.var .rhoInv))),
  .set (.arr .jac 25) (.add (.rd (.arr .jac 25)) (.mul (.rd (.var .jTemp)) (.num 28053759999999997 15))),
  .set (.arr .jac 2) (.add (.rd (.arr .jac 2)) (.mul (.rd (.var .jTemp)) (.num 10079400000000001 16))),
  .set (.arr .jac 12) (.add (.rd (.arr .jac 12)) (.mul (.neg (.rd (.var .jTemp))) (.num 14026879999999998 15))),
  .set (.arr .jac 13) (.add (.rd (.arr .jac 13)) (.mul (.neg (.rd (.var .jTemp))) (.num 1503482 5)))]

/-- utilities/mechanisms/gri30/lib/src/jacobs/jacob_3.c:6139-6144 -/
def jacobT149 : List CStmt := [
  .set (.var .jTemp) (.mul (.mul (.div (.num 1 0) (.rd (.var .T))) (.sub (.add (.mul (.sub (.rd (.arr .fwd 149)) (.rd (.arr .rev 148))) (.div (.neg (.num 28683515196972269 14)) (.rd (.var .T)))) (.mul (.rd (.arr .fwd 149)) (.neg (.num 1 0)))) (.mul (.rd (.arr .rev 148)) (.add (.neg (.num 1 0)) (.mul (.neg (.rd (.var .T))) (.sub (.sub (.mul (.num 2 0) (.rd (.arr .dBdT 12))) (.rd (.arr .dBdT 11))) (.rd (.arr .dBdT 13)))))))) (.rd (.var .rhoInv))),
  .set (.arr .jac 12) (.add (.rd (.arr .jac 12)) (.mul (.neg (.rd (.var .jTemp))) (.num 14026879999999998 15))),
  .set (.arr .jac 13) (.add (.rd (.arr .jac 13)) (.mul (.mul (.rd (.var .jTemp)) (.num 2 0)) (.num 1503482 5))),
  .set (.arr .jac 14) (.add (.rd (.arr .jac 14)) (.mul (.neg (.rd (.var .jTemp))) (.num 16042760000000001 15)))]

/-- utilities/mechanisms/gri30/lib/src/jacobs/jacob_3.c:6313-6317 -/
def jacobT150 : List CStmt := [
  .set (.var .jTemp) (.mul (.mul (.div (.num 1 0) (.rd (.var .T))) (.sub (.mul (.rd (.arr .fwd 150)) (.neg (.num 1 0))) (.mul (.rd (.arr .rev 149)) (.add (.neg (.num 1 0)) (.mul (.neg (.rd (.var .T))) (.sub (.rd (.arr .dBdT 10)) (.rd (.arr .dBdT 11)))))))) (.rd (.var .rhoInv))),
  .set (.arr .jac 11) (.add (.rd (.arr .jac 11)) (.mul (.rd (.var .jTemp)) (.num 14026879999999998 15))),
  .set (.arr .jac 12) (.add (.rd (.arr .jac 12)) (.mul (.neg (.rd (.var .jTemp))) (.num 14026879999999998 15)))]

/-- utilities/mechanisms/gri30/lib/src/jacobs/jacob_3.c:6434-6438 -/
def jacobT151 : List CStmt := [
  .set (.var .jTemp) (.mul (.mul (.div (.num 1 0) (.rd (.var .T))) (.sub (.mul (.rd (.arr .fwd 151)) (.neg (.num 1 0))) (.mul (.rd (.arr .rev 150)) (.add (.neg (.num 1 0)) (.mul (.neg (.rd (.var .T))) (.sub (.rd (.arr .dBdT 10)) (.rd (.arr .dBdT 11)))))))) (.rd (.var .rhoInv))),
  .set (.arr .jac 11) (.add (.rd (.arr .jac 11)) (.mul (.rd (.var .jTemp)) (.num 14026879999999998 15))),
  .set (.arr .jac 12) (.add (.rd (.arr .jac 12)) (.mul (.neg (.rd (.var .jTemp))) (.num 14026879999999998 15)))]

/-- utilities/mechanisms/gri30/lib/src/jacobs/jacob_3.c:6555-6561 -/
def jacobT152 : List CStmt := [
  .set (.var .jTemp) (.mul (.mul (.div (.num 1 0) (.rd (.var .T))) (.sub (.mul (.rd (.arr .fwd 152)) (.neg (.num 1 0))) (.mul (.rd (.arr .rev 151)) (.add (.neg (.num 1 0)) (.mul (.neg (.rd (.var .T))) (.sub (.sub (.add (.rd (.arr .dBdT 17)) (.rd (.arr .dBdT 14))) (.rd (.arr .dBdT 11))) (.rd (.arr .dBdT 15)))))))) (.rd (.var .rhoInv))),
  .set (.arr .jac 18) (.add (.rd (.arr .jac 18)) (.mul (.rd (.var .jTemp)) (.num 3002628 5))),
  .set (.arr .jac 12) (.add (.rd (.arr .jac 12)) (.mul (.neg (.rd (.var .jTemp))) (.num 14026879999999998 15))),
  .set (.arr .jac 15) (.add (.rd (.arr .jac 15)) (.mul (.rd (.var .jTemp)) (.num 28010399999999997 15))),
  .set (.arr .jac 16) (.add (.rd (.arr .jac 16)) (.mul (.neg (.rd (.var .jTemp))) (.num 44009799999999998 15)))]

/-- utilities/mechanisms/gri30/lib/src/jacobs/jacob_3.c:6782-6788 -/
def jacobT153 : List CStmt := [
  .set (.var .jTemp) (.mul (.mul (.div (.num 1 0) (.rd (.var .T))) (.sub (.add (.mul (.sub (.rd (.arr .fwd 153)) (.rd (.arr .rev 152))) (.div (.neg (.num 27677076067253944 14)) (.rd (.var .T)))) (.mul (.rd (.arr .fwd 153)) (.neg (.num 1 0)))) (.mul (.rd (.arr .rev 152)) (.add (.neg (.num 1 0)) (.mul (.neg (.rd (.var .T))) (.sub (.sub (.add (.rd (.arr .dBdT 25)) (.rd (.arr .dBdT 12))) (.rd (.arr .dBdT 26))) (.rd (.arr .dBdT 11)))))))) (.rd (.var .rhoInv))),
  .set (.arr .jac 26) (.add (.rd (.arr .jac 26)) (.mul (.rd (.var .jTemp)) (.num 29061699999999998 15))),
  .set (.arr .jac 27) (.add (.rd (.arr .jac 27)) (.mul (.neg (.rd (.var .jTemp))) (.num 3006964 5))),
  .set (.arr .jac 12) (.add (.rd (.arr .jac 12)) (.mul (.neg (.rd (.var .jTemp))) (.num 14026879999999998 15))),
  .set (.arr .jac 13) (.add (.rd (.arr .jac 13)) (.mul (.rd (.var .jTemp)) (.num 1503482 5)))]

/-- utilities/mechanisms/gri30/lib/src/jacobs/jacob_3.c:7009-7015 -/
def jacobT154 : List CStmt := [
  .set (.var .jTemp) (.mul (.mul (.div (.num 1 0) (.rd (.var .T))) (.sub (.add (.mul (.sub (.rd (.arr .fwd 154)) (.rd (.arr .rev 153))) (.div (.num 15338132336907278 12) (.rd (.var .T)))) (.mul (.rd (.arr .fwd 154)) (.neg (.num 1 0)))) (.mul (.rd (.arr .rev 153)) (.add (.neg (.num 1 0)) (.mul (.neg (.rd (.var .T))) (.sub (.sub (.add (.rd (.arr .dBdT 19)) (.rd (.arr .dBdT 2))) (.rd (.arr .dBdT 12))) (.rd (.arr .dBdT 3)))))))) (.rd (.var .rhoInv))),
  .set (.arr .jac 20) (.add (.rd (.arr .jac 20)) (.mul (.rd (.var .jTemp)) (.num 31034219999999998 15))),
  .set (.arr .jac 3) (.add (.rd (.arr .jac 3)) (.mul (.rd (.var .jTemp)) (.num 159994 4))),
  .set (.arr .jac 4) (.add (.rd (.arr .jac 4)) (.mul (.neg (.rd (.var .jTemp))) (.num 31998799999999999 15))),
  .set (.arr .jac 13) (.add (.rd (.arr .jac 13)) (.mul (.neg (.rd (.var .jTemp))) (.num 1503482 5)))]

/-- utilities/mechanisms/gri30/lib/src/jacobs/jacob_3.c:7236-7242 -/
def jacobT155 : List CStmt := [
  .set (.var .jTemp) (.mul (.mul (.div (.num 1 0) (.rd (.var .T))) (.sub (.add (.mul (.sub (.rd (.arr .fwd 155)) (.rd (.arr .rev 154))) (.div (.num 10222905460113889 12) (.rd (.var .T)))) (.mul (.rd (.arr .fwd 155)) (.neg (.num 1 0)))) (.mul (.rd (.arr .rev 154)) (.add (.neg (.num 1 0)) (.mul (.neg (.rd (.var .T))) (.sub (.sub (.add (.rd (.arr .dBdT 17)) (.rd (.arr .dBdT 4))) (.rd (.arr .dBdT 12))) (.rd (.arr .dBdT 3)))))))) (.rd (.var .rhoInv))),
  .set (.arr .jac 18) (.add (.rd (.arr .jac 18)) (.mul (.rd (.var .jTemp)) (.num 3002628 5))),
  .set (.arr .jac 4) (.add (.rd (.arr .jac 4)) (.mul (.neg (.rd (.var .jTemp))) (.num 31998799999999999 15))),
  .set (.arr .jac 13) (.add (.rd (.arr .jac 13)) (.mul (.neg (.rd (.var .jTemp))) (.num 1503482 5))),
  .set (.arr .jac 5) (.add (.rd (.arr .jac 5)) (.mul (.rd (.var .jTemp)) (.num 17007339999999999 15)))]

/-- utilities/mechanisms/gri30/lib/src/jacobs/jacob_3.c:7463-7469 -/
def jacobT156 : List CStmt := [
  .set (.var .jTemp) (.mul (.mul (.div (.num 1 0) (.rd (.var .T))) (.sub (.add (.mul (.sub (.rd (.arr .fwd 156)) (.rd (.arr .rev 155))) (.add (.num 24700000000000002 16) (.div (.num 26066773459704623 13) (.rd (.var .T))))) (.mul (.rd (.arr .fwd 156)) (.neg (.num 1 0)))) (.mul (.rd (.arr .rev 155)) (.add (.neg (.num 1 0)) (.mul (.neg (.rd (.var .T))) (.sub (.sub (.add (.rd (.arr .dBdT 13)) (.rd (.arr .dBdT 6))) (.rd (.arr .dBdT 12))) (.rd (.arr .dBdT 7)))))))) (.rd (.var .rhoInv))),
  .set (.arr .jac 13) (.add (.rd (.arr .jac 13)) (.mul (.neg (.rd (.var .jTemp))) (.num 1503482 5))),
  .set (.arr .jac 14) (.add (.rd (.arr .jac 14)) (.mul (.rd (.var .jTemp)) (.num 16042760000000001 15))),
  .set (.arr .jac 7) (.add (.rd (.arr .jac 7)) (.mul (.rd (.var .jTemp)) (.num 33006740000000001 15))),
  .set (.arr .jac 8) (.add (.rd (.arr .jac 8)) (.mul (.neg (.rd (.var .jTemp))) (.num 34014679999999998 15)))]

/-- utilities/mechanisms/gri30/lib/src/jacobs/jacob_3.c:7690-7700 -/
def jacobT157 : List CStmt := [
  .set (.var .concTemp) (.add (.rd (.var .concTemp)) (.mul (.neg (.num 3 1)) (.rd (.arr .C 47)))),
  .set (.var .Pr) (.mul (.rd (.var .concTemp)) (.exp (.sub (.sub (.num 49968146390566936 15) (.mul (.num 585 2) (.rd (.var .logT)))) (.div (.num 10607868427231149 13) (.rd (.var .T)))))),
  .set (.var .Fcent) (.add (.add (.mul (.num 38100000000000001 17) (.exp (.div (.rd (.var .T)) (.neg (.num 73200000000000003 15))))) (.mul (.num 61899999999999999 17) (.exp (.div (.rd (.var .T)) (.neg (.num 1180 0)))))) (.exp (.div (.neg (.num 9999 0)) (.rd (.var .T))))),
  .set (.var .A) (.sub (.sub (.log10 (.fmax (.rd (.var .Pr)) (.num 1 300))) (.mul (.num 67 2) (.log10 (.fmax (.rd (.var .Fcent)) (.num 1 300))))) (.num 4 1)),
  .set (.var .B) (.sub (.sub (.num 806 3) (.mul (.num 11762 4) (.log10 (.fmax (.rd (.var .Fcent)) (.num 1 300))))) (.mul (.num 14 2) (.log10 (.fmax (.rd (.var .Pr)) (.num 1 300))))),
  .set (.var .lnFAB) (.div (.mul (.mul (.num 2 0) (.log (.fmax (.rd (.var .Fcent)) (.num 1 300)))) (.rd (.var .A))) (.mul (.mul (.mul (.mul (.rd (.var .B)) (.rd (.var .B))) (.rd (.var .B))) (.add (.num 1 0) (.div (.mul (.rd (.var .A)) (.rd (.var .A))) (.mul (.rd (.var .B)) (.rd (.var .B)))))) (.add (.num 1 0) (.div (.mul (.rd (.var .A)) (.rd (.var .A))) (.mul (.rd (.var .B)) (.rd (.var .B))))))),
  .set (.var .jTemp) (.mul (.add (.mul (.mul (.rd (.arr .presMod 24)) (.sub (.add (.div (.sub (.add (.neg (.num 585 2)) (.div (.num 10607868427231149 13) (.rd (.var .T)))) (.num 1 0)) (.mul (.rd (.var .T)) (.add (.num 1 0) (.rd (.var .Pr))))) (.mul (.sub (.div (.num 1 0) (.mul (.rd (.var .Fcent)) (.add (.num 1 0) (.div (.mul (.rd (.var .A)) (.rd (.var .A))) (.mul (.rd (.var .B)) (.rd (.var .B))))))) (.div (.mul (.rd (.var .lnFAB)) (.add (.mul (.neg (.num 2909773028751787 16)) (.rd (.var .B))) (.mul (.num 51081716961460466 17) (.rd (.var .A))))) (.rd (.var .Fcent)))) (.add (.sub (.mul (.neg (.num 52049180327868854 19)) (.exp (.div (.rd (.var .T)) (.neg (.num 73200000000000003 15))))) (.mul (.num 52457627118644072 20) (.exp (.div (.rd (.var .T)) (.neg (.num 1180 0)))))) (.mul (.div (.num 9999 0) (.mul (.rd (.var .T)) (.rd (.var .T)))) (.exp (.div (.neg (.num 9999 0)) (.rd (.var .T)))))))) (.div (.mul (.mul (.rd (.var .lnFAB)) (.add (.mul (.num 43429448190325176 17) (.rd (.var .B))) (.mul (.num 60801227466455256 18) (.rd (.var .A))))) (.sub (.add (.neg (.num 58500000000000005 16)) (.div (.num 10607868427231149 13) (.rd (.var .T)))) (.num 1 0))) (.rd (.var .T))))) (.sub (.rd (.arr .fwd 157)) (.rd (.arr .rev 156)))) (.mul (.div (.rd (.arr .presMod 24)) (.rd (.var .T))) (.sub (.add (.mul (.sub (.rd (.arr .fwd 157)) (.rd (.arr .rev 156))) (.add (.neg (.num 11799999999999999 16)) (.div (.num 32910559541789235 14) (.rd (.var .T))))) (.mul (.rd (.arr .fwd 157)) (.neg (.num 1 0)))) (.mul (.rd (.arr .rev 156)) (.mul (.neg (.rd (.var .T))) (.sub (.rd (.arr .dBdT 26)) (.mul (.num 2 0) (.rd (.arr .dBdT 12))))))))) (.rd (.var .rhoInv))),
  .set (.arr .jac 27) (.add (.rd (.arr .jac 27)) (.mul (.rd (.var .jTemp)) (.num 3006964 5))),
  .set (.arr .jac 13) (.add (.rd (.arr .jac 13)) (.mul (.mul (.rd (.var .jTemp)) (.neg (.num 2 0))) (.num 1503482 5)))]

/-- utilities/mechanisms/gri30/lib/src/jacobs/jacob_3.c:7819-7824 -/
def jacobT158 : List CStmt := [
  .set (.var .jTemp) (.mul (.mul (.div (.num 1 0) (.rd (.var .T))) (.sub (.add (.mul (.sub (.rd (.arr .fwd 158)) (.rd (.arr .rev 157))) (.add (.num 10000000000000001 17) (.div (.num 53341273875071238 13) (.rd (.var .T))))) (.mul (.rd (.arr .fwd 158)) (.neg (.num 1 0)))) (.mul (.rd (.arr .rev 157)) (.add (.neg (.num 1 0)) (.mul (.neg (.rd (.var .T))) (.sub (.add (.rd (.arr .dBdT 1)) (.rd (.arr .dBdT 25))) (.mul (.num 2 0) (.rd (.arr .dBdT 12))))))))) (.rd (.var .rhoInv))),
  .set (.arr .jac 2) (.add (.rd (.arr .jac 2)) (.mul (.rd (.var .jTemp)) (.num 10079400000000001 16))),
  .set (.arr .jac 13) (.add (.rd (.arr .jac 13)) (.mul (.mul (.rd (.var .jTemp)) (.neg (.num 2 0))) (.num 1503482 5))),
  .set (.arr .jac 26) (.add (.rd (.arr .jac 26)) (.mul (.rd (.var .jTemp)) (.num 29061699999999998 15)))]

/-- utilities/mechanisms/gri30/lib/src/jacobs/jacob_3.c:7993-7999 -/
def jacobT159 : List CStmt := [
  .set (.var .jTemp) (.mul (.mul (.div (.num 1 0) (.rd (.var .T))) (.sub (.mul (.rd (.arr .fwd 159)) (.neg (.num 1 0))) (.mul (.rd (.arr .rev 158)) (.add (.neg (.num 1 0)) (.mul (.neg (.rd (.var .T))) (.sub (.sub (.add (.rd (.arr .dBdT 13)) (.rd (.arr .dBdT 14))) (.rd (.arr .dBdT 12))) (.rd (.arr .dBdT 16)))))))) (.rd (.var .rhoInv))),
  .set (.arr .jac 17) (.add (.rd (.arr .jac 17)) (.mul (.neg (.rd (.var .jTemp))) (.num 29018339999999998 15))),
  .set (.arr .jac 13) (.add (.rd (.arr .jac 13)) (.mul (.neg (.rd (.var .jTemp))) (.num 1503482 5))),
  .set (.arr .jac 14) (.add (.rd (.arr .jac 14)) (.mul (.rd (.var .jTemp)) (.num 16042760000000001 15))),
  .set (.arr .jac 15) (.add (.rd (.arr .jac 15)) (.mul (.rd (.var .jTemp)) (.num 28010399999999997 15)))]

/-- The derivatives with respect to the temperature in `eval_jacob_3`, one block per reaction, utilities/mechanisms/gri30/lib/src/jacobs/jacob_3.c:5-8219. -/
def jacob3Blocks : List (List CStmt × List CStmt) := [
  (jacobT120, []), (jacobT121, []), (jacobT122, []), (jacobT123, []), (jacobT124, []), (jacobT125, []), (jacobT126, []), (jacobT127, []), (jacobT128, []), (jacobT129, []), (jacobT130, []), (jacobT131, []), (jacobT132, []), (jacobT133, []), (jacobT134, []), (jacobT135, []), (jacobT136, []), (jacobT137, []), (jacobT138, []), (jacobT139, []), (jacobT140, []), (jacobT141, []), (jacobT142, []), (jacobT143, []), (jacobT144, []), (jacobT145, []), (jacobT146, []), (jacobT147, []), (jacobT148, []), (jacobT149, []), (jacobT150, []), (jacobT151, []), (jacobT152, []), (jacobT153, []), (jacobT154, []), (jacobT155, []), (jacobT156, []), (jacobT157, []), (jacobT158, []), (jacobT159, [])]

end DLB.Mech.Gri30
