/- Generated by tools/gen_mechanisms.py from utilities/mechanisms/gri30/lib/src/jacobs/jacob_4.c. Do not edit. -/
import Verif.Model.CLang
set_option autoImplicit false
set_option maxRecDepth 1000000

namespace DLB.Mech.Gri30
open DLB

/-- utilities/mechanisms/gri30/lib/src/jacobs/jacob_4.c:5-17 -/
def jacob4Start : List CStmt := [
  .set (.var .logT) (.log (.rd (.var .T))),
  .set (.var .kf) (.num 0 0),
  .set (.var .jTemp) (.num 0 0),
  .set (.var .presModTemp) (.num 0 0),
  .set (.var .Kc) (.num 0 0),
  .set (.var .kr) (.num 0 0),
  .set (.var .Pr) (.num 0 0),
  .set (.var .Fcent) (.num 0 0),
  .set (.var .A) (.num 0 0),
  .set (.var .B) (.num 0 0),
  .set (.var .lnFAB) (.num 0 0),
  .set (.var .rhoInv) (.div (.num 1 0) (.rd (.var .rho)))]

/-- utilities/mechanisms/gri30/lib/src/jacobs/jacob_4.c:18-24 -/
def jacobT160 : List CStmt := [
  .set (.var .jTemp) (.mul (.mul (.div (.num 1 0) (.rd (.var .T))) (.sub (.add (.mul (.sub (.rd (.arr .fwd 160)) (.rd (.arr .rev 159))) (.add (.num 28100000000000001 16) (.div (.num 29488666500746931 13) (.rd (.var .T))))) (.mul (.rd (.arr .fwd 160)) (.neg (.num 1 0)))) (.mul (.rd (.arr .rev 159)) (.add (.neg (.num 1 0)) (.mul (.neg (.rd (.var .T))) (.sub (.sub (.add (.rd (.arr .dBdT 13)) (.rd (.arr .dBdT 16))) (.rd (.arr .dBdT 17))) (.rd (.arr .dBdT 12)))))))) (.rd (.var .rhoInv))),
  .set (.arr .jac 17) (.add (.rd (.arr .jac 17)) (.mul (.rd (.var .jTemp)) (.num 29018339999999998 15))),
  .set (.arr .jac 18) (.add (.rd (.arr .jac 18)) (.mul (.neg (.rd (.var .jTemp))) (.num 3002628 5))),
  .set (.arr .jac 13) (.add (.rd (.arr .jac 13)) (.mul (.neg (.rd (.var .jTemp))) (.num 1503482 5))),
  .set (.arr .jac 14) (.add (.rd (.arr .jac 14)) (.mul (.rd (.var .jTemp)) (.num 16042760000000001 15)))]

/-- utilities/mechanisms/gri30/lib/src/jacobs/jacob_4.c:245-251 -/
def jacobT161 : List CStmt := [
  .set (.var .jTemp) (.mul (.mul (.div (.num 1 0) (.rd (.var .T))) (.sub (.add (.mul (.sub (.rd (.arr .fwd 161)) (.rd (.arr .rev 160))) (.add (.num 15 1) (.div (.num 50020024747000762 13) (.rd (.var .T))))) (.mul (.rd (.arr .fwd 161)) (.neg (.num 1 0)))) (.mul (.rd (.arr .rev 160)) (.add (.neg (.num 1 0)) (.mul (.neg (.rd (.var .T))) (.sub (.sub (.add (.rd (.arr .dBdT 18)) (.rd (.arr .dBdT 13))) (.rd (.arr .dBdT 20))) (.rd (.arr .dBdT 12)))))))) (.rd (.var .rhoInv))),
  .set (.arr .jac 13) (.add (.rd (.arr .jac 13)) (.mul (.neg (.rd (.var .jTemp))) (.num 1503482 5))),
  .set (.arr .jac 19) (.add (.rd (.arr .jac 19)) (.mul (.rd (.var .jTemp)) (.num 31034219999999998 15))),
  .set (.arr .jac 21) (.add (.rd (.arr .jac 21)) (.mul (.neg (.rd (.var .jTemp))) (.num 32042159999999996 15))),
  .set (.arr .jac 14) (.add (.rd (.arr .jac 14)) (.mul (.rd (.var .jTemp)) (.num 16042760000000001 15)))]

/-- utilities/mechanisms/gri30/lib/src/jacobs/jacob_4.c:472-478 -/
def jacobT162 : List CStmt := [
  .set (.var .jTemp) (.mul (.mul (.div (.num 1 0) (.rd (.var .T))) (.sub (.add (.mul (.sub (.rd (.arr .fwd 162)) (.rd (.arr .rev 161))) (.add (.num 15 1) (.div (.num 50020024747000762 13) (.rd (.var .T))))) (.mul (.rd (.arr .fwd 162)) (.neg (.num 1 0)))) (.mul (.rd (.arr .rev 161)) (.add (.neg (.num 1 0)) (.mul (.neg (.rd (.var .T))) (.sub (.sub (.add (.rd (.arr .dBdT 19)) (.rd (.arr .dBdT 13))) (.rd (.arr .dBdT 20))) (.rd (.arr .dBdT 12)))))))) (.rd (.var .rhoInv))),
  .set (.arr .jac 13) (.add (.rd (.arr .jac 13)) (.mul (.neg (.rd (.var .jTemp))) (.num 1503482 5))),
  .set (.arr .jac 20) (.add (.rd (.arr .jac 20)) (.mul (.rd (.var .jTemp)) (.num 31034219999999998 15))),
  .set (.arr .jac 21) (.add (.rd (.arr .jac 21)) (.mul (.neg (.rd (.var .jTemp))) (.num 32042159999999996 15))),
  .set (.arr .jac 14) (.add (.rd (.arr .jac 14)) (.mul (.rd (.var .jTemp)) (.num 16042760000000001 15)))]

/-- utilities/mechanisms/gri30/lib/src/jacobs/jacob_4.c:699-705 -/
def jacobT163 : List CStmt := [
  .set (.var .jTemp) (.mul (.mul (.div (.num 1 0) (.rd (.var .T))) (.sub (.add (.mul (.sub (.rd (.arr .fwd 163)) (.rd (.arr .rev 162))) (.add (.num 2 0) (.div (.num 46296199967042967 13) (.rd (.var .T))))) (.mul (.rd (.arr .fwd 163)) (.neg (.num 1 0)))) (.mul (.rd (.arr .rev 162)) (.add (.neg (.num 1 0)) (.mul (.neg (.rd (.var .T))) (.sub (.sub (.add (.rd (.arr .dBdT 23)) (.rd (.arr .dBdT 13))) (.rd (.arr .dBdT 12))) (.rd (.arr .dBdT 24)))))))) (.rd (.var .rhoInv))),
  .set (.arr .jac 25) (.add (.rd (.arr .jac 25)) (.mul (.neg (.rd (.var .jTemp))) (.num 28053759999999997 15))),
  .set (.arr .jac 13) (.add (.rd (.arr .jac 13)) (.mul (.neg (.rd (.var .jTemp))) (.num 1503482 5))),
  .set (.arr .jac 14) (.add (.rd (.arr .jac 14)) (.mul (.rd (.var .jTemp)) (.num 16042760000000001 15))),
  .set (.arr .jac 24) (.add (.rd (.arr .jac 24)) (.mul (.rd (.var .jTemp)) (.num 27045819999999999 15)))]

/-- utilities/mechanisms/gri30/lib/src/jacobs/jacob_4.c:926-932 -/
def jacobT164 : List CStmt := [
  .set (.var .jTemp) (.mul (.mul (.div (.num 1 0) (.rd (.var .T))) (.sub (.add (.mul (.sub (.rd (.arr .fwd 164)) (.rd (.arr .rev 163))) (.add (.num 174 2) (.div (.num 52586444527782496 13) (.rd (.var .T))))) (.mul (.rd (.arr .fwd 164)) (.neg (.num 1 0)))) (.mul (.rd (.arr .rev 163)) (.add (.neg (.num 1 0)) (.mul (.neg (.rd (.var .T))) (.sub (.sub (.add (.rd (.arr .dBdT 25)) (.rd (.arr .dBdT 13))) (.rd (.arr .dBdT 26))) (.rd (.arr .dBdT 12)))))))) (.rd (.var .rhoInv))),
  .set (.arr .jac 26) (.add (.rd (.arr .jac 26)) (.mul (.rd (.var .jTemp)) (.num 29061699999999998 15))),
  .set (.arr .jac 27) (.add (.rd (.arr .jac 27)) (.mul (.neg (.rd (.var .jTemp))) (.num 3006964 5))),
  .set (.arr .jac 13) (.add (.rd (.arr .jac 13)) (.mul (.neg (.rd (.var .jTemp))) (.num 1503482 5))),
  .set (.arr .jac 14) (.add (.rd (.arr .jac 14)) (.mul (.rd (.var .jTemp)) (.num 16042760000000001 15)))]

/-- utilities/mechanisms/gri30/lib/src/jacobs/jacob_4.c:1153-1158 -/
def jacobT165 : List CStmt := [
  .set (.var .jTemp) (.mul (.mul (.div (.num 1 0) (.rd (.var .T))) (.sub (.add (.mul (.sub (.rd (.arr .fwd 165)) (.rd (.arr .rev 164))) (.add (.neg (.num 1 0)) (.div (.num 85547326026057654 13) (.rd (.var .T))))) (.mul (.rd (.arr .fwd 165)) (.neg (.num 1 0)))) (.mul (.rd (.arr .rev 164)) (.add (.neg (.num 2 0)) (.mul (.neg (.rd (.var .T))) (.sub (.add (.rd (.arr .dBdT 1)) (.rd (.arr .dBdT 14))) (.rd (.arr .dBdT 16)))))))) (.rd (.var .rhoInv))),
  .set (.arr .jac 17) (.add (.rd (.arr .jac 17)) (.mul (.neg (.rd (.var .jTemp))) (.num 29018339999999998 15))),
  .set (.arr .jac 2) (.add (.rd (.arr .jac 2)) (.mul (.rd (.var .jTemp)) (.num 10079400000000001 16))),
  .set (.arr .jac 15) (.add (.rd (.arr .jac 15)) (.mul (.rd (.var .jTemp)) (.num 28010399999999997 15)))]

/-- utilities/mechanisms/gri30/lib/src/jacobs/jacob_4.c:1327-1332 -/
def jacobT166 : List CStmt := [
  .set (.var .jTemp) (.mul (.add (.div (.mul (.neg (.rd (.arr .presMod 25))) (.sub (.rd (.arr .fwd 166)) (.rd (.arr .rev 165)))) (.rd (.var .T))) (.mul (.div (.rd (.arr .presMod 25)) (.rd (.var .T))) (.sub (.mul (.sub (.rd (.arr .fwd 166)) (.rd (.arr .rev 165))) (.add (.neg (.num 1 0)) (.div (.num 85547326026057654 13) (.rd (.var .T))))) (.mul (.rd (.arr .rev 165)) (.add (.neg (.num 1 0)) (.mul (.neg (.rd (.var .T))) (.sub (.add (.rd (.arr .dBdT 1)) (.rd (.arr .dBdT 14))) (.rd (.arr .dBdT 16))))))))) (.rd (.var .rhoInv))),
  .set (.arr .jac 17) (.add (.rd (.arr .jac 17)) (.mul (.neg (.rd (.var .jTemp))) (.num 29018339999999998 15))),
  .set (.arr .jac 2) (.add (.rd (.arr .jac 2)) (.mul (.rd (.var .jTemp)) (.num 10079400000000001 16))),
  .set (.arr .jac 15) (.add (.rd (.arr .jac 15)) (.mul (.rd (.var .jTemp)) (.num 28010399999999997 15)))]

/-- utilities/mechanisms/gri30/lib/src/jacobs/jacob_4.c:1502-1508 -/
def jacobT167 : List CStmt := [
  .set (.var .jTemp) (.mul (.mul (.div (.num 1 0) (.rd (.var .T))) (.sub (.add (.mul (.sub (.rd (.arr .fwd 167)) (.rd (.arr .rev 166))) (.div (.num 20128782594366504 14) (.rd (.var .T)))) (.mul (.rd (.arr .fwd 167)) (.neg (.num 1 0)))) (.mul (.rd (.arr .rev 166)) (.add (.neg (.num 1 0)) (.mul (.neg (.rd (.var .T))) (.sub (.sub (.add (.rd (.arr .dBdT 14)) (.rd (.arr .dBdT 6))) (.rd (.arr .dBdT 16))) (.rd (.arr .dBdT 3)))))))) (.rd (.var .rhoInv))),
  .set (.arr .jac 17) (.add (.rd (.arr .jac 17)) (.mul (.neg (.rd (.var .jTemp))) (.num 29018339999999998 15))),
  .set (.arr .jac 4) (.add (.rd (.arr .jac 4)) (.mul (.neg (.rd (.var .jTemp))) (.num 31998799999999999 15))),
  .set (.arr .jac 7) (.add (.rd (.arr .jac 7)) (.mul (.rd (.var .jTemp)) (.num 33006740000000001 15))),
  .set (.arr .jac 15) (.add (.rd (.arr .jac 15)) (.mul (.rd (.var .jTemp)) (.num 28010399999999997 15)))]

/-- utilities/mechanisms/gri30/lib/src/jacobs/jacob_4.c:1729-1735 -/
def jacobT168 : List CStmt := [
  .set (.var .jTemp) (.mul (.mul (.div (.num 1 0) (.rd (.var .T))) (.sub (.add (.mul (.sub (.rd (.arr .fwd 168)) (.rd (.arr .rev 167))) (.div (.num 45289760837324638 14) (.rd (.var .T)))) (.mul (.rd (.arr .fwd 168)) (.neg (.num 1 0)))) (.mul (.rd (.arr .rev 167)) (.add (.neg (.num 1 0)) (.mul (.neg (.rd (.var .T))) (.sub (.sub (.add (.rd (.arr .dBdT 17)) (.rd (.arr .dBdT 6))) (.rd (.arr .dBdT 18))) (.rd (.arr .dBdT 3)))))))) (.rd (.var .rhoInv))),
  .set (.arr .jac 18) (.add (.rd (.arr .jac 18)) (.mul (.rd (.var .jTemp)) (.num 3002628 5))),
  .set (.arr .jac 19) (.add (.rd (.arr .jac 19)) (.mul (.neg (.rd (.var .jTemp))) (.num 31034219999999998 15))),
  .set (.arr .jac 4) (.add (.rd (.arr .jac 4)) (.mul (.neg (.rd (.var .jTemp))) (.num 31998799999999999 15))),
  .set (.arr .jac 7) (.add (.rd (.arr .jac 7)) (.mul (.rd (.var .jTemp)) (.num 33006740000000001 15)))]

/-- utilities/mechanisms/gri30/lib/src/jacobs/jacob_4.c:1956-1962 -/
def jacobT169 : List CStmt := [
  .set (.var .jTemp) (.mul (.mul (.div (.num 1 0) (.rd (.var .T))) (.sub (.add (.mul (.sub (.rd (.arr .fwd 169)) (.rd (.arr .rev 168))) (.add (.num 75999999999999996 16) (.div (.neg (.num 17763650639528441 13)) (.rd (.var .T))))) (.mul (.rd (.arr .fwd 169)) (.neg (.num 1 0)))) (.mul (.rd (.arr .rev 168)) (.add (.neg (.num 1 0)) (.mul (.neg (.rd (.var .T))) (.sub (.sub (.add (.rd (.arr .dBdT 17)) (.rd (.arr .dBdT 6))) (.rd (.arr .dBdT 19))) (.rd (.arr .dBdT 3)))))))) (.rd (.var .rhoInv))),
  .set (.arr .jac 4) (.add (.rd (.arr .jac 4)) (.mul (.neg (.rd (.var .jTemp))) (.num 31998799999999999 15))),
  .set (.arr .jac 18) (.add (.rd (.arr .jac 18)) (.mul (.rd (.var .jTemp)) (.num 3002628 5))),
  .set (.arr .jac 20) (.add (.rd (.arr .jac 20)) (.mul (.neg (.rd (.var .jTemp))) (.num 31034219999999998 15))),
  .set (.arr .jac 7) (.add (.rd (.arr .jac 7)) (.mul (.rd (.var .jTemp)) (.num 33006740000000001 15)))]

/-- utilities/mechanisms/gri30/lib/src/jacobs/jacob_4.c:2183-2189 -/
def jacobT170 : List CStmt := [
  .set (.var .jTemp) (.mul (.mul (.div (.num 1 0) (.rd (.var .T))) (.sub (.add (.mul (.sub (.rd (.arr .fwd 170)) (.rd (.arr .rev 169))) (.div (.neg (.num 37993077146866779 14)) (.rd (.var .T)))) (.mul (.rd (.arr .fwd 170)) (.neg (.num 1 0)))) (.mul (.rd (.arr .rev 169)) (.add (.neg (.num 1 0)) (.mul (.neg (.rd (.var .T))) (.sub (.sub (.add (.rd (.arr .dBdT 14)) (.rd (.arr .dBdT 16))) (.rd (.arr .dBdT 21))) (.rd (.arr .dBdT 3)))))))) (.rd (.var .rhoInv))),
  .set (.arr .jac 17) (.add (.rd (.arr .jac 17)) (.mul (.rd (.var .jTemp)) (.num 29018339999999998 15))),
  .set (.arr .jac 4) (.add (.rd (.arr .jac 4)) (.mul (.neg (.rd (.var .jTemp))) (.num 31998799999999999 15))),
  .set (.arr .jac 22) (.add (.rd (.arr .jac 22)) (.mul (.neg (.rd (.var .jTemp))) (.num 2502994 5))),
  .set (.arr .jac 15) (.add (.rd (.arr .jac 15)) (.mul (.rd (.var .jTemp)) (.num 28010399999999997 15)))]

/-- utilities/mechanisms/gri30/lib/src/jacobs/jacob_4.c:2410-2416 -/
def jacobT171 : List CStmt := [
  .set (.var .jTemp) (.mul (.mul (.div (.num 1 0) (.rd (.var .T))) (.sub (.add (.mul (.sub (.rd (.arr .fwd 171)) (.rd (.arr .rev 170))) (.add (.num 90000000000000002 17) (.div (.num 10029165927643112 13) (.rd (.var .T))))) (.mul (.rd (.arr .fwd 171)) (.neg (.num 1 0)))) (.mul (.rd (.arr .rev 170)) (.add (.neg (.num 1 0)) (.mul (.neg (.rd (.var .T))) (.sub (.sub (.add (.rd (.arr .dBdT 1)) (.rd (.arr .dBdT 22))) (.rd (.arr .dBdT 0))) (.rd (.arr .dBdT 21)))))))) (.rd (.var .rhoInv))),
  .set (.arr .jac 1) (.add (.rd (.arr .jac 1)) (.mul (.neg (.rd (.var .jTemp))) (.num 20158800000000001 16))),
  .set (.arr .jac 2) (.add (.rd (.arr .jac 2)) (.mul (.rd (.var .jTemp)) (.num 10079400000000001 16))),
  .set (.arr .jac 22) (.add (.rd (.arr .jac 22)) (.mul (.neg (.rd (.var .jTemp))) (.num 2502994 5))),
  .set (.arr .jac 23) (.add (.rd (.arr .jac 23)) (.mul (.rd (.var .jTemp)) (.num 26037879999999998 15)))]

/-- utilities/mechanisms/gri30/lib/src/jacobs/jacob_4.c:2637-2643 -/
def jacobT172 : List CStmt := [
  .set (.var .jTemp) (.mul (.mul (.div (.num 1 0) (.rd (.var .T))) (.sub (.add (.mul (.sub (.rd (.arr .fwd 172)) (.rd (.arr .rev 171))) (.add (.neg (.num 13899999999999999 16)) (.div (.num 51076785833205008 14) (.rd (.var .T))))) (.mul (.rd (.arr .fwd 172)) (.neg (.num 1 0)))) (.mul (.rd (.arr .rev 171)) (.add (.neg (.num 1 0)) (.mul (.neg (.rd (.var .T))) (.sub (.sub (.add (.rd (.arr .dBdT 17)) (.rd (.arr .dBdT 16))) (.rd (.arr .dBdT 23))) (.rd (.arr .dBdT 3)))))))) (.rd (.var .rhoInv))),
  .set (.arr .jac 17) (.add (.rd (.arr .jac 17)) (.mul (.rd (.var .jTemp)) (.num 29018339999999998 15))),
  .set (.arr .jac 18) (.add (.rd (.arr .jac 18)) (.mul (.rd (.var .jTemp)) (.num 3002628 5))),
  .set (.arr .jac 4) (.add (.rd (.arr .jac 4)) (.mul (.neg (.rd (.var .jTemp))) (.num 31998799999999999 15))),
  .set (.arr .jac 24) (.add (.rd (.arr .jac 24)) (.mul (.neg (.rd (.var .jTemp))) (.num 27045819999999999 15)))]

/-- utilities/mechanisms/gri30/lib/src/jacobs/jacob_4.c:2864-2875 -/
def jacobT173 : List CStmt := [
  .set (.var .concTemp) (.sub (.add (.add (.add (.add (.add (.add (.rd (.var .m)) (.mul (.num 1 0) (.rd (.arr .C 0)))) (.mul (.num 5 0) (.rd (.arr .C 5)))) (.mul (.num 1 0) (.rd (.arr .C 13)))) (.mul (.num 5 1) (.rd (.arr .C 14)))) (.mul (.num 1 0) (.rd (.arr .C 15)))) (.mul (.num 2 0) (.rd (.arr .C 26)))) (.mul (.num 3 1) (.rd (.arr .C 47)))),
  .set (.var .Pr) (.mul (.rd (.var .concTemp)) (.exp (.sub (.sub (.num 8127104665314468 14) (.mul (.num 974 2) (.rd (.var .logT)))) (.div (.num 55505118003965617 13) (.rd (.var .T)))))),
  .set (.var .Fcent) (.add (.add (.mul (.num 26549999999999996 17) (.exp (.div (.rd (.var .T)) (.neg (.num 180 0))))) (.mul (.num 73450000000000004 17) (.exp (.div (.rd (.var .T)) (.neg (.num 1035 0)))))) (.exp (.div (.neg (.num 5417 0)) (.rd (.var .T))))),
  .set (.var .A) (.sub (.sub (.log10 (.fmax (.rd (.var .Pr)) (.num 1 300))) (.mul (.num 67 2) (.log10 (.fmax (.rd (.var .Fcent)) (.num 1 300))))) (.num 4 1)),
  .set (.var .B) (.sub (.sub (.num 806 3) (.mul (.num 11762 4) (.log10 (.fmax (.rd (.var .Fcent)) (.num 1 300))))) (.mul (.num 14 2) (.log10 (.fmax (.rd (.var .Pr)) (.num 1 300))))),
  .set (.var .lnFAB) (.div (.mul (.mul (.num 2 0) (.log (.fmax (.rd (.var .Fcent)) (.num 1 300)))) (.rd (.var .A))) (.mul (.mul (.mul (.mul (.rd (.var .B)) (.rd (.var .B))) (.rd (.var .B))) (.add (.num 1 0) (.div (.mul (.rd (.var .A)) (.rd (.var .A))) (.mul (.rd (.var .B)) (.rd (.var .B)))))) (.add (.num 1 0) (.div (.mul (.rd (.var .A)) (.rd (.var .A))) (.mul (.rd (.var .B)) (.rd (.var .B))))))),
  .set (.var .jTemp) (.mul (.add (.mul (.mul (.rd (.arr .presMod 26)) (.sub (.add (.div (.sub (.add (.neg (.num 974 2)) (.div (.num 55505118003965617 13) (.rd (.var .T)))) (.num 1 0)) (.mul (.rd (.var .T)) (.add (.num 1 0) (.rd (.var .Pr))))) (.mul (.sub (.div (.num 1 0) (.mul (.rd (.var .Fcent)) (.add (.num 1 0) (.div (.mul (.rd (.var .A)) (.rd (.var .A))) (.mul (.rd (.var .B)) (.rd (.var .B))))))) (.div (.mul (.rd (.var .lnFAB)) (.add (.mul (.neg (.num 2909773028751787 16)) (.rd (.var .B))) (.mul (.num 51081716961460466 17) (.rd (.var .A))))) (.rd (.var .Fcent)))) (.add (.sub (.mul (.neg (.num 14749999999999997 19)) (.exp (.div (.rd (.var .T)) (.neg (.num 180 0))))) (.mul (.num 70966183574879232 20) (.exp (.div (.rd (.var .T)) (.neg (.num 1035 0)))))) (.mul (.div (.num 5417 0) (.mul (.rd (.var .T)) (.rd (.var .T)))) (.exp (.div (.neg (.num 5417 0)) (.rd (.var .T)))))))) (.div (.mul (.mul (.rd (.var .lnFAB)) (.add (.mul (.num 43429448190325176 17) (.rd (.var .B))) (.mul (.num 60801227466455256 18) (.rd (.var .A))))) (.sub (.add (.neg (.num 97400000000000002 16)) (.div (.num 55505118003965617 13) (.rd (.var .T)))) (.num 1 0))) (.rd (.var .T))))) (.sub (.rd (.arr .fwd 173)) (.rd (.arr .rev 172)))) (.mul (.div (.rd (.arr .presMod 26)) (.rd (.var .T))) (.sub (.mul (.sub (.rd (.arr .fwd 173)) (.rd (.arr .rev 172))) (.add (.num 44 2) (.div (.num 43664361642829543 12) (.rd (.var .T))))) (.mul (.rd (.arr .rev 172)) (.add (.neg (.num 1 0)) (.mul (.neg (.rd (.var .T))) (.sub (.add (.rd (.arr .dBdT 0)) (.rd (.arr .dBdT 22))) (.rd (.arr .dBdT 24))))))))) (.rd (.var .rhoInv))),
  .set (.arr .jac 25) (.add (.rd (.arr .jac 25)) (.mul (.neg (.rd (.var .jTemp))) (.num 28053759999999997 15))),
  .set (.arr .jac 1) (.add (.rd (.arr .jac 1)) (.mul (.rd (.var .jTemp)) (.num 20158800000000001 16))),
  .set (.arr .jac 23) (.add (.rd (.arr .jac 23)) (.mul (.rd (.var .jTemp)) (.num 26037879999999998 15)))]

/-- utilities/mechanisms/gri30/lib/src/jacobs/jacob_4.c:3046-3052 -/
def jacobT174 : List CStmt := [
  .set (.var .jTemp) (.mul (.mul (.div (.num 1 0) (.rd (.var .T))) (.sub (.add (.mul (.sub (.rd (.arr .fwd 174)) (.rd (.arr .rev 173))) (.div (.num 19499758138292552 13) (.rd (.var .T)))) (.mul (.rd (.arr .fwd 174)) (.neg (.num 1 0)))) (.mul (.rd (.arr .rev 173)) (.add (.neg (.num 1 0)) (.mul (.neg (.rd (.var .T))) (.sub (.sub (.add (.rd (.arr .dBdT 24)) (.rd (.arr .dBdT 6))) (.rd (.arr .dBdT 25))) (.rd (.arr .dBdT 3)))))))) (.rd (.var .rhoInv))),
  .set (.arr .jac 25) (.add (.rd (.arr .jac 25)) (.mul (.rd (.var .jTemp)) (.num 28053759999999997 15))),
  .set (.arr .jac 26) (.add (.rd (.arr .jac 26)) (.mul (.neg (.rd (.var .jTemp))) (.num 29061699999999998 15))),
  .set (.arr .jac 4) (.add (.rd (.arr .jac 4)) (.mul (.neg (.rd (.var .jTemp))) (.num 31998799999999999 15))),
  .set (.arr .jac 7) (.add (.rd (.arr .jac 7)) (.mul (.rd (.var .jTemp)) (.num 33006740000000001 15)))]

/-- utilities/mechanisms/gri30/lib/src/jacobs/jacob_4.c:3273-3279 -/
def jacobT175 : List CStmt := [
  .set (.var .jTemp) (.mul (.mul (.div (.num 1 0) (.rd (.var .T))) (.sub (.add (.mul (.sub (.rd (.arr .fwd 175)) (.rd (.arr .rev 174))) (.div (.num 42974950838972489 14) (.rd (.var .T)))) (.mul (.rd (.arr .fwd 175)) (.neg (.num 1 0)))) (.mul (.rd (.arr .rev 174)) (.add (.neg (.num 2 0)) (.mul (.neg (.rd (.var .T))) (.sub (.sub (.add (.mul (.num 2 0) (.rd (.arr .dBdT 14))) (.rd (.arr .dBdT 4))) (.rd (.arr .dBdT 27))) (.rd (.arr .dBdT 3)))))))) (.rd (.var .rhoInv))),
  .set (.arr .jac 4) (.add (.rd (.arr .jac 4)) (.mul (.neg (.rd (.var .jTemp))) (.num 31998799999999999 15))),
  .set (.arr .jac 28) (.add (.rd (.arr .jac 28)) (.mul (.neg (.rd (.var .jTemp))) (.num 41029339999999998 15))),
  .set (.arr .jac 5) (.add (.rd (.arr .jac 5)) (.mul (.rd (.var .jTemp)) (.num 17007339999999999 15))),
  .set (.arr .jac 15) (.add (.rd (.arr .jac 15)) (.mul (.mul (.rd (.var .jTemp)) (.num 2 0)) (.num 28010399999999997 15)))]

/-- utilities/mechanisms/gri30/lib/src/jacobs/jacob_4.c:3500-3505 -/
def jacobT176 : List CStmt := [
  .set (.var .jTemp) (.mul (.mul (.div (.num 1 0) (.rd (.var .T))) (.sub (.mul (.rd (.arr .fwd 176)) (.neg (.num 1 0))) (.mul (.rd (.arr .rev 175)) (.add (.neg (.num 2 0)) (.mul (.neg (.rd (.var .T))) (.sub (.add (.mul (.num 2 0) (.rd (.arr .dBdT 14))) (.rd (.arr .dBdT 22))) (.mul (.num 2 0) (.rd (.arr .dBdT 27))))))))) (.rd (.var .rhoInv))),
  .set (.arr .jac 28) (.add (.rd (.arr .jac 28)) (.mul (.mul (.rd (.var .jTemp)) (.neg (.num 2 0))) (.num 41029339999999998 15))),
  .set (.arr .jac 23) (.add (.rd (.arr .jac 23)) (.mul (.rd (.var .jTemp)) (.num 26037879999999998 15))),
  .set (.arr .jac 15) (.add (.rd (.arr .jac 15)) (.mul (.mul (.rd (.var .jTemp)) (.num 2 0)) (.num 28010399999999997 15)))]

/-- utilities/mechanisms/gri30/lib/src/jacobs/jacob_4.c:3674-3680 without the assignment to `*J_nplusone` -/
def jacobT177 : List CStmt := [
  .set (.var .jTemp) (.mul (.mul (.div (.num 1 0) (.rd (.var .T))) (.sub (.add (.mul (.sub (.rd (.arr .fwd 177)) (.rd (.arr .rev 176))) (.div (.num 17864294552500274 14) (.rd (.var .T)))) (.mul (.rd (.arr .fwd 177)) (.neg (.num 1 0)))) (.mul (.rd (.arr .rev 176)) (.add (.neg (.num 1 0)) (.mul (.neg (.rd (.var .T))) (.sub (.sub (.add (.rd (.arr .dBdT 52)) (.rd (.arr .dBdT 2))) (.rd (.arr .dBdT 30))) (.rd (.arr .dBdT 35)))))))) (.rd (.var .rhoInv))),
  .set (.arr .jac 3) (.add (.rd (.arr .jac 3)) (.mul (.rd (.var .jTemp)) (.num 159994 4))),
  .set (.arr .jac 36) (.mul (.neg (.rd (.var .jTemp))) (.num 30006140000000002 15)),
  .set (.arr .jac 31) (.mul (.neg (.rd (.var .jTemp))) (.num 14006740000000001 15))]

/-- utilities/mechanisms/gri30/lib/src/jacobs/jacob_4.c:3678 -/
def jacobN177 : List CStmt := [
  .set (.var .jN) (.mul (.rd (.var .jTemp)) (.num 28013480000000001 15))]

/-- utilities/mechanisms/gri30/lib/src/jacobs/jacob_4.c:3901-3907 -/
def jacobT178 : List CStmt := [
  .set (.var .jTemp) (.mul (.mul (.div (.num 1 0) (.rd (.var .T))) (.sub (.add (.mul (.sub (.rd (.arr .fwd 178)) (.rd (.arr .rev 177))) (.add (.num 1 0) (.div (.num 32709271715845571 13) (.rd (.var .T))))) (.mul (.rd (.arr .fwd 178)) (.neg (.num 1 0)))) (.mul (.rd (.arr .rev 177)) (.add (.neg (.num 1 0)) (.mul (.neg (.rd (.var .T))) (.sub (.sub (.add (.rd (.arr .dBdT 2)) (.rd (.arr .dBdT 35))) (.rd (.arr .dBdT 3))) (.rd (.arr .dBdT 30)))))))) (.rd (.var .rhoInv))),
  .set (.arr .jac 36) (.add (.rd (.arr .jac 36)) (.mul (.rd (.var .jTemp)) (.num 30006140000000002 15))),
  .set (.arr .jac 3) (.add (.rd (.arr .jac 3)) (.mul (.rd (.var .jTemp)) (.num 159994 4))),
  .set (.arr .jac 4) (.add (.rd (.arr .jac 4)) (.mul (.neg (.rd (.var .jTemp))) (.num 31998799999999999 15))),
  .set (.arr .jac 31) (.add (.rd (.arr .jac 31)) (.mul (.neg (.rd (.var .jTemp))) (.num 14006740000000001 15)))]

/-- utilities/mechanisms/gri30/lib/src/jacobs/jacob_4.c:4128-4134 -/
def jacobT179 : List CStmt := [
  .set (.var .jTemp) (.mul (.mul (.div (.num 1 0) (.rd (.var .T))) (.sub (.add (.mul (.sub (.rd (.arr .fwd 179)) (.rd (.arr .rev 178))) (.div (.num 19373953247077762 14) (.rd (.var .T)))) (.mul (.rd (.arr .fwd 179)) (.neg (.num 1 0)))) (.mul (.rd (.arr .rev 178)) (.add (.neg (.num 1 0)) (.mul (.neg (.rd (.var .T))) (.sub (.sub (.add (.rd (.arr .dBdT 1)) (.rd (.arr .dBdT 35))) (.rd (.arr .dBdT 30))) (.rd (.arr .dBdT 4)))))))) (.rd (.var .rhoInv))),
  .set (.arr .jac 2) (.add (.rd (.arr .jac 2)) (.mul (.rd (.var .jTemp)) (.num 10079400000000001 16))),
  .set (.arr .jac 36) (.add (.rd (.arr .jac 36)) (.mul (.rd (.var .jTemp)) (.num 30006140000000002 15))),
  .set (.arr .jac 5) (.add (.rd (.arr .jac 5)) (.mul (.neg (.rd (.var .jTemp))) (.num 17007339999999999 15))),
  .set (.arr .jac 31) (.add (.rd (.arr .jac 31)) (.mul (.neg (.rd (.var .jTemp))) (.num 14006740000000001 15)))]

/-- utilities/mechanisms/gri30/lib/src/jacobs/jacob_4.c:4355-4361 without the assignment to `*J_nplusone` -/
def jacobT180 : List CStmt := [
  .set (.var .jTemp) (.mul (.mul (.div (.num 1 0) (.rd (.var .T))) (.sub (.add (.mul (.sub (.rd (.arr .fwd 180)) (.rd (.arr .rev 179))) (.div (.num 5439803496127548 12) (.rd (.var .T)))) (.mul (.rd (.arr .fwd 180)) (.neg (.num 1 0)))) (.mul (.rd (.arr .rev 179)) (.add (.neg (.num 1 0)) (.mul (.neg (.rd (.var .T))) (.sub (.sub (.add (.rd (.arr .dBdT 52)) (.rd (.arr .dBdT 3))) (.rd (.arr .dBdT 37))) (.rd (.arr .dBdT 2)))))))) (.rd (.var .rhoInv))),
  .set (.arr .jac 3) (.add (.rd (.arr .jac 3)) (.mul (.neg (.rd (.var .jTemp))) (.num 159994 4))),
  .set (.arr .jac 4) (.add (.rd (.arr .jac 4)) (.mul (.rd (.var .jTemp)) (.num 31998799999999999 15))),
  .set (.arr .jac 38) (.mul (.neg (.rd (.var .jTemp))) (.num 44012880000000003 15))]

/-- utilities/mechanisms/gri30/lib/src/jacobs/jacob_4.c:4359 -/
def jacobN180 : List CStmt := [
  .set (.var .jN) (.mul (.rd (.var .jTemp)) (.num 28013480000000001 15))]

/-- utilities/mechanisms/gri30/lib/src/jacobs/jacob_4.c:4582-4587 -/
def jacobT181 : List CStmt := [
  .set (.var .jTemp) (.mul (.mul (.div (.num 1 0) (.rd (.var .T))) (.sub (.add (.mul (.sub (.rd (.arr .fwd 181)) (.rd (.arr .rev 180))) (.div (.num 11649532926489615 12) (.rd (.var .T)))) (.mul (.rd (.arr .fwd 181)) (.neg (.num 1 0)))) (.mul (.rd (.arr .rev 180)) (.add (.neg (.num 1 0)) (.mul (.neg (.rd (.var .T))) (.sub (.sub (.mul (.num 2 0) (.rd (.arr .dBdT 35))) (.rd (.arr .dBdT 37))) (.rd (.arr .dBdT 2)))))))) (.rd (.var .rhoInv))),
  .set (.arr .jac 3) (.add (.rd (.arr .jac 3)) (.mul (.neg (.rd (.var .jTemp))) (.num 159994 4))),
  .set (.arr .jac 36) (.add (.rd (.arr .jac 36)) (.mul (.mul (.rd (.var .jTemp)) (.num 2 0)) (.num 30006140000000002 15))),
  .set (.arr .jac 38) (.add (.rd (.arr .jac 38)) (.mul (.neg (.rd (.var .jTemp))) (.num 44012880000000003 15)))]

/-- utilities/mechanisms/gri30/lib/src/jacobs/jacob_4.c:4756-4762 without the assignment to `*J_nplusone` -/
def jacobT182 : List CStmt := [
  .set (.var .jTemp) (.mul (.mul (.div (.num 1 0) (.rd (.var .T))) (.sub (.add (.mul (.sub (.rd (.arr .fwd 182)) (.rd (.arr .rev 181))) (.div (.num 950078538454099 11) (.rd (.var .T)))) (.mul (.rd (.arr .fwd 182)) (.neg (.num 1 0)))) (.mul (.rd (.arr .rev 181)) (.add (.neg (.num 1 0)) (.mul (.neg (.rd (.var .T))) (.sub (.sub (.add (.rd (.arr .dBdT 52)) (.rd (.arr .dBdT 4))) (.rd (.arr .dBdT 1))) (.rd (.arr .dBdT 37)))))))) (.rd (.var .rhoInv))),
  .set (.arr .jac 2) (.add (.rd (.arr .jac 2)) (.mul (.neg (.rd (.var .jTemp))) (.num 10079400000000001 16))),
  .set (.arr .jac 38) (.add (.rd (.arr .jac 38)) (.mul (.neg (.rd (.var .jTemp))) (.num 44012880000000003 15))),
  .set (.arr .jac 5) (.add (.rd (.arr .jac 5)) (.mul (.rd (.var .jTemp)) (.num 17007339999999999 15)))]

/-- utilities/mechanisms/gri30/lib/src/jacobs/jacob_4.c:4759 -/
def jacobN182 : List CStmt := [
  .set (.var .jN) (.mul (.rd (.var .jTemp)) (.num 28013480000000001 15))]

/-- utilities/mechanisms/gri30/lib/src/jacobs/jacob_4.c:4983-4989 without the assignment to `*J_nplusone` -/
def jacobT183 : List CStmt := [
  .set (.var .jTemp) (.mul (.mul (.div (.num 1 0) (.rd (.var .T))) (.sub (.add (.mul (.sub (.rd (.arr .fwd 183)) (.rd (.arr .rev 182))) (.div (.num 10597804035933965 12) (.rd (.var .T)))) (.mul (.rd (.arr .fwd 183)) (.neg (.num 1 0)))) (.mul (.rd (.arr .rev 182)) (.add (.neg (.num 1 0)) (.mul (.neg (.rd (.var .T))) (.sub (.sub (.add (.rd (.arr .dBdT 52)) (.rd (.arr .dBdT 6))) (.rd (.arr .dBdT 37))) (.rd (.arr .dBdT 4)))))))) (.rd (.var .rhoInv))),
  .set (.arr .jac 5) (.add (.rd (.arr .jac 5)) (.mul (.neg (.rd (.var .jTemp))) (.num 17007339999999999 15))),
  .set (.arr .jac 38) (.add (.rd (.arr .jac 38)) (.mul (.neg (.rd (.var .jTemp))) (.num 44012880000000003 15))),
  .set (.arr .jac 7) (.add (.rd (.arr .jac 7)) (.mul (.rd (.var .jTemp)) (.num 33006740000000001 15)))]

/-- utilities/mechanisms/gri30/lib/src/jacobs/jacob_4.c:4985 -/
def jacobN183 : List CStmt := [
  .set (.var .jN) (.mul (.rd (.var .jTemp)) (.num 28013480000000001 15))]

/-- utilities/mechanisms/gri30/lib/src/jacobs/jacob_4.c:5210-5217 without the assignment to `*J_nplusone` -/
def jacobT184 : List CStmt := [
  .set (.var .concTemp) (.add (.rd (.var .concTemp)) (.mul (.neg (.num 75 3)) (.rd (.arr .C 47)))),
  .set (.var .Pr) (.mul (.rd (.var .concTemp)) (.exp (.sub (.num 20860567807985553 16) (.div (.num 31199613021267942 14) (.rd (.var .T)))))),
  .set (.var .jTemp) (.mul (.add (.mul (.mul (.rd (.arr .presMod 27)) (.div (.sub (.add (.num 0 0) (.div (.num 31199613021267942 14) (.rd (.var .T)))) (.num 1 0)) (.mul (.rd (.var .T)) (.add (.num 1 0) (.rd (.var .Pr)))))) (.sub (.rd (.arr .fwd 184)) (.rd (.arr .rev 183)))) (.mul (.div (.rd (.arr .presMod 27)) (.rd (.var .T))) (.sub (.mul (.sub (.rd (.arr .fwd 184)) (.rd (.arr .rev 183))) (.div (.num 28190360023410292 12) (.rd (.var .T)))) (.mul (.rd (.arr .rev 183)) (.add (.neg (.num 1 0)) (.mul (.neg (.rd (.var .T))) (.sub (.add (.rd (.arr .dBdT 52)) (.rd (.arr .dBdT 2))) (.rd (.arr .dBdT 37))))))))) (.rd (.var .rhoInv))),
  .set (.arr .jac 3) (.add (.rd (.arr .jac 3)) (.mul (.rd (.var .jTemp)) (.num 159994 4))),
  .set (.arr .jac 38) (.add (.rd (.arr .jac 38)) (.mul (.neg (.rd (.var .jTemp))) (.num 44012880000000003 15)))]

/-- utilities/mechanisms/gri30/lib/src/jacobs/jacob_4.c:5215 -/
def jacobN184 : List CStmt := [
  .set (.var .jN) (.mul (.rd (.var .jTemp)) (.num 28013480000000001 15))]

/-- utilities/mechanisms/gri30/lib/src/jacobs/jacob_4.c:5388-5394 -/
def jacobT185 : List CStmt := [
  .set (.var .jTemp) (.mul (.mul (.div (.num 1 0) (.rd (.var .T))) (.sub (.add (.mul (.sub (.rd (.arr .fwd 185)) (.rd (.arr .rev 184))) (.div (.neg (.num 24154539113239807 14)) (.rd (.var .T)))) (.mul (.rd (.arr .fwd 185)) (.neg (.num 1 0)))) (.mul (.rd (.arr .rev 184)) (.add (.neg (.num 1 0)) (.mul (.neg (.rd (.var .T))) (.sub (.sub (.add (.rd (.arr .dBdT 36)) (.rd (.arr .dBdT 4))) (.rd (.arr .dBdT 6))) (.rd (.arr .dBdT 35)))))))) (.rd (.var .rhoInv))),
  .set (.arr .jac 5) (.add (.rd (.arr .jac 5)) (.mul (.rd (.var .jTemp)) (.num 17007339999999999 15))),
  .set (.arr .jac 36) (.add (.rd (.arr .jac 36)) (.mul (.neg (.rd (.var .jTemp))) (.num 30006140000000002 15))),
  .set (.arr .jac 37) (.mul (.rd (.var .jTemp)) (.num 46005539999999996 15)),
  .set (.arr .jac 7) (.add (.rd (.arr .jac 7)) (.mul (.neg (.rd (.var .jTemp))) (.num 33006740000000001 15)))]

/-- utilities/mechanisms/gri30/lib/src/jacobs/jacob_4.c:5615-5620 -/
def jacobT186 : List CStmt := [
  .set (.var .jTemp) (.mul (.add (.div (.mul (.neg (.rd (.arr .presMod 28))) (.sub (.rd (.arr .fwd 186)) (.rd (.arr .rev 185)))) (.rd (.var .T))) (.mul (.div (.rd (.arr .presMod 28)) (.rd (.var .T))) (.sub (.add (.mul (.sub (.rd (.arr .fwd 186)) (.rd (.arr .rev 185))) (.neg (.num 14099999999999999 16))) (.mul (.rd (.arr .fwd 186)) (.neg (.num 1 0)))) (.mul (.rd (.arr .rev 185)) (.mul (.neg (.rd (.var .T))) (.sub (.sub (.rd (.arr .dBdT 36)) (.rd (.arr .dBdT 2))) (.rd (.arr .dBdT 35)))))))) (.rd (.var .rhoInv))),
  .set (.arr .jac 3) (.add (.rd (.arr .jac 3)) (.mul (.neg (.rd (.var .jTemp))) (.num 159994 4))),
  .set (.arr .jac 36) (.add (.rd (.arr .jac 36)) (.mul (.neg (.rd (.var .jTemp))) (.num 30006140000000002 15))),
  .set (.arr .jac 37) (.add (.rd (.arr .jac 37)) (.mul (.rd (.var .jTemp)) (.num 46005539999999996 15)))]

/-- utilities/mechanisms/gri30/lib/src/jacobs/jacob_4.c:5790-5796 -/
def jacobT187 : List CStmt := [
  .set (.var .jTemp) (.mul (.mul (.div (.num 1 0) (.rd (.var .T))) (.sub (.add (.mul (.sub (.rd (.arr .fwd 187)) (.rd (.arr .rev 186))) (.div (.neg (.num 12077269556619903 14)) (.rd (.var .T)))) (.mul (.rd (.arr .fwd 187)) (.neg (.num 1 0)))) (.mul (.rd (.arr .rev 186)) (.add (.neg (.num 1 0)) (.mul (.neg (.rd (.var .T))) (.sub (.sub (.add (.rd (.arr .dBdT 3)) (.rd (.arr .dBdT 35))) (.rd (.arr .dBdT 36))) (.rd (.arr .dBdT 2)))))))) (.rd (.var .rhoInv))),
  .set (.arr .jac 36) (.add (.rd (.arr .jac 36)) (.mul (.rd (.var .jTemp)) (.num 30006140000000002 15))),
  .set (.arr .jac 3) (.add (.rd (.arr .jac 3)) (.mul (.neg (.rd (.var .jTemp))) (.num 159994 4))),
  .set (.arr .jac 4) (.add (.rd (.arr .jac 4)) (.mul (.rd (.var .jTemp)) (.num 31998799999999999 15))),
  .set (.arr .jac 37) (.add (.rd (.arr .jac 37)) (.mul (.neg (.rd (.var .jTemp))) (.num 46005539999999996 15)))]

/-- utilities/mechanisms/gri30/lib/src/jacobs/jacob_4.c:6017-6023 -/
def jacobT188 : List CStmt := [
  .set (.var .jTemp) (.mul (.mul (.div (.num 1 0) (.rd (.var .T))) (.sub (.add (.mul (.sub (.rd (.arr .fwd 188)) (.rd (.arr .rev 187))) (.div (.num 18115904334929854 14) (.rd (.var .T)))) (.mul (.rd (.arr .fwd 188)) (.neg (.num 1 0)))) (.mul (.rd (.arr .rev 187)) (.add (.neg (.num 1 0)) (.mul (.neg (.rd (.var .T))) (.sub (.sub (.add (.rd (.arr .dBdT 35)) (.rd (.arr .dBdT 4))) (.rd (.arr .dBdT 1))) (.rd (.arr .dBdT 36)))))))) (.rd (.var .rhoInv))),
  .set (.arr .jac 2) (.add (.rd (.arr .jac 2)) (.mul (.neg (.rd (.var .jTemp))) (.num 10079400000000001 16))),
  .set (.arr .jac 36) (.add (.rd (.arr .jac 36)) (.mul (.rd (.var .jTemp)) (.num 30006140000000002 15))),
  .set (.arr .jac 37) (.add (.rd (.arr .jac 37)) (.mul (.neg (.rd (.var .jTemp))) (.num 46005539999999996 15))),
  .set (.arr .jac 5) (.add (.rd (.arr .jac 5)) (.mul (.rd (.var .jTemp)) (.num 17007339999999999 15)))]

/-- utilities/mechanisms/gri30/lib/src/jacobs/jacob_4.c:6244-6250 -/
def jacobT189 : List CStmt := [
  .set (.var .jTemp) (.mul (.mul (.div (.num 1 0) (.rd (.var .T))) (.sub (.mul (.rd (.arr .fwd 189)) (.neg (.num 1 0))) (.mul (.rd (.arr .rev 188)) (.add (.neg (.num 1 0)) (.mul (.neg (.rd (.var .T))) (.sub (.sub (.add (.rd (.arr .dBdT 1)) (.rd (.arr .dBdT 35))) (.rd (.arr .dBdT 31))) (.rd (.arr .dBdT 2)))))))) (.rd (.var .rhoInv))),
  .set (.arr .jac 2) (.add (.rd (.arr .jac 2)) (.mul (.rd (.var .jTemp)) (.num 10079400000000001 16))),
  .set (.arr .jac 3) (.add (.rd (.arr .jac 3)) (.mul (.neg (.rd (.var .jTemp))) (.num 159994 4))),
  .set (.arr .jac 36) (.add (.rd (.arr .jac 36)) (.mul (.rd (.var .jTemp)) (.num 30006140000000002 15))),
  .set (.arr .jac 32) (.mul (.neg (.rd (.var .jTemp))) (.num 1501468 5))]

/-- utilities/mechanisms/gri30/lib/src/jacobs/jacob_4.c:6471-6477 -/
def jacobT190 : List CStmt := [
  .set (.var .jTemp) (.mul (.mul (.div (.num 1 0) (.rd (.var .T))) (.sub (.add (.mul (.sub (.rd (.arr .fwd 190)) (.rd (.arr .rev 189))) (.div (.num 16606245640352367 14) (.rd (.var .T)))) (.mul (.rd (.arr .fwd 190)) (.neg (.num 1 0)))) (.mul (.rd (.arr .rev 189)) (.add (.neg (.num 1 0)) (.mul (.neg (.rd (.var .T))) (.sub (.sub (.add (.rd (.arr .dBdT 0)) (.rd (.arr .dBdT 30))) (.rd (.arr .dBdT 31))) (.rd (.arr .dBdT 1)))))))) (.rd (.var .rhoInv))),
  .set (.arr .jac 1) (.add (.rd (.arr .jac 1)) (.mul (.rd (.var .jTemp)) (.num 20158800000000001 16))),
  .set (.arr .jac 2) (.add (.rd (.arr .jac 2)) (.mul (.neg (.rd (.var .jTemp))) (.num 10079400000000001 16))),
  .set (.arr .jac 31) (.add (.rd (.arr .jac 31)) (.mul (.rd (.var .jTemp)) (.num 14006740000000001 15))),
  .set (.arr .jac 32) (.add (.rd (.arr .jac 32)) (.mul (.neg (.rd (.var .jTemp))) (.num 1501468 5)))]

/-- utilities/mechanisms/gri30/lib/src/jacobs/jacob_4.c:6698-6704 -/
def jacobT191 : List CStmt := [
  .set (.var .jTemp) (.mul (.mul (.div (.num 1 0) (.rd (.var .T))) (.sub (.mul (.rd (.arr .fwd 191)) (.neg (.num 1 0))) (.mul (.rd (.arr .rev 190)) (.add (.neg (.num 1 0)) (.mul (.neg (.rd (.var .T))) (.sub (.sub (.add (.rd (.arr .dBdT 1)) (.rd (.arr .dBdT 38))) (.rd (.arr .dBdT 31))) (.rd (.arr .dBdT 4)))))))) (.rd (.var .rhoInv))),
  .set (.arr .jac 2) (.add (.rd (.arr .jac 2)) (.mul (.rd (.var .jTemp)) (.num 10079400000000001 16))),
  .set (.arr .jac 5) (.add (.rd (.arr .jac 5)) (.mul (.neg (.rd (.var .jTemp))) (.num 17007339999999999 15))),
  .set (.arr .jac 39) (.mul (.rd (.var .jTemp)) (.num 3101408 5)),
  .set (.arr .jac 32) (.add (.rd (.arr .jac 32)) (.mul (.neg (.rd (.var .jTemp))) (.num 1501468 5)))]

/-- utilities/mechanisms/gri30/lib/src/jacobs/jacob_4.c:6925-6931 -/
def jacobT192 : List CStmt := [
  .set (.var .jTemp) (.mul (.mul (.div (.num 1 0) (.rd (.var .T))) (.sub (.add (.mul (.sub (.rd (.arr .fwd 192)) (.rd (.arr .rev 191))) (.num 12 1)) (.mul (.rd (.arr .fwd 192)) (.neg (.num 1 0)))) (.mul (.rd (.arr .rev 191)) (.add (.neg (.num 1 0)) (.mul (.neg (.rd (.var .T))) (.sub (.sub (.add (.rd (.arr .dBdT 5)) (.rd (.arr .dBdT 30))) (.rd (.arr .dBdT 31))) (.rd (.arr .dBdT 4)))))))) (.rd (.var .rhoInv))),
  .set (.arr .jac 5) (.add (.rd (.arr .jac 5)) (.mul (.neg (.rd (.var .jTemp))) (.num 17007339999999999 15))),
  .set (.arr .jac 6) (.add (.rd (.arr .jac 6)) (.mul (.rd (.var .jTemp)) (.num 18015280000000001 15))),
  .set (.arr .jac 31) (.add (.rd (.arr .jac 31)) (.mul (.rd (.var .jTemp)) (.num 14006740000000001 15))),
  .set (.arr .jac 32) (.add (.rd (.arr .jac 32)) (.mul (.neg (.rd (.var .jTemp))) (.num 1501468 5)))]

/-- utilities/mechanisms/gri30/lib/src/jacobs/jacob_4.c:7152-7158 -/
def jacobT193 : List CStmt := [
  .set (.var .jTemp) (.mul (.mul (.div (.num 1 0) (.rd (.var .T))) (.sub (.add (.mul (.sub (.rd (.arr .fwd 193)) (.rd (.arr .rev 192))) (.add (.num 2 0) (.div (.num 32709271715845571 13) (.rd (.var .T))))) (.mul (.rd (.arr .fwd 193)) (.neg (.num 1 0)))) (.mul (.rd (.arr .rev 192)) (.add (.neg (.num 1 0)) (.mul (.neg (.rd (.var .T))) (.sub (.sub (.add (.rd (.arr .dBdT 38)) (.rd (.arr .dBdT 2))) (.rd (.arr .dBdT 31))) (.rd (.arr .dBdT 3)))))))) (.rd (.var .rhoInv))),
  .set (.arr .jac 3) (.add (.rd (.arr .jac 3)) (.mul (.rd (.var .jTemp)) (.num 159994 4))),
  .set (.arr .jac 4) (.add (.rd (.arr .jac 4)) (.mul (.neg (.rd (.var .jTemp))) (.num 31998799999999999 15))),
  .set (.arr .jac 39) (.add (.rd (.arr .jac 39)) (.mul (.rd (.var .jTemp)) (.num 3101408 5))),
  .set (.arr .jac 32) (.add (.rd (.arr .jac 32)) (.mul (.neg (.rd (.var .jTemp))) (.num 1501468 5)))]

/-- utilities/mechanisms/gri30/lib/src/jacobs/jacob_4.c:7379-7385 -/
def jacobT194 : List CStmt := [
  .set (.var .jTemp) (.mul (.mul (.div (.num 1 0) (.rd (.var .T))) (.sub (.add (.mul (.sub (.rd (.arr .fwd 194)) (.rd (.arr .rev 193))) (.add (.num 15 1) (.div (.num 5032195648591626 14) (.rd (.var .T))))) (.mul (.rd (.arr .fwd 194)) (.neg (.num 1 0)))) (.mul (.rd (.arr .rev 193)) (.add (.neg (.num 1 0)) (.mul (.neg (.rd (.var .T))) (.sub (.sub (.add (.rd (.arr .dBdT 35)) (.rd (.arr .dBdT 4))) (.rd (.arr .dBdT 31))) (.rd (.arr .dBdT 3)))))))) (.rd (.var .rhoInv))),
  .set (.arr .jac 36) (.add (.rd (.arr .jac 36)) (.mul (.rd (.var .jTemp)) (.num 30006140000000002 15))),
  .set (.arr .jac 4) (.add (.rd (.arr .jac 4)) (.mul (.neg (.rd (.var .jTemp))) (.num 31998799999999999 15))),
  .set (.arr .jac 5) (.add (.rd (.arr .jac 5)) (.mul (.rd (.var .jTemp)) (.num 17007339999999999 15))),
  .set (.arr .jac 32) (.add (.rd (.arr .jac 32)) (.mul (.neg (.rd (.var .jTemp))) (.num 1501468 5)))]

/-- utilities/mechanisms/gri30/lib/src/jacobs/jacob_4.c:7606-7612 without the assignment to `*J_nplusone` -/
def jacobT195 : List CStmt := [
  .set (.var .jTemp) (.mul (.mul (.div (.num 1 0) (.rd (.var .T))) (.sub (.mul (.rd (.arr .fwd 195)) (.neg (.num 1 0))) (.mul (.rd (.arr .rev 194)) (.add (.neg (.num 1 0)) (.mul (.neg (.rd (.var .T))) (.sub (.sub (.add (.rd (.arr .dBdT 1)) (.rd (.arr .dBdT 52))) (.rd (.arr .dBdT 31))) (.rd (.arr .dBdT 30)))))))) (.rd (.var .rhoInv))),
  .set (.arr .jac 2) (.add (.rd (.arr .jac 2)) (.mul (.rd (.var .jTemp)) (.num 10079400000000001 16))),
  .set (.arr .jac 31) (.add (.rd (.arr .jac 31)) (.mul (.neg (.rd (.var .jTemp))) (.num 14006740000000001 15))),
  .set (.arr .jac 32) (.add (.rd (.arr .jac 32)) (.mul (.neg (.rd (.var .jTemp))) (.num 1501468 5)))]

/-- utilities/mechanisms/gri30/lib/src/jacobs/jacob_4.c:7609 -/
def jacobN195 : List CStmt := [
  .set (.var .jN) (.mul (.rd (.var .jTemp)) (.num 28013480000000001 15))]

/-- utilities/mechanisms/gri30/lib/src/jacobs/jacob_4.c:7833-7839 -/
def jacobT196 : List CStmt := [
  .set (.var .jTemp) (.mul (.mul (.div (.num 1 0) (.rd (.var .T))) (.sub (.add (.mul (.sub (.rd (.arr .fwd 196)) (.rd (.arr .rev 195))) (.div (.num 69695909732994023 13) (.rd (.var .T)))) (.mul (.rd (.arr .fwd 196)) (.neg (.num 1 0)))) (.mul (.rd (.arr .rev 195)) (.add (.neg (.num 1 0)) (.mul (.neg (.rd (.var .T))) (.sub (.sub (.add (.rd (.arr .dBdT 0)) (.rd (.arr .dBdT 38))) (.rd (.arr .dBdT 31))) (.rd (.arr .dBdT 5)))))))) (.rd (.var .rhoInv))),
  .set (.arr .jac 1) (.add (.rd (.arr .jac 1)) (.mul (.rd (.var .jTemp)) (.num 20158800000000001 16))),
  .set (.arr .jac 6) (.add (.rd (.arr .jac 6)) (.mul (.neg (.rd (.var .jTemp))) (.num 18015280000000001 15))),
  .set (.arr .jac 39) (.add (.rd (.arr .jac 39)) (.mul (.rd (.var .jTemp)) (.num 3101408 5))),
  .set (.arr .jac 32) (.add (.rd (.arr .jac 32)) (.mul (.neg (.rd (.var .jTemp))) (.num 1501468 5)))]

/-- utilities/mechanisms/gri30/lib/src/jacobs/jacob_4.c:8060-8066 without the assignment to `*J_nplusone` -/
def jacobT197 : List CStmt := [
  .set (.var .jTemp) (.mul (.mul (.div (.num 1 0) (.rd (.var .T))) (.sub (.add (.mul (.sub (.rd (.arr .fwd 197)) (.rd (.arr .rev 196))) (.neg (.num 23000000000000001 17))) (.mul (.rd (.arr .fwd 197)) (.neg (.num 1 0)))) (.mul (.rd (.arr .rev 196)) (.add (.neg (.num 1 0)) (.mul (.neg (.rd (.var .T))) (.sub (.sub (.add (.rd (.arr .dBdT 52)) (.rd (.arr .dBdT 4))) (.rd (.arr .dBdT 31))) (.rd (.arr .dBdT 35)))))))) (.rd (.var .rhoInv))),
  .set (.arr .jac 5) (.add (.rd (.arr .jac 5)) (.mul (.rd (.var .jTemp)) (.num 17007339999999999 15))),
  .set (.arr .jac 36) (.add (.rd (.arr .jac 36)) (.mul (.neg (.rd (.var .jTemp))) (.num 30006140000000002 15))),
  .set (.arr .jac 32) (.add (.rd (.arr .jac 32)) (.mul (.neg (.rd (.var .jTemp))) (.num 1501468 5)))]

/-- utilities/mechanisms/gri30/lib/src/jacobs/jacob_4.c:8064 -/
def jacobN197 : List CStmt := [
  .set (.var .jN) (.mul (.rd (.var .jTemp)) (.num 28013480000000001 15))]

/-- utilities/mechanisms/gri30/lib/src/jacobs/jacob_4.c:8287-8293 -/
def jacobT198 : List CStmt := [
  .set (.var .jTemp) (.mul (.mul (.div (.num 1 0) (.rd (.var .T))) (.sub (.add (.mul (.sub (.rd (.arr .fwd 198)) (.rd (.arr .rev 197))) (.neg (.num 45000000000000001 17))) (.mul (.rd (.arr .fwd 198)) (.neg (.num 1 0)))) (.mul (.rd (.arr .rev 197)) (.add (.neg (.num 1 0)) (.mul (.neg (.rd (.var .T))) (.sub (.sub (.add (.rd (.arr .dBdT 1)) (.rd (.arr .dBdT 37))) (.rd (.arr .dBdT 31))) (.rd (.arr .dBdT 35)))))))) (.rd (.var .rhoInv))),
  .set (.arr .jac 2) (.add (.rd (.arr .jac 2)) (.mul (.rd (.var .jTemp)) (.num 10079400000000001 16))),
  .set (.arr .jac 36) (.add (.rd (.arr .jac 36)) (.mul (.neg (.rd (.var .jTemp))) (.num 30006140000000002 15))),
  .set (.arr .jac 38) (.add (.rd (.arr .jac 38)) (.mul (.rd (.var .jTemp)) (.num 44012880000000003 15))),
  .set (.arr .jac 32) (.add (.rd (.arr .jac 32)) (.mul (.neg (.rd (.var .jTemp))) (.num 1501468 5)))]

/-- utilities/mechanisms/gri30/lib/src/jacobs/jacob_4.c:8514-8520 -/
def jacobT199 : List CStmt := [
  .set (.var .jTemp) (.mul (.mul (.div (.num 1 0) (.rd (.var .T))) (.sub (.mul (.rd (.arr .fwd 199)) (.neg (.num 1 0))) (.mul (.rd (.arr .rev 198)) (.add (.neg (.num 1 0)) (.mul (.neg (.rd (.var .T))) (.sub (.sub (.add (.rd (.arr .dBdT 31)) (.rd (.arr .dBdT 4))) (.rd (.arr .dBdT 2))) (.rd (.arr .dBdT 32)))))))) (.rd (.var .rhoInv))),
  .set (.arr .jac 33) (.mul (.neg (.rd (.var .jTemp))) (.num 1602262 5)),
  .set (.arr .jac 3) (.add (.rd (.arr .jac 3)) (.mul (.neg (.rd (.var .jTemp))) (.num 159994 4))),
  .set (.arr .jac 5) (.add (.rd (.arr .jac 5)) (.mul (.rd (.var .jTemp)) (.num 17007339999999999 15))),
  .set (.arr .jac 32) (.add (.rd (.arr .jac 32)) (.mul (.rd (.var .jTemp)) (.num 1501468 5)))]

/-- The derivatives with respect to the temperature in `eval_jacob_4`, one block per reaction, utilities/mechanisms/gri30/lib/src/jacobs/jacob_4.c:5-8740. -/
def jacob4Blocks : List (List CStmt × List CStmt) := [
  (jacobT160, []), (jacobT161, []), (jacobT162, []), (jacobT163, []), (jacobT164, []), (jacobT165, []), (jacobT166, []), (jacobT167, []), (jacobT168, []), (jacobT169, []), (jacobT170, []), (jacobT171, []), (jacobT172, []), (jacobT173, []), (jacobT174, []), (jacobT175, []), (jacobT176, []), (jacobT177, jacobN177), (jacobT178, []), (jacobT179, []), (jacobT180, jacobN180), (jacobT181, []), (jacobT182, jacobN182), (jacobT183, jacobN183), (jacobT184, jacobN184), (jacobT185, []), (jacobT186, []), (jacobT187, []), (jacobT188, []), (jacobT189, []), (jacobT190, []), (jacobT191, []), (jacobT192, []), (jacobT193, []), (jacobT194, []), (jacobT195, jacobN195), (jacobT196, []), (jacobT197, jacobN197), (jacobT198, []), (jacobT199, [])]

end DLB.Mech.Gri30
