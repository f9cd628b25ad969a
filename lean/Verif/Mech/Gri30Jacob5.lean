/- Generated by tools/gen_mechanisms.py from utilities/mechanisms/gri30/lib/src/jacobs/jacob_5.c. Do not edit. -/
import Verif.Model.CLang
set_option autoImplicit false
set_option maxRecDepth 1000000

namespace DLB.Mech.Gri30
open DLB

/-- utilities/mechanisms/gri30/lib/src/jacobs/jacob_5.c:5-13 -/
def jacob5Start : List CStmt := [
  .set (.var .logT) (.log (.rd (.var .T))),
  .set (.var .kf) (.num 0 0),
  .set (.var .jTemp) (.num 0 0),
  .set (.var .presModTemp) (.num 0 0),
  .set (.var .Kc) (.num 0 0),
  .set (.var .kr) (.num 0 0),
  .set (.var .Pr) (.num 0 0),
  .set (.var .rhoInv) (.div (.num 1 0) (.rd (.var .rho)))]

/-- utilities/mechanisms/gri30/lib/src/jacobs/jacob_5.c:14-20 -/
def jacobT200 : List CStmt := [
  .set (.var .jTemp) (.mul (.mul (.div (.num 1 0) (.rd (.var .T))) (.sub (.mul (.rd (.arr .fwd 200)) (.neg (.num 1 0))) (.mul (.rd (.arr .rev 199)) (.add (.neg (.num 1 0)) (.mul (.neg (.rd (.var .T))) (.sub (.sub (.add (.rd (.arr .dBdT 1)) (.rd (.arr .dBdT 38))) (.rd (.arr .dBdT 2))) (.rd (.arr .dBdT 32)))))))) (.rd (.var .rhoInv))),
  .set (.arr .jac 33) (.add (.rd (.arr .jac 33)) (.mul (.neg (.rd (.var .jTemp))) (.num 1602262 5))),
  .set (.arr .jac 2) (.add (.rd (.arr .jac 2)) (.mul (.rd (.var .jTemp)) (.num 10079400000000001 16))),
  .set (.arr .jac 3) (.add (.rd (.arr .jac 3)) (.mul (.neg (.rd (.var .jTemp))) (.num 159994 4))),
  .set (.arr .jac 39) (.add (.rd (.arr .jac 39)) (.mul (.rd (.var .jTemp)) (.num 3101408 5)))]

/-- utilities/mechanisms/gri30/lib/src/jacobs/jacob_5.c:241-247 -/
def jacobT201 : List CStmt := [
  .set (.var .jTemp) (.mul (.mul (.div (.num 1 0) (.rd (.var .T))) (.sub (.add (.mul (.sub (.rd (.arr .fwd 201)) (.rd (.arr .rev 200))) (.div (.num 18367514117359435 13) (.rd (.var .T)))) (.mul (.rd (.arr .fwd 201)) (.neg (.num 1 0)))) (.mul (.rd (.arr .rev 200)) (.add (.neg (.num 1 0)) (.mul (.neg (.rd (.var .T))) (.sub (.sub (.add (.rd (.arr .dBdT 0)) (.rd (.arr .dBdT 31))) (.rd (.arr .dBdT 1))) (.rd (.arr .dBdT 32)))))))) (.rd (.var .rhoInv))),
  .set (.arr .jac 33) (.add (.rd (.arr .jac 33)) (.mul (.neg (.rd (.var .jTemp))) (.num 1602262 5))),
  .set (.arr .jac 2) (.add (.rd (.arr .jac 2)) (.mul (.neg (.rd (.var .jTemp))) (.num 10079400000000001 16))),
  .set (.arr .jac 1) (.add (.rd (.arr .jac 1)) (.mul (.rd (.var .jTemp)) (.num 20158800000000001 16))),
  .set (.arr .jac 32) (.add (.rd (.arr .jac 32)) (.mul (.rd (.var .jTemp)) (.num 1501468 5)))]

/-- utilities/mechanisms/gri30/lib/src/jacobs/jacob_5.c:468-474 -/
def jacobT202 : List CStmt := [
  .set (.var .jTemp) (.mul (.mul (.div (.num 1 0) (.rd (.var .T))) (.sub (.add (.mul (.sub (.rd (.arr .fwd 202)) (.rd (.arr .rev 201))) (.add (.num 15 1) (.div (.neg (.num 23148099983521482 14)) (.rd (.var .T))))) (.mul (.rd (.arr .fwd 202)) (.neg (.num 1 0)))) (.mul (.rd (.arr .rev 201)) (.add (.neg (.num 1 0)) (.mul (.neg (.rd (.var .T))) (.sub (.sub (.add (.rd (.arr .dBdT 31)) (.rd (.arr .dBdT 5))) (.rd (.arr .dBdT 32))) (.rd (.arr .dBdT 4)))))))) (.rd (.var .rhoInv))),
  .set (.arr .jac 33) (.add (.rd (.arr .jac 33)) (.mul (.neg (.rd (.var .jTemp))) (.num 1602262 5))),
  .set (.arr .jac 5) (.add (.rd (.arr .jac 5)) (.mul (.neg (.rd (.var .jTemp))) (.num 17007339999999999 15))),
  .set (.arr .jac 6) (.add (.rd (.arr .jac 6)) (.mul (.rd (.var .jTemp)) (.num 18015280000000001 15))),
  .set (.arr .jac 32) (.add (.rd (.arr .jac 32)) (.mul (.rd (.var .jTemp)) (.num 1501468 5)))]

/-- utilities/mechanisms/gri30/lib/src/jacobs/jacob_5.c:695-700 without the assignment to `*J_nplusone` -/
def jacobT203 : List CStmt := [
  .set (.var .jTemp) (.mul (.mul (.div (.num 1 0) (.rd (.var .T))) (.mul (.neg (.rd (.arr .rev 202))) (.add (.neg (.num 1 0)) (.mul (.neg (.rd (.var .T))) (.sub (.add (.rd (.arr .dBdT 1)) (.rd (.arr .dBdT 52))) (.rd (.arr .dBdT 34))))))) (.rd (.var .rhoInv))),
  .set (.arr .jac 2) (.add (.rd (.arr .jac 2)) (.mul (.rd (.var .jTemp)) (.num 10079400000000001 16))),
  .set (.arr .jac 35) (.mul (.neg (.rd (.var .jTemp))) (.num 29021420000000003 15))]

/-- utilities/mechanisms/gri30/lib/src/jacobs/jacob_5.c:699 -/
def jacobN203 : List CStmt := [
  .set (.var .jN) (.mul (.rd (.var .jTemp)) (.num 28013480000000001 15))]

/-- utilities/mechanisms/gri30/lib/src/jacobs/jacob_5.c:869-874 without the assignment to `*J_nplusone` -/
def jacobT204 : List CStmt := [
  .set (.var .jTemp) (.mul (.add (.div (.mul (.neg (.rd (.arr .presMod 29))) (.sub (.rd (.arr .fwd 204)) (.rd (.arr .rev 203)))) (.rd (.var .T))) (.mul (.div (.rd (.arr .presMod 29)) (.rd (.var .T))) (.sub (.mul (.sub (.rd (.arr .fwd 204)) (.rd (.arr .rev 203))) (.add (.neg (.num 11 2)) (.div (.num 25060334329986299 13) (.rd (.var .T))))) (.mul (.rd (.arr .rev 203)) (.add (.neg (.num 1 0)) (.mul (.neg (.rd (.var .T))) (.sub (.add (.rd (.arr .dBdT 1)) (.rd (.arr .dBdT 52))) (.rd (.arr .dBdT 34))))))))) (.rd (.var .rhoInv))),
  .set (.arr .jac 2) (.add (.rd (.arr .jac 2)) (.mul (.rd (.var .jTemp)) (.num 10079400000000001 16))),
  .set (.arr .jac 35) (.add (.rd (.arr .jac 35)) (.mul (.neg (.rd (.var .jTemp))) (.num 29021420000000003 15)))]

/-- utilities/mechanisms/gri30/lib/src/jacobs/jacob_5.c:873 -/
def jacobN204 : List CStmt := [
  .set (.var .jN) (.mul (.rd (.var .jTemp)) (.num 28013480000000001 15))]

/-- utilities/mechanisms/gri30/lib/src/jacobs/jacob_5.c:1044-1050 without the assignment to `*J_nplusone` -/
def jacobT205 : List CStmt := [
  .set (.var .jTemp) (.mul (.mul (.div (.num 1 0) (.rd (.var .T))) (.sub (.mul (.rd (.arr .fwd 205)) (.neg (.num 1 0))) (.mul (.rd (.arr .rev 204)) (.add (.neg (.num 1 0)) (.mul (.neg (.rd (.var .T))) (.sub (.sub (.add (.rd (.arr .dBdT 52)) (.rd (.arr .dBdT 6))) (.rd (.arr .dBdT 3))) (.rd (.arr .dBdT 34)))))))) (.rd (.var .rhoInv))),
  .set (.arr .jac 35) (.add (.rd (.arr .jac 35)) (.mul (.neg (.rd (.var .jTemp))) (.num 29021420000000003 15))),
  .set (.arr .jac 4) (.add (.rd (.arr .jac 4)) (.mul (.neg (.rd (.var .jTemp))) (.num 31998799999999999 15))),
  .set (.arr .jac 7) (.add (.rd (.arr .jac 7)) (.mul (.rd (.var .jTemp)) (.num 33006740000000001 15)))]

/-- utilities/mechanisms/gri30/lib/src/jacobs/jacob_5.c:1048 -/
def jacobN205 : List CStmt := [
  .set (.var .jN) (.mul (.rd (.var .jTemp)) (.num 28013480000000001 15))]

/-- utilities/mechanisms/gri30/lib/src/jacobs/jacob_5.c:1271-1277 without the assignment to `*J_nplusone` -/
def jacobT206 : List CStmt := [
  .set (.var .jTemp) (.mul (.mul (.div (.num 1 0) (.rd (.var .T))) (.sub (.mul (.rd (.arr .fwd 206)) (.neg (.num 1 0))) (.mul (.rd (.arr .rev 205)) (.add (.neg (.num 1 0)) (.mul (.neg (.rd (.var .T))) (.sub (.sub (.add (.rd (.arr .dBdT 52)) (.rd (.arr .dBdT 4))) (.rd (.arr .dBdT 2))) (.rd (.arr .dBdT 34)))))))) (.rd (.var .rhoInv))),
  .set (.arr .jac 5) (.add (.rd (.arr .jac 5)) (.mul (.rd (.var .jTemp)) (.num 17007339999999999 15))),
  .set (.arr .jac 3) (.add (.rd (.arr .jac 3)) (.mul (.neg (.rd (.var .jTemp))) (.num 159994 4))),
  .set (.arr .jac 35) (.add (.rd (.arr .jac 35)) (.mul (.neg (.rd (.var .jTemp))) (.num 29021420000000003 15)))]

/-- utilities/mechanisms/gri30/lib/src/jacobs/jacob_5.c:1275 -/
def jacobN206 : List CStmt := [
  .set (.var .jN) (.mul (.rd (.var .jTemp)) (.num 28013480000000001 15))]

/-- utilities/mechanisms/gri30/lib/src/jacobs/jacob_5.c:1498-1504 -/
def jacobT207 : List CStmt := [
  .set (.var .jTemp) (.mul (.mul (.div (.num 1 0) (.rd (.var .T))) (.sub (.mul (.rd (.arr .fwd 207)) (.neg (.num 1 0))) (.mul (.rd (.arr .rev 206)) (.add (.neg (.num 1 0)) (.mul (.neg (.rd (.var .T))) (.sub (.sub (.add (.rd (.arr .dBdT 31)) (.rd (.arr .dBdT 35))) (.rd (.arr .dBdT 2))) (.rd (.arr .dBdT 34)))))))) (.rd (.var .rhoInv))),
  .set (.arr .jac 3) (.add (.rd (.arr .jac 3)) (.mul (.neg (.rd (.var .jTemp))) (.num 159994 4))),
  .set (.arr .jac 36) (.add (.rd (.arr .jac 36)) (.mul (.rd (.var .jTemp)) (.num 30006140000000002 15))),
  .set (.arr .jac 35) (.add (.rd (.arr .jac 35)) (.mul (.neg (.rd (.var .jTemp))) (.num 29021420000000003 15))),
  .set (.arr .jac 32) (.add (.rd (.arr .jac 32)) (.mul (.rd (.var .jTemp)) (.num 1501468 5)))]

/-- utilities/mechanisms/gri30/lib/src/jacobs/jacob_5.c:1725-1731 without the assignment to `*J_nplusone` -/
def jacobT208 : List CStmt := [
  .set (.var .jTemp) (.mul (.mul (.div (.num 1 0) (.rd (.var .T))) (.sub (.mul (.rd (.arr .fwd 208)) (.neg (.num 1 0))) (.mul (.rd (.arr .rev 207)) (.add (.neg (.num 1 0)) (.mul (.neg (.rd (.var .T))) (.sub (.sub (.add (.rd (.arr .dBdT 0)) (.rd (.arr .dBdT 52))) (.rd (.arr .dBdT 1))) (.rd (.arr .dBdT 34)))))))) (.rd (.var .rhoInv))),
  .set (.arr .jac 1) (.add (.rd (.arr .jac 1)) (.mul (.rd (.var .jTemp)) (.num 20158800000000001 16))),
  .set (.arr .jac 2) (.add (.rd (.arr .jac 2)) (.mul (.neg (.rd (.var .jTemp))) (.num 10079400000000001 16))),
  .set (.arr .jac 35) (.add (.rd (.arr .jac 35)) (.mul (.neg (.rd (.var .jTemp))) (.num 29021420000000003 15)))]

/-- utilities/mechanisms/gri30/lib/src/jacobs/jacob_5.c:1730 -/
def jacobN208 : List CStmt := [
  .set (.var .jN) (.mul (.rd (.var .jTemp)) (.num 28013480000000001 15))]

/-- utilities/mechanisms/gri30/lib/src/jacobs/jacob_5.c:1952-1958 without the assignment to `*J_nplusone` -/
def jacobT209 : List CStmt := [
  .set (.var .jTemp) (.mul (.mul (.div (.num 1 0) (.rd (.var .T))) (.sub (.mul (.rd (.arr .fwd 209)) (.neg (.num 1 0))) (.mul (.rd (.arr .rev 208)) (.add (.neg (.num 1 0)) (.mul (.neg (.rd (.var .T))) (.sub (.sub (.add (.rd (.arr .dBdT 5)) (.rd (.arr .dBdT 52))) (.rd (.arr .dBdT 34))) (.rd (.arr .dBdT 4)))))))) (.rd (.var .rhoInv))),
  .set (.arr .jac 35) (.add (.rd (.arr .jac 35)) (.mul (.neg (.rd (.var .jTemp))) (.num 29021420000000003 15))),
  .set (.arr .jac 5) (.add (.rd (.arr .jac 5)) (.mul (.neg (.rd (.var .jTemp))) (.num 17007339999999999 15))),
  .set (.arr .jac 6) (.add (.rd (.arr .jac 6)) (.mul (.rd (.var .jTemp)) (.num 18015280000000001 15)))]

/-- utilities/mechanisms/gri30/lib/src/jacobs/jacob_5.c:1954 -/
def jacobN209 : List CStmt := [
  .set (.var .jN) (.mul (.rd (.var .jTemp)) (.num 28013480000000001 15))]

/-- utilities/mechanisms/gri30/lib/src/jacobs/jacob_5.c:2179-2185 without the assignment to `*J_nplusone` -/
def jacobT210 : List CStmt := [
  .set (.var .jTemp) (.mul (.mul (.div (.num 1 0) (.rd (.var .T))) (.sub (.mul (.rd (.arr .fwd 210)) (.neg (.num 1 0))) (.mul (.rd (.arr .rev 209)) (.add (.neg (.num 1 0)) (.mul (.neg (.rd (.var .T))) (.sub (.sub (.add (.rd (.arr .dBdT 52)) (.rd (.arr .dBdT 13))) (.rd (.arr .dBdT 12))) (.rd (.arr .dBdT 34)))))))) (.rd (.var .rhoInv))),
  .set (.arr .jac 35) (.add (.rd (.arr .jac 35)) (.mul (.neg (.rd (.var .jTemp))) (.num 29021420000000003 15))),
  .set (.arr .jac 13) (.add (.rd (.arr .jac 13)) (.mul (.neg (.rd (.var .jTemp))) (.num 1503482 5))),
  .set (.arr .jac 14) (.add (.rd (.arr .jac 14)) (.mul (.rd (.var .jTemp)) (.num 16042760000000001 15)))]

/-- utilities/mechanisms/gri30/lib/src/jacobs/jacob_5.c:2181 -/
def jacobN210 : List CStmt := [
  .set (.var .jN) (.mul (.rd (.var .jTemp)) (.num 28013480000000001 15))]

/-- utilities/mechanisms/gri30/lib/src/jacobs/jacob_5.c:2406-2411 -/
def jacobT211 : List CStmt := [
  .set (.var .jTemp) (.mul (.add (.div (.mul (.neg (.rd (.arr .presMod 30))) (.sub (.rd (.arr .fwd 211)) (.rd (.arr .rev 210)))) (.rd (.var .T))) (.mul (.div (.rd (.arr .presMod 30)) (.rd (.var .T))) (.sub (.add (.mul (.sub (.rd (.arr .fwd 211)) (.rd (.arr .rev 210))) (.add (.neg (.num 13200000000000001 16)) (.div (.num 37238247799578033 14) (.rd (.var .T))))) (.mul (.rd (.arr .fwd 211)) (.neg (.num 1 0)))) (.mul (.rd (.arr .rev 210)) (.mul (.neg (.rd (.var .T))) (.sub (.sub (.rd (.arr .dBdT 38)) (.rd (.arr .dBdT 1))) (.rd (.arr .dBdT 35)))))))) (.rd (.var .rhoInv))),
  .set (.arr .jac 2) (.add (.rd (.arr .jac 2)) (.mul (.neg (.rd (.var .jTemp))) (.num 10079400000000001 16))),
  .set (.arr .jac 36) (.add (.rd (.arr .jac 36)) (.mul (.neg (.rd (.var .jTemp))) (.num 30006140000000002 15))),
  .set (.arr .jac 39) (.add (.rd (.arr .jac 39)) (.mul (.rd (.var .jTemp)) (.num 3101408 5)))]

/-- utilities/mechanisms/gri30/lib/src/jacobs/jacob_5.c:2581-2587 -/
def jacobT212 : List CStmt := [
  .set (.var .jTemp) (.mul (.mul (.div (.num 1 0) (.rd (.var .T))) (.sub (.mul (.rd (.arr .fwd 212)) (.neg (.num 1 0))) (.mul (.rd (.arr .rev 211)) (.add (.neg (.num 1 0)) (.mul (.neg (.rd (.var .T))) (.sub (.sub (.add (.rd (.arr .dBdT 35)) (.rd (.arr .dBdT 4))) (.rd (.arr .dBdT 38))) (.rd (.arr .dBdT 2)))))))) (.rd (.var .rhoInv))),
  .set (.arr .jac 3) (.add (.rd (.arr .jac 3)) (.mul (.neg (.rd (.var .jTemp))) (.num 159994 4))),
  .set (.arr .jac 36) (.add (.rd (.arr .jac 36)) (.mul (.rd (.var .jTemp)) (.num 30006140000000002 15))),
  .set (.arr .jac 5) (.add (.rd (.arr .jac 5)) (.mul (.rd (.var .jTemp)) (.num 17007339999999999 15))),
  .set (.arr .jac 39) (.add (.rd (.arr .jac 39)) (.mul (.neg (.rd (.var .jTemp))) (.num 3101408 5)))]

/-- utilities/mechanisms/gri30/lib/src/jacobs/jacob_5.c:2808-2814 -/
def jacobT213 : List CStmt := [
  .set (.var .jTemp) (.mul (.mul (.div (.num 1 0) (.rd (.var .T))) (.sub (.add (.mul (.sub (.rd (.arr .fwd 213)) (.rd (.arr .rev 212))) (.add (.num 71999999999999997 17) (.div (.num 33212491280704734 14) (.rd (.var .T))))) (.mul (.rd (.arr .fwd 213)) (.neg (.num 1 0)))) (.mul (.rd (.arr .rev 212)) (.add (.neg (.num 1 0)) (.mul (.neg (.rd (.var .T))) (.sub (.sub (.add (.rd (.arr .dBdT 0)) (.rd (.arr .dBdT 35))) (.rd (.arr .dBdT 1))) (.rd (.arr .dBdT 38)))))))) (.rd (.var .rhoInv))),
  .set (.arr .jac 1) (.add (.rd (.arr .jac 1)) (.mul (.rd (.var .jTemp)) (.num 20158800000000001 16))),
  .set (.arr .jac 2) (.add (.rd (.arr .jac 2)) (.mul (.neg (.rd (.var .jTemp))) (.num 10079400000000001 16))),
  .set (.arr .jac 36) (.add (.rd (.arr .jac 36)) (.mul (.rd (.var .jTemp)) (.num 30006140000000002 15))),
  .set (.arr .jac 39) (.add (.rd (.arr .jac 39)) (.mul (.neg (.rd (.var .jTemp))) (.num 3101408 5)))]

/-- utilities/mechanisms/gri30/lib/src/jacobs/jacob_5.c:3035-3041 -/
def jacobT214 : List CStmt := [
  .set (.var .jTemp) (.mul (.mul (.div (.num 1 0) (.rd (.var .T))) (.sub (.add (.mul (.sub (.rd (.arr .fwd 214)) (.rd (.arr .rev 213))) (.add (.num 18999999999999999 16) (.div (.neg (.num 47805858661620448 14)) (.rd (.var .T))))) (.mul (.rd (.arr .fwd 214)) (.neg (.num 1 0)))) (.mul (.rd (.arr .rev 213)) (.add (.neg (.num 1 0)) (.mul (.neg (.rd (.var .T))) (.sub (.sub (.add (.rd (.arr .dBdT 5)) (.rd (.arr .dBdT 35))) (.rd (.arr .dBdT 38))) (.rd (.arr .dBdT 4)))))))) (.rd (.var .rhoInv))),
  .set (.arr .jac 36) (.add (.rd (.arr .jac 36)) (.mul (.rd (.var .jTemp)) (.num 30006140000000002 15))),
  .set (.arr .jac 5) (.add (.rd (.arr .jac 5)) (.mul (.neg (.rd (.var .jTemp))) (.num 17007339999999999 15))),
  .set (.arr .jac 6) (.add (.rd (.arr .jac 6)) (.mul (.rd (.var .jTemp)) (.num 18015280000000001 15))),
  .set (.arr .jac 39) (.add (.rd (.arr .jac 39)) (.mul (.neg (.rd (.var .jTemp))) (.num 3101408 5)))]

/-- utilities/mechanisms/gri30/lib/src/jacobs/jacob_5.c:3262-3268 -/
def jacobT215 : List CStmt := [
  .set (.var .jTemp) (.mul (.mul (.div (.num 1 0) (.rd (.var .T))) (.sub (.add (.mul (.sub (.rd (.arr .fwd 215)) (.rd (.arr .rev 214))) (.div (.num 65418543431691141 13) (.rd (.var .T)))) (.mul (.rd (.arr .fwd 215)) (.neg (.num 1 0)))) (.mul (.rd (.arr .rev 214)) (.add (.neg (.num 1 0)) (.mul (.neg (.rd (.var .T))) (.sub (.sub (.add (.rd (.arr .dBdT 6)) (.rd (.arr .dBdT 35))) (.rd (.arr .dBdT 3))) (.rd (.arr .dBdT 38)))))))) (.rd (.var .rhoInv))),
  .set (.arr .jac 36) (.add (.rd (.arr .jac 36)) (.mul (.rd (.var .jTemp)) (.num 30006140000000002 15))),
  .set (.arr .jac 4) (.add (.rd (.arr .jac 4)) (.mul (.neg (.rd (.var .jTemp))) (.num 31998799999999999 15))),
  .set (.arr .jac 7) (.add (.rd (.arr .jac 7)) (.mul (.rd (.var .jTemp)) (.num 33006740000000001 15))),
  .set (.arr .jac 39) (.add (.rd (.arr .jac 39)) (.mul (.neg (.rd (.var .jTemp))) (.num 3101408 5)))]

/-- utilities/mechanisms/gri30/lib/src/jacobs/jacob_5.c:3489-3495 -/
def jacobT216 : List CStmt := [
  .set (.var .jTemp) (.mul (.mul (.div (.num 1 0) (.rd (.var .T))) (.sub (.mul (.rd (.arr .fwd 216)) (.neg (.num 1 0))) (.mul (.rd (.arr .rev 215)) (.add (.neg (.num 1 0)) (.mul (.neg (.rd (.var .T))) (.sub (.sub (.add (.rd (.arr .dBdT 14)) (.rd (.arr .dBdT 30))) (.rd (.arr .dBdT 39))) (.rd (.arr .dBdT 2)))))))) (.rd (.var .rhoInv))),
  .set (.arr .jac 3) (.add (.rd (.arr .jac 3)) (.mul (.neg (.rd (.var .jTemp))) (.num 159994 4))),
  .set (.arr .jac 31) (.add (.rd (.arr .jac 31)) (.mul (.rd (.var .jTemp)) (.num 14006740000000001 15))),
  .set (.arr .jac 15) (.add (.rd (.arr .jac 15)) (.mul (.rd (.var .jTemp)) (.num 28010399999999997 15))),
  .set (.arr .jac 40) (.mul (.neg (.rd (.var .jTemp))) (.num 2601774 5))]

/-- utilities/mechanisms/gri30/lib/src/jacobs/jacob_5.c:3716-3722 -/
def jacobT217 : List CStmt := [
  .set (.var .jTemp) (.mul (.mul (.div (.num 1 0) (.rd (.var .T))) (.sub (.mul (.rd (.arr .fwd 217)) (.neg (.num 1 0))) (.mul (.rd (.arr .rev 216)) (.add (.neg (.num 1 0)) (.mul (.neg (.rd (.var .T))) (.sub (.sub (.add (.rd (.arr .dBdT 1)) (.rd (.arr .dBdT 46))) (.rd (.arr .dBdT 39))) (.rd (.arr .dBdT 4)))))))) (.rd (.var .rhoInv))),
  .set (.arr .jac 2) (.add (.rd (.arr .jac 2)) (.mul (.rd (.var .jTemp)) (.num 10079400000000001 16))),
  .set (.arr .jac 5) (.add (.rd (.arr .jac 5)) (.mul (.neg (.rd (.var .jTemp))) (.num 17007339999999999 15))),
  .set (.arr .jac 47) (.mul (.rd (.var .jTemp)) (.num 42017139999999998 15)),
  .set (.arr .jac 40) (.add (.rd (.arr .jac 40)) (.mul (.neg (.rd (.var .jTemp))) (.num 2601774 5)))]

/-- utilities/mechanisms/gri30/lib/src/jacobs/jacob_5.c:3943-3949 -/
def jacobT218 : List CStmt := [
  .set (.var .jTemp) (.mul (.mul (.div (.num 1 0) (.rd (.var .T))) (.sub (.add (.mul (.sub (.rd (.arr .fwd 218)) (.rd (.arr .rev 217))) (.div (.num 37540179538493535 13) (.rd (.var .T)))) (.mul (.rd (.arr .fwd 218)) (.neg (.num 1 0)))) (.mul (.rd (.arr .rev 217)) (.add (.neg (.num 1 0)) (.mul (.neg (.rd (.var .T))) (.sub (.sub (.add (.rd (.arr .dBdT 40)) (.rd (.arr .dBdT 4))) (.rd (.arr .dBdT 5))) (.rd (.arr .dBdT 39)))))))) (.rd (.var .rhoInv))),
  .set (.arr .jac 41) (.mul (.rd (.var .jTemp)) (.num 27025680000000001 15)),
  .set (.arr .jac 5) (.add (.rd (.arr .jac 5)) (.mul (.rd (.var .jTemp)) (.num 17007339999999999 15))),
  .set (.arr .jac 6) (.add (.rd (.arr .jac 6)) (.mul (.neg (.rd (.var .jTemp))) (.num 18015280000000001 15))),
  .set (.arr .jac 40) (.add (.rd (.arr .jac 40)) (.mul (.neg (.rd (.var .jTemp))) (.num 2601774 5)))]

/-- utilities/mechanisms/gri30/lib/src/jacobs/jacob_5.c:4170-4176 -/
def jacobT219 : List CStmt := [
  .set (.var .jTemp) (.mul (.mul (.div (.num 1 0) (.rd (.var .T))) (.sub (.add (.mul (.sub (.rd (.arr .fwd 219)) (.rd (.arr .rev 218))) (.div (.neg (.num 22141660853803157 14)) (.rd (.var .T)))) (.mul (.rd (.arr .fwd 219)) (.neg (.num 1 0)))) (.mul (.rd (.arr .rev 218)) (.add (.neg (.num 1 0)) (.mul (.neg (.rd (.var .T))) (.sub (.sub (.add (.rd (.arr .dBdT 2)) (.rd (.arr .dBdT 46))) (.rd (.arr .dBdT 39))) (.rd (.arr .dBdT 3)))))))) (.rd (.var .rhoInv))),
  .set (.arr .jac 3) (.add (.rd (.arr .jac 3)) (.mul (.rd (.var .jTemp)) (.num 159994 4))),
  .set (.arr .jac 4) (.add (.rd (.arr .jac 4)) (.mul (.neg (.rd (.var .jTemp))) (.num 31998799999999999 15))),
  .set (.arr .jac 47) (.add (.rd (.arr .jac 47)) (.mul (.rd (.var .jTemp)) (.num 42017139999999998 15))),
  .set (.arr .jac 40) (.add (.rd (.arr .jac 40)) (.mul (.neg (.rd (.var .jTemp))) (.num 2601774 5)))]

/-- utilities/mechanisms/gri30/lib/src/jacobs/jacob_5.c:4397-4403 -/
def jacobT220 : List CStmt := [
  .set (.var .jTemp) (.mul (.mul (.div (.num 1 0) (.rd (.var .T))) (.sub (.add (.mul (.sub (.rd (.arr .fwd 220)) (.rd (.arr .rev 219))) (.add (.num 24500000000000002 16) (.div (.num 11272118252845244 13) (.rd (.var .T))))) (.mul (.rd (.arr .fwd 220)) (.neg (.num 1 0)))) (.mul (.rd (.arr .rev 219)) (.add (.neg (.num 1 0)) (.mul (.neg (.rd (.var .T))) (.sub (.sub (.add (.rd (.arr .dBdT 1)) (.rd (.arr .dBdT 40))) (.rd (.arr .dBdT 0))) (.rd (.arr .dBdT 39)))))))) (.rd (.var .rhoInv))),
  .set (.arr .jac 1) (.add (.rd (.arr .jac 1)) (.mul (.neg (.rd (.var .jTemp))) (.num 20158800000000001 16))),
  .set (.arr .jac 2) (.add (.rd (.arr .jac 2)) (.mul (.rd (.var .jTemp)) (.num 10079400000000001 16))),
  .set (.arr .jac 41) (.add (.rd (.arr .jac 41)) (.mul (.rd (.var .jTemp)) (.num 27025680000000001 15))),
  .set (.arr .jac 40) (.add (.rd (.arr .jac 40)) (.mul (.neg (.rd (.var .jTemp))) (.num 2601774 5)))]

/-- utilities/mechanisms/gri30/lib/src/jacobs/jacob_5.c:4624-4630 -/
def jacobT221 : List CStmt := [
  .set (.var .jTemp) (.mul (.mul (.div (.num 1 0) (.rd (.var .T))) (.sub (.mul (.rd (.arr .fwd 221)) (.neg (.num 1 0))) (.mul (.rd (.arr .rev 220)) (.add (.neg (.num 1 0)) (.mul (.neg (.rd (.var .T))) (.sub (.sub (.add (.rd (.arr .dBdT 14)) (.rd (.arr .dBdT 35))) (.rd (.arr .dBdT 2))) (.rd (.arr .dBdT 46)))))))) (.rd (.var .rhoInv))),
  .set (.arr .jac 3) (.add (.rd (.arr .jac 3)) (.mul (.neg (.rd (.var .jTemp))) (.num 159994 4))),
  .set (.arr .jac 36) (.add (.rd (.arr .jac 36)) (.mul (.rd (.var .jTemp)) (.num 30006140000000002 15))),
  .set (.arr .jac 15) (.add (.rd (.arr .jac 15)) (.mul (.rd (.var .jTemp)) (.num 28010399999999997 15))),
  .set (.arr .jac 47) (.add (.rd (.arr .jac 47)) (.mul (.neg (.rd (.var .jTemp))) (.num 42017139999999998 15)))]

/-- utilities/mechanisms/gri30/lib/src/jacobs/jacob_5.c:4851-4857 -/
def jacobT222 : List CStmt := [
  .set (.var .jTemp) (.mul (.mul (.div (.num 1 0) (.rd (.var .T))) (.sub (.mul (.rd (.arr .fwd 222)) (.neg (.num 1 0))) (.mul (.rd (.arr .rev 221)) (.add (.neg (.num 1 0)) (.mul (.neg (.rd (.var .T))) (.sub (.sub (.add (.rd (.arr .dBdT 31)) (.rd (.arr .dBdT 14))) (.rd (.arr .dBdT 1))) (.rd (.arr .dBdT 46)))))))) (.rd (.var .rhoInv))),
  .set (.arr .jac 2) (.add (.rd (.arr .jac 2)) (.mul (.neg (.rd (.var .jTemp))) (.num 10079400000000001 16))),
  .set (.arr .jac 15) (.add (.rd (.arr .jac 15)) (.mul (.rd (.var .jTemp)) (.num 28010399999999997 15))),
  .set (.arr .jac 47) (.add (.rd (.arr .jac 47)) (.mul (.neg (.rd (.var .jTemp))) (.num 42017139999999998 15))),
  .set (.arr .jac 32) (.add (.rd (.arr .jac 32)) (.mul (.rd (.var .jTemp)) (.num 1501468 5)))]

/-- utilities/mechanisms/gri30/lib/src/jacobs/jacob_5.c:5078-5085 -/
def jacobT223 : List CStmt := [
  .set (.var .jTemp) (.mul (.mul (.div (.num 1 0) (.rd (.var .T))) (.sub (.mul (.rd (.arr .fwd 223)) (.neg (.num 1 0))) (.mul (.rd (.arr .rev 222)) (.add (.neg (.num 2 0)) (.mul (.neg (.rd (.var .T))) (.sub (.sub (.add (.add (.rd (.arr .dBdT 1)) (.rd (.arr .dBdT 14))) (.rd (.arr .dBdT 35))) (.rd (.arr .dBdT 46))) (.rd (.arr .dBdT 4)))))))) (.rd (.var .rhoInv))),
  .set (.arr .jac 2) (.add (.rd (.arr .jac 2)) (.mul (.rd (.var .jTemp)) (.num 10079400000000001 16))),
  .set (.arr .jac 36) (.add (.rd (.arr .jac 36)) (.mul (.rd (.var .jTemp)) (.num 30006140000000002 15))),
  .set (.arr .jac 5) (.add (.rd (.arr .jac 5)) (.mul (.neg (.rd (.var .jTemp))) (.num 17007339999999999 15))),
  .set (.arr .jac 15) (.add (.rd (.arr .jac 15)) (.mul (.rd (.var .jTemp)) (.num 28010399999999997 15))),
  .set (.arr .jac 47) (.add (.rd (.arr .jac 47)) (.mul (.neg (.rd (.var .jTemp))) (.num 42017139999999998 15)))]

/-- utilities/mechanisms/gri30/lib/src/jacobs/jacob_5.c:5358-5364 without the assignment to `*J_nplusone` -/
def jacobT224 : List CStmt := [
  .set (.var .jTemp) (.mul (.mul (.div (.num 1 0) (.rd (.var .T))) (.sub (.mul (.rd (.arr .fwd 224)) (.neg (.num 1 0))) (.mul (.rd (.arr .rev 223)) (.add (.neg (.num 1 0)) (.mul (.neg (.rd (.var .T))) (.sub (.sub (.add (.rd (.arr .dBdT 52)) (.rd (.arr .dBdT 14))) (.rd (.arr .dBdT 30))) (.rd (.arr .dBdT 46)))))))) (.rd (.var .rhoInv))),
  .set (.arr .jac 15) (.add (.rd (.arr .jac 15)) (.mul (.rd (.var .jTemp)) (.num 28010399999999997 15))),
  .set (.arr .jac 47) (.add (.rd (.arr .jac 47)) (.mul (.neg (.rd (.var .jTemp))) (.num 42017139999999998 15))),
  .set (.arr .jac 31) (.add (.rd (.arr .jac 31)) (.mul (.neg (.rd (.var .jTemp))) (.num 14006740000000001 15)))]

/-- utilities/mechanisms/gri30/lib/src/jacobs/jacob_5.c:5361 -/
def jacobN224 : List CStmt := [
  .set (.var .jN) (.mul (.rd (.var .jTemp)) (.num 28013480000000001 15))]

/-- utilities/mechanisms/gri30/lib/src/jacobs/jacob_5.c:5585-5591 -/
def jacobT225 : List CStmt := [
  .set (.var .jTemp) (.mul (.mul (.div (.num 1 0) (.rd (.var .T))) (.sub (.add (.mul (.sub (.rd (.arr .fwd 225)) (.rd (.arr .rev 224))) (.div (.num 10064391297183252 12) (.rd (.var .T)))) (.mul (.rd (.arr .fwd 225)) (.neg (.num 1 0)))) (.mul (.rd (.arr .rev 224)) (.add (.neg (.num 1 0)) (.mul (.neg (.rd (.var .T))) (.sub (.sub (.add (.rd (.arr .dBdT 15)) (.rd (.arr .dBdT 35))) (.rd (.arr .dBdT 3))) (.rd (.arr .dBdT 46)))))))) (.rd (.var .rhoInv))),
  .set (.arr .jac 36) (.add (.rd (.arr .jac 36)) (.mul (.rd (.var .jTemp)) (.num 30006140000000002 15))),
  .set (.arr .jac 4) (.add (.rd (.arr .jac 4)) (.mul (.neg (.rd (.var .jTemp))) (.num 31998799999999999 15))),
  .set (.arr .jac 47) (.add (.rd (.arr .jac 47)) (.mul (.neg (.rd (.var .jTemp))) (.num 42017139999999998 15))),
  .set (.arr .jac 16) (.add (.rd (.arr .jac 16)) (.mul (.rd (.var .jTemp)) (.num 44009799999999998 15)))]

/-- utilities/mechanisms/gri30/lib/src/jacobs/jacob_5.c:5812-5817 -/
def jacobT226 : List CStmt := [
  .set (.var .jTemp) (.mul (.add (.div (.mul (.neg (.rd (.arr .presMod 31))) (.sub (.rd (.arr .fwd 226)) (.rd (.arr .rev 225)))) (.rd (.var .T))) (.mul (.div (.rd (.arr .presMod 31)) (.rd (.var .T))) (.sub (.mul (.sub (.rd (.arr .fwd 226)) (.rd (.arr .rev 225))) (.div (.num 2719901748063774 11) (.rd (.var .T)))) (.mul (.rd (.arr .rev 225)) (.add (.neg (.num 1 0)) (.mul (.neg (.rd (.var .T))) (.sub (.add (.rd (.arr .dBdT 14)) (.rd (.arr .dBdT 30))) (.rd (.arr .dBdT 46))))))))) (.rd (.var .rhoInv))),
  .set (.arr .jac 31) (.add (.rd (.arr .jac 31)) (.mul (.rd (.var .jTemp)) (.num 14006740000000001 15))),
  .set (.arr .jac 15) (.add (.rd (.arr .jac 15)) (.mul (.rd (.var .jTemp)) (.num 28010399999999997 15))),
  .set (.arr .jac 47) (.add (.rd (.arr .jac 47)) (.mul (.neg (.rd (.var .jTemp))) (.num 42017139999999998 15)))]

/-- utilities/mechanisms/gri30/lib/src/jacobs/jacob_5.c:5987-5993 -/
def jacobT227 : List CStmt := [
  .set (.var .jTemp) (.mul (.mul (.div (.num 1 0) (.rd (.var .T))) (.sub (.add (.mul (.sub (.rd (.arr .fwd 227)) (.rd (.arr .rev 226))) (.add (.neg (.num 152 2)) (.div (.num 37238247799578033 14) (.rd (.var .T))))) (.mul (.rd (.arr .fwd 227)) (.neg (.num 1 0)))) (.mul (.rd (.arr .rev 226)) (.add (.neg (.num 1 0)) (.mul (.neg (.rd (.var .T))) (.sub (.sub (.add (.rd (.arr .dBdT 14)) (.rd (.arr .dBdT 37))) (.rd (.arr .dBdT 46))) (.rd (.arr .dBdT 35)))))))) (.rd (.var .rhoInv))),
  .set (.arr .jac 36) (.add (.rd (.arr .jac 36)) (.mul (.neg (.rd (.var .jTemp))) (.num 30006140000000002 15))),
  .set (.arr .jac 15) (.add (.rd (.arr .jac 15)) (.mul (.rd (.var .jTemp)) (.num 28010399999999997 15))),
  .set (.arr .jac 47) (.add (.rd (.arr .jac 47)) (.mul (.neg (.rd (.var .jTemp))) (.num 42017139999999998 15))),
  .set (.arr .jac 38) (.add (.rd (.arr .jac 38)) (.mul (.rd (.var .jTemp)) (.num 44012880000000003 15)))]

/-- utilities/mechanisms/gri30/lib/src/jacobs/jacob_5.c:6214-6220 without the assignment to `*J_nplusone` -/
def jacobT228 : List CStmt := [
  .set (.var .jTemp) (.mul (.mul (.div (.num 1 0) (.rd (.var .T))) (.sub (.add (.mul (.sub (.rd (.arr .fwd 228)) (.rd (.arr .rev 227))) (.add (.neg (.num 2 0)) (.div (.num 40257565188733008 14) (.rd (.var .T))))) (.mul (.rd (.arr .fwd 228)) (.neg (.num 1 0)))) (.mul (.rd (.arr .rev 227)) (.add (.neg (.num 1 0)) (.mul (.neg (.rd (.var .T))) (.sub (.sub (.add (.rd (.arr .dBdT 52)) (.rd (.arr .dBdT 15))) (.rd (.arr .dBdT 46))) (.rd (.arr .dBdT 35)))))))) (.rd (.var .rhoInv))),
  .set (.arr .jac 36) (.add (.rd (.arr .jac 36)) (.mul (.neg (.rd (.var .jTemp))) (.num 30006140000000002 15))),
  .set (.arr .jac 47) (.add (.rd (.arr .jac 47)) (.mul (.neg (.rd (.var .jTemp))) (.num 42017139999999998 15))),
  .set (.arr .jac 16) (.add (.rd (.arr .jac 16)) (.mul (.rd (.var .jTemp)) (.num 44009799999999998 15)))]

/-- utilities/mechanisms/gri30/lib/src/jacobs/jacob_5.c:6217 -/
def jacobN228 : List CStmt := [
  .set (.var .jN) (.mul (.rd (.var .jTemp)) (.num 28013480000000001 15))]

/-- utilities/mechanisms/gri30/lib/src/jacobs/jacob_5.c:6441-6446 -/
def jacobT229 : List CStmt := [
  .set (.var .jTemp) (.mul (.add (.div (.mul (.neg (.rd (.arr .presMod 32))) (.sub (.rd (.arr .fwd 229)) (.rd (.arr .rev 228)))) (.rd (.var .T))) (.mul (.div (.rd (.arr .presMod 32)) (.rd (.var .T))) (.sub (.mul (.sub (.rd (.arr .fwd 229)) (.rd (.arr .rev 228))) (.add (.neg (.num 32999999999999998 16)) (.div (.num 63707596911169989 12) (.rd (.var .T))))) (.mul (.rd (.arr .rev 228)) (.add (.neg (.num 1 0)) (.mul (.neg (.rd (.var .T))) (.sub (.add (.rd (.arr .dBdT 1)) (.rd (.arr .dBdT 39))) (.rd (.arr .dBdT 40))))))))) (.rd (.var .rhoInv))),
  .set (.arr .jac 41) (.add (.rd (.arr .jac 41)) (.mul (.neg (.rd (.var .jTemp))) (.num 27025680000000001 15))),
  .set (.arr .jac 2) (.add (.rd (.arr .jac 2)) (.mul (.rd (.var .jTemp)) (.num 10079400000000001 16))),
  .set (.arr .jac 40) (.add (.rd (.arr .jac 40)) (.mul (.rd (.var .jTemp)) (.num 2601774 5)))]

/-- utilities/mechanisms/gri30/lib/src/jacobs/jacob_5.c:6616-6622 -/
def jacobT230 : List CStmt := [
  .set (.var .jTemp) (.mul (.mul (.div (.num 1 0) (.rd (.var .T))) (.sub (.add (.mul (.sub (.rd (.arr .fwd 230)) (.rd (.arr .rev 229))) (.add (.num 26400000000000001 16) (.div (.num 25060334329986299 13) (.rd (.var .T))))) (.mul (.rd (.arr .fwd 230)) (.neg (.num 1 0)))) (.mul (.rd (.arr .rev 229)) (.add (.neg (.num 1 0)) (.mul (.neg (.rd (.var .T))) (.sub (.sub (.add (.rd (.arr .dBdT 1)) (.rd (.arr .dBdT 46))) (.rd (.arr .dBdT 40))) (.rd (.arr .dBdT 2)))))))) (.rd (.var .rhoInv))),
  .set (.arr .jac 41) (.add (.rd (.arr .jac 41)) (.mul (.neg (.rd (.var .jTemp))) (.num 27025680000000001 15))),
  .set (.arr .jac 2) (.add (.rd (.arr .jac 2)) (.mul (.rd (.var .jTemp)) (.num 10079400000000001 16))),
  .set (.arr .jac 3) (.add (.rd (.arr .jac 3)) (.mul (.neg (.rd (.var .jTemp))) (.num 159994 4))),
  .set (.arr .jac 47) (.add (.rd (.arr .jac 47)) (.mul (.rd (.var .jTemp)) (.num 42017139999999998 15)))]

/-- utilities/mechanisms/gri30/lib/src/jacobs/jacob_5.c:6843-6849 -/
def jacobT231 : List CStmt := [
  .set (.var .jTemp) (.mul (.mul (.div (.num 1 0) (.rd (.var .T))) (.sub (.add (.mul (.sub (.rd (.arr .fwd 231)) (.rd (.arr .rev 230))) (.add (.num 26400000000000001 16) (.div (.num 25060334329986299 13) (.rd (.var .T))))) (.mul (.rd (.arr .fwd 231)) (.neg (.num 1 0)))) (.mul (.rd (.arr .rev 230)) (.add (.neg (.num 1 0)) (.mul (.neg (.rd (.var .T))) (.sub (.sub (.add (.rd (.arr .dBdT 31)) (.rd (.arr .dBdT 14))) (.rd (.arr .dBdT 40))) (.rd (.arr .dBdT 2)))))))) (.rd (.var .rhoInv))),
  .set (.arr .jac 41) (.add (.rd (.arr .jac 41)) (.mul (.neg (.rd (.var .jTemp))) (.num 27025680000000001 15))),
  .set (.arr .jac 3) (.add (.rd (.arr .jac 3)) (.mul (.neg (.rd (.var .jTemp))) (.num 159994 4))),
  .set (.arr .jac 15) (.add (.rd (.arr .jac 15)) (.mul (.rd (.var .jTemp)) (.num 28010399999999997 15))),
  .set (.arr .jac 32) (.add (.rd (.arr .jac 32)) (.mul (.rd (.var .jTemp)) (.num 1501468 5)))]

/-- utilities/mechanisms/gri30/lib/src/jacobs/jacob_5.c:7070-7076 -/
def jacobT232 : List CStmt := [
  .set (.var .jTemp) (.mul (.mul (.div (.num 1 0) (.rd (.var .T))) (.sub (.add (.mul (.sub (.rd (.arr .fwd 232)) (.rd (.arr .rev 231))) (.add (.num 15800000000000001 16) (.div (.num 13385640425253727 12) (.rd (.var .T))))) (.mul (.rd (.arr .fwd 232)) (.neg (.num 1 0)))) (.mul (.rd (.arr .rev 231)) (.add (.neg (.num 1 0)) (.mul (.neg (.rd (.var .T))) (.sub (.sub (.add (.rd (.arr .dBdT 39)) (.rd (.arr .dBdT 4))) (.rd (.arr .dBdT 40))) (.rd (.arr .dBdT 2)))))))) (.rd (.var .rhoInv))),
  .set (.arr .jac 41) (.add (.rd (.arr .jac 41)) (.mul (.neg (.rd (.var .jTemp))) (.num 27025680000000001 15))),
  .set (.arr .jac 3) (.add (.rd (.arr .jac 3)) (.mul (.neg (.rd (.var .jTemp))) (.num 159994 4))),
  .set (.arr .jac 5) (.add (.rd (.arr .jac 5)) (.mul (.rd (.var .jTemp)) (.num 17007339999999999 15))),
  .set (.arr .jac 40) (.add (.rd (.arr .jac 40)) (.mul (.rd (.var .jTemp)) (.num 2601774 5)))]

/-- utilities/mechanisms/gri30/lib/src/jacobs/jacob_5.c:7297-7303 -/
def jacobT233 : List CStmt := [
  .set (.var .jTemp) (.mul (.mul (.div (.num 1 0) (.rd (.var .T))) (.sub (.add (.mul (.sub (.rd (.arr .fwd 233)) (.rd (.arr .rev 232))) (.add (.num 20299999999999998 16) (.div (.num 67280455821670048 13) (.rd (.var .T))))) (.mul (.rd (.arr .fwd 233)) (.neg (.num 1 0)))) (.mul (.rd (.arr .rev 232)) (.add (.neg (.num 1 0)) (.mul (.neg (.rd (.var .T))) (.sub (.sub (.add (.rd (.arr .dBdT 44)) (.rd (.arr .dBdT 1))) (.rd (.arr .dBdT 40))) (.rd (.arr .dBdT 4)))))))) (.rd (.var .rhoInv))),
  .set (.arr .jac 41) (.add (.rd (.arr .jac 41)) (.mul (.neg (.rd (.var .jTemp))) (.num 27025680000000001 15))),
  .set (.arr .jac 45) (.mul (.rd (.var .jTemp)) (.num 43025080000000003 15)),
  .set (.arr .jac 5) (.add (.rd (.arr .jac 5)) (.mul (.neg (.rd (.var .jTemp))) (.num 17007339999999999 15))),
  .set (.arr .jac 2) (.add (.rd (.arr .jac 2)) (.mul (.rd (.var .jTemp)) (.num 10079400000000001 16)))]

/-- utilities/mechanisms/gri30/lib/src/jacobs/jacob_5.c:7530-7536 -/
def jacobT234 : List CStmt := [
  .set (.var .jTemp) (.mul (.mul (.div (.num 1 0) (.rd (.var .T))) (.sub (.add (.mul (.sub (.rd (.arr .fwd 234)) (.rd (.arr .rev 233))) (.add (.num 22599999999999998 16) (.div (.num 32206052150986407 13) (.rd (.var .T))))) (.mul (.rd (.arr .fwd 234)) (.neg (.num 1 0)))) (.mul (.rd (.arr .rev 233)) (.add (.neg (.num 1 0)) (.mul (.neg (.rd (.var .T))) (.sub (.sub (.add (.rd (.arr .dBdT 45)) (.rd (.arr .dBdT 1))) (.rd (.arr .dBdT 40))) (.rd (.arr .dBdT 4)))))))) (.rd (.var .rhoInv))),
  .set (.arr .jac 41) (.add (.rd (.arr .jac 41)) (.mul (.neg (.rd (.var .jTemp))) (.num 27025680000000001 15))),
  .set (.arr .jac 2) (.add (.rd (.arr .jac 2)) (.mul (.rd (.var .jTemp)) (.num 10079400000000001 16))),
  .set (.arr .jac 5) (.add (.rd (.arr .jac 5)) (.mul (.neg (.rd (.var .jTemp))) (.num 17007339999999999 15))),
  .set (.arr .jac 46) (.mul (.rd (.var .jTemp)) (.num 43025080000000003 15))]

/-- utilities/mechanisms/gri30/lib/src/jacobs/jacob_5.c:7763-7769 -/
def jacobT235 : List CStmt := [
  .set (.var .jTemp) (.mul (.mul (.div (.num 1 0) (.rd (.var .T))) (.sub (.add (.mul (.sub (.rd (.arr .fwd 235)) (.rd (.arr .rev 234))) (.add (.num 25600000000000001 16) (.div (.num 45289760837324638 13) (.rd (.var .T))))) (.mul (.rd (.arr .fwd 235)) (.neg (.num 1 0)))) (.mul (.rd (.arr .rev 234)) (.add (.neg (.num 1 0)) (.mul (.neg (.rd (.var .T))) (.sub (.sub (.add (.rd (.arr .dBdT 14)) (.rd (.arr .dBdT 32))) (.rd (.arr .dBdT 40))) (.rd (.arr .dBdT 4)))))))) (.rd (.var .rhoInv))),
  .set (.arr .jac 41) (.add (.rd (.arr .jac 41)) (.mul (.neg (.rd (.var .jTemp))) (.num 27025680000000001 15))),
  .set (.arr .jac 33) (.add (.rd (.arr .jac 33)) (.mul (.rd (.var .jTemp)) (.num 1602262 5))),
  .set (.arr .jac 5) (.add (.rd (.arr .jac 5)) (.mul (.neg (.rd (.var .jTemp))) (.num 17007339999999999 15))),
  .set (.arr .jac 15) (.add (.rd (.arr .jac 15)) (.mul (.rd (.var .jTemp)) (.num 28010399999999997 15)))]

/-- utilities/mechanisms/gri30/lib/src/jacobs/jacob_5.c:7990-7997 -/
def jacobT236 : List CStmt := [
  .set (.var .concTemp) (.sub (.add (.add (.add (.add (.add (.add (.rd (.var .m)) (.mul (.num 1 0) (.rd (.arr .C 0)))) (.mul (.num 5 0) (.rd (.arr .C 5)))) (.mul (.num 1 0) (.rd (.arr .C 13)))) (.mul (.num 5 1) (.rd (.arr .C 14)))) (.mul (.num 1 0) (.rd (.arr .C 15)))) (.mul (.num 2 0) (.rd (.arr .C 26)))) (.mul (.num 3 1) (.rd (.arr .C 47)))),
  .set (.var .Pr) (.mul (.rd (.var .concTemp)) (.exp (.sub (.sub (.num 22168400698089236 15) (.mul (.num 34 1) (.rd (.var .logT)))) (.div (.num 95611717323240896 14) (.rd (.var .T)))))),
  .set (.var .jTemp) (.mul (.add (.mul (.mul (.rd (.arr .presMod 33)) (.div (.sub (.add (.neg (.num 34 1)) (.div (.num 95611717323240896 14) (.rd (.var .T)))) (.num 1 0)) (.mul (.rd (.var .T)) (.add (.num 1 0) (.rd (.var .Pr)))))) (.sub (.rd (.arr .fwd 236)) (.rd (.arr .rev 235)))) (.mul (.div (.rd (.arr .presMod 33)) (.rd (.var .T))) (.sub (.mul (.rd (.arr .fwd 236)) (.neg (.num 1 0))) (.mul (.rd (.arr .rev 235)) (.mul (.neg (.rd (.var .T))) (.sub (.sub (.rd (.arr .dBdT 41)) (.rd (.arr .dBdT 1))) (.rd (.arr .dBdT 40)))))))) (.rd (.var .rhoInv))),
  .set (.arr .jac 41) (.add (.rd (.arr .jac 41)) (.mul (.neg (.rd (.var .jTemp))) (.num 27025680000000001 15))),
  .set (.arr .jac 2) (.add (.rd (.arr .jac 2)) (.mul (.neg (.rd (.var .jTemp))) (.num 10079400000000001 16))),
  .set (.arr .jac 42) (.mul (.rd (.var .jTemp)) (.num 28033619999999999 15))]

/-- utilities/mechanisms/gri30/lib/src/jacobs/jacob_5.c:8168-8174 without the assignment to `*J_nplusone` -/
def jacobT237 : List CStmt := [
  .set (.var .jTemp) (.mul (.mul (.div (.num 1 0) (.rd (.var .T))) (.sub (.add (.mul (.sub (.rd (.arr .fwd 237)) (.rd (.arr .rev 236))) (.div (.num 20128782594366504 14) (.rd (.var .T)))) (.mul (.rd (.arr .fwd 237)) (.neg (.num 1 0)))) (.mul (.rd (.arr .rev 236)) (.add (.neg (.num 1 0)) (.mul (.neg (.rd (.var .T))) (.sub (.sub (.add (.rd (.arr .dBdT 10)) (.rd (.arr .dBdT 52))) (.rd (.arr .dBdT 41))) (.rd (.arr .dBdT 30)))))))) (.rd (.var .rhoInv))),
  .set (.arr .jac 42) (.add (.rd (.arr .jac 42)) (.mul (.neg (.rd (.var .jTemp))) (.num 28033619999999999 15))),
  .set (.arr .jac 11) (.add (.rd (.arr .jac 11)) (.mul (.rd (.var .jTemp)) (.num 14026879999999998 15))),
  .set (.arr .jac 31) (.add (.rd (.arr .jac 31)) (.mul (.neg (.rd (.var .jTemp))) (.num 14006740000000001 15)))]

/-- utilities/mechanisms/gri30/lib/src/jacobs/jacob_5.c:8172 -/
def jacobN237 : List CStmt := [
  .set (.var .jN) (.mul (.rd (.var .jTemp)) (.num 28013480000000001 15))]

/-- utilities/mechanisms/gri30/lib/src/jacobs/jacob_5.c:8395-8401 without the assignment to `*J_nplusone` -/
def jacobT238 : List CStmt := [
  .set (.var .jTemp) (.mul (.mul (.div (.num 1 0) (.rd (.var .T))) (.sub (.add (.mul (.sub (.rd (.arr .fwd 238)) (.rd (.arr .rev 237))) (.div (.num 23158164374818665 12) (.rd (.var .T)))) (.mul (.rd (.arr .fwd 238)) (.neg (.num 1 0)))) (.mul (.rd (.arr .rev 237)) (.add (.neg (.num 1 0)) (.mul (.neg (.rd (.var .T))) (.sub (.sub (.add (.rd (.arr .dBdT 39)) (.rd (.arr .dBdT 30))) (.rd (.arr .dBdT 8))) (.rd (.arr .dBdT 52)))))))) (.rd (.var .rhoInv))),
  .set (.arr .jac 9) (.add (.rd (.arr .jac 9)) (.mul (.neg (.rd (.var .jTemp))) (.num 12010999999999999 15))),
  .set (.arr .jac 31) (.add (.rd (.arr .jac 31)) (.mul (.rd (.var .jTemp)) (.num 14006740000000001 15))),
  .set (.arr .jac 40) (.add (.rd (.arr .jac 40)) (.mul (.rd (.var .jTemp)) (.num 2601774 5)))]

/-- utilities/mechanisms/gri30/lib/src/jacobs/jacob_5.c:8398 -/
def jacobN238 : List CStmt := [
  .set (.var .jN) (.mul (.neg (.rd (.var .jTemp))) (.num 28013480000000001 15))]

/-- utilities/mechanisms/gri30/lib/src/jacobs/jacob_5.c:8622-8628 without the assignment to `*J_nplusone` -/
def jacobT239 : List CStmt := [
  .set (.var .jTemp) (.mul (.mul (.div (.num 1 0) (.rd (.var .T))) (.sub (.add (.mul (.sub (.rd (.arr .fwd 239)) (.rd (.arr .rev 238))) (.add (.num 88 2) (.div (.num 10129809840614944 12) (.rd (.var .T))))) (.mul (.rd (.arr .fwd 239)) (.neg (.num 1 0)))) (.mul (.rd (.arr .rev 238)) (.add (.neg (.num 1 0)) (.mul (.neg (.rd (.var .T))) (.sub (.sub (.add (.rd (.arr .dBdT 40)) (.rd (.arr .dBdT 30))) (.rd (.arr .dBdT 52))) (.rd (.arr .dBdT 9)))))))) (.rd (.var .rhoInv))),
  .set (.arr .jac 41) (.add (.rd (.arr .jac 41)) (.mul (.rd (.var .jTemp)) (.num 27025680000000001 15))),
  .set (.arr .jac 10) (.add (.rd (.arr .jac 10)) (.mul (.neg (.rd (.var .jTemp))) (.num 13018939999999999 15))),
  .set (.arr .jac 31) (.add (.rd (.arr .jac 31)) (.mul (.rd (.var .jTemp)) (.num 14006740000000001 15)))]

/-- utilities/mechanisms/gri30/lib/src/jacobs/jacob_5.c:8626 -/
def jacobN239 : List CStmt := [
  .set (.var .jN) (.mul (.neg (.rd (.var .jTemp))) (.num 28013480000000001 15))]

/-- The derivatives with respect to the temperature in `eval_jacob_5`, one block per reaction, utilities/mechanisms/gri30/lib/src/jacobs/jacob_5.c:5-8848. -/
def jacob5Blocks : List (List CStmt × List CStmt) := [
  (jacobT200, []), (jacobT201, []), (jacobT202, []), (jacobT203, jacobN203), (jacobT204, jacobN204), (jacobT205, jacobN205), (jacobT206, jacobN206), (jacobT207, []), (jacobT208, jacobN208), (jacobT209, jacobN209), (jacobT210, jacobN210), (jacobT211, []), (jacobT212, []), (jacobT213, []), (jacobT214, []), (jacobT215, []), (jacobT216, []), (jacobT217, []), (jacobT218, []), (jacobT219, []), (jacobT220, []), (jacobT221, []), (jacobT222, []), (jacobT223, []), (jacobT224, jacobN224), (jacobT225, []), (jacobT226, []), (jacobT227, []), (jacobT228, jacobN228), (jacobT229, []), (jacobT230, []), (jacobT231, []), (jacobT232, []), (jacobT233, []), (jacobT234, []), (jacobT235, []), (jacobT236, []), (jacobT237, jacobN237), (jacobT238, jacobN238), (jacobT239, jacobN239)]

end DLB.Mech.Gri30
