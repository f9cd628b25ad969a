/- Generated by tools/gen_mechanisms.py from utilities/mechanisms/yao/lib/src/jacobs/jacob_6.c. Do not edit. -/
import Verif.Model.CLang
set_option autoImplicit false
set_option maxRecDepth 1000000

namespace DLB.Mech.Yao
open DLB

/-- utilities/mechanisms/yao/lib/src/jacobs/jacob_6.c:5-10 -/
def jacob6Start : List CStmt := [
  .set (.var .logT) (.log (.rd (.var .T))),
  .set (.var .kf) (.num 0 0),
  .set (.var .jTemp) (.num 0 0),
  .set (.var .Kc) (.num 0 0),
  .set (.var .kr) (.num 0 0),
  .set (.var .rhoInv) (.div (.num 1 0) (.rd (.var .rho)))]

/-- utilities/mechanisms/yao/lib/src/jacobs/jacob_6.c:11-17 -/
def jacobT240 : List CStmt := [
  .set (.var .jTemp) (.mul (.mul (.div (.num 1 0) (.rd (.var .T))) (.sub (.add (.mul (.sub (.rd (.arr .fwd 240)) (.rd (.arr .rev 238))) (.add (.num 23900000000000001 16) (.div (.num 19776528898965091 14) (.rd (.var .T))))) (.mul (.rd (.arr .fwd 240)) (.neg (.num 1 0)))) (.mul (.rd (.arr .rev 238)) (.add (.neg (.num 1 0)) (.mul (.neg (.rd (.var .T))) (.sub (.sub (.add (.rd (.arr .dBdT 6)) (.rd (.arr .dBdT 46))) (.rd (.arr .dBdT 44))) (.rd (.arr .dBdT 3)))))))) (.rd (.var .rhoInv))),
  .set (.arr .jac 4) (.add (.rd (.arr .jac 4)) (.mul (.neg (.rd (.var .jTemp))) (.num 17007339999999999 15))),
  .set (.arr .jac 45) (.add (.rd (.arr .jac 45)) (.mul (.neg (.rd (.var .jTemp))) (.num 17033843999999999 14))),
  .set (.arr .jac 47) (.add (.rd (.arr .jac 47)) (.mul (.rd (.var .jTemp)) (.num 1693305 4))),
  .set (.arr .jac 7) (.add (.rd (.arr .jac 7)) (.mul (.rd (.var .jTemp)) (.num 18015280000000001 15)))]

/-- utilities/mechanisms/yao/lib/src/jacobs/jacob_6.c:254-260 -/
def jacobT241 : List CStmt := [
  .set (.var .jTemp) (.mul (.mul (.div (.num 1 0) (.rd (.var .T))) (.sub (.add (.mul (.sub (.rd (.arr .fwd 241)) (.rd (.arr .rev 239))) (.add (.num 23900000000000001 16) (.div (.num 19776528898965091 14) (.rd (.var .T))))) (.mul (.rd (.arr .fwd 241)) (.neg (.num 1 0)))) (.mul (.rd (.arr .rev 239)) (.add (.neg (.num 1 0)) (.mul (.neg (.rd (.var .T))) (.sub (.sub (.add (.rd (.arr .dBdT 6)) (.rd (.arr .dBdT 47))) (.rd (.arr .dBdT 44))) (.rd (.arr .dBdT 3)))))))) (.rd (.var .rhoInv))),
  .set (.arr .jac 4) (.add (.rd (.arr .jac 4)) (.mul (.neg (.rd (.var .jTemp))) (.num 17007339999999999 15))),
  .set (.arr .jac 45) (.add (.rd (.arr .jac 45)) (.mul (.neg (.rd (.var .jTemp))) (.num 17033843999999999 14))),
  .set (.arr .jac 7) (.add (.rd (.arr .jac 7)) (.mul (.rd (.var .jTemp)) (.num 18015280000000001 15))),
  .set (.arr .jac 48) (.add (.rd (.arr .jac 48)) (.mul (.rd (.var .jTemp)) (.num 1693305 4)))]

/-- utilities/mechanisms/yao/lib/src/jacobs/jacob_6.c:497-503 -/
def jacobT242 : List CStmt := [
  .set (.var .jTemp) (.mul (.mul (.div (.num 1 0) (.rd (.var .T))) (.sub (.add (.mul (.sub (.rd (.arr .fwd 242)) (.rd (.arr .rev 240))) (.div (.num 25628972438277153 12) (.rd (.var .T)))) (.mul (.rd (.arr .fwd 242)) (.neg (.num 1 0)))) (.mul (.rd (.arr .rev 240)) (.add (.neg (.num 1 0)) (.mul (.neg (.rd (.var .T))) (.sub (.sub (.add (.rd (.arr .dBdT 4)) (.rd (.arr .dBdT 45))) (.rd (.arr .dBdT 44))) (.rd (.arr .dBdT 8)))))))) (.rd (.var .rhoInv))),
  .set (.arr .jac 9) (.add (.rd (.arr .jac 9)) (.mul (.neg (.rd (.var .jTemp))) (.num 31998799999999999 15))),
  .set (.arr .jac 5) (.add (.rd (.arr .jac 5)) (.mul (.rd (.var .jTemp)) (.num 33006740000000001 15))),
  .set (.arr .jac 45) (.add (.rd (.arr .jac 45)) (.mul (.neg (.rd (.var .jTemp))) (.num 17033843999999999 14))),
  .set (.arr .jac 46) (.add (.rd (.arr .jac 46)) (.mul (.rd (.var .jTemp)) (.num 1693305 4)))]

/-- utilities/mechanisms/yao/lib/src/jacobs/jacob_6.c:740-746 -/
def jacobT243 : List CStmt := [
  .set (.var .jTemp) (.mul (.mul (.div (.num 1 0) (.rd (.var .T))) (.sub (.add (.mul (.sub (.rd (.arr .fwd 243)) (.rd (.arr .rev 241))) (.div (.num 23948219091647548 12) (.rd (.var .T)))) (.mul (.rd (.arr .fwd 243)) (.neg (.num 1 0)))) (.mul (.rd (.arr .rev 241)) (.add (.neg (.num 1 0)) (.mul (.neg (.rd (.var .T))) (.sub (.sub (.add (.rd (.arr .dBdT 4)) (.rd (.arr .dBdT 46))) (.rd (.arr .dBdT 44))) (.rd (.arr .dBdT 8)))))))) (.rd (.var .rhoInv))),
  .set (.arr .jac 9) (.add (.rd (.arr .jac 9)) (.mul (.neg (.rd (.var .jTemp))) (.num 31998799999999999 15))),
  .set (.arr .jac 5) (.add (.rd (.arr .jac 5)) (.mul (.rd (.var .jTemp)) (.num 33006740000000001 15))),
  .set (.arr .jac 45) (.add (.rd (.arr .jac 45)) (.mul (.neg (.rd (.var .jTemp))) (.num 17033843999999999 14))),
  .set (.arr .jac 47) (.add (.rd (.arr .jac 47)) (.mul (.rd (.var .jTemp)) (.num 1693305 4)))]

/-- utilities/mechanisms/yao/lib/src/jacobs/jacob_6.c:983-989 -/
def jacobT244 : List CStmt := [
  .set (.var .jTemp) (.mul (.mul (.div (.num 1 0) (.rd (.var .T))) (.sub (.add (.mul (.sub (.rd (.arr .fwd 244)) (.rd (.arr .rev 242))) (.div (.num 23948219091647548 12) (.rd (.var .T)))) (.mul (.rd (.arr .fwd 244)) (.neg (.num 1 0)))) (.mul (.rd (.arr .rev 242)) (.add (.neg (.num 1 0)) (.mul (.neg (.rd (.var .T))) (.sub (.sub (.add (.rd (.arr .dBdT 4)) (.rd (.arr .dBdT 47))) (.rd (.arr .dBdT 44))) (.rd (.arr .dBdT 8)))))))) (.rd (.var .rhoInv))),
  .set (.arr .jac 9) (.add (.rd (.arr .jac 9)) (.mul (.neg (.rd (.var .jTemp))) (.num 31998799999999999 15))),
  .set (.arr .jac 5) (.add (.rd (.arr .jac 5)) (.mul (.rd (.var .jTemp)) (.num 33006740000000001 15))),
  .set (.arr .jac 45) (.add (.rd (.arr .jac 45)) (.mul (.neg (.rd (.var .jTemp))) (.num 17033843999999999 14))),
  .set (.arr .jac 48) (.add (.rd (.arr .jac 48)) (.mul (.rd (.var .jTemp)) (.num 1693305 4)))]

/-- utilities/mechanisms/yao/lib/src/jacobs/jacob_6.c:1226-1232 -/
def jacobT245 : List CStmt := [
  .set (.var .jTemp) (.mul (.mul (.div (.num 1 0) (.rd (.var .T))) (.sub (.add (.mul (.sub (.rd (.arr .fwd 245)) (.rd (.arr .rev 243))) (.add (.num 25499999999999998 16) (.div (.num 8298090624527591 12) (.rd (.var .T))))) (.mul (.rd (.arr .fwd 245)) (.neg (.num 1 0)))) (.mul (.rd (.arr .rev 243)) (.add (.neg (.num 1 0)) (.mul (.neg (.rd (.var .T))) (.sub (.sub (.add (.rd (.arr .dBdT 7)) (.rd (.arr .dBdT 45))) (.rd (.arr .dBdT 44))) (.rd (.arr .dBdT 4)))))))) (.rd (.var .rhoInv))),
  .set (.arr .jac 5) (.add (.rd (.arr .jac 5)) (.mul (.neg (.rd (.var .jTemp))) (.num 33006740000000001 15))),
  .set (.arr .jac 45) (.add (.rd (.arr .jac 45)) (.mul (.neg (.rd (.var .jTemp))) (.num 17033843999999999 14))),
  .set (.arr .jac 46) (.add (.rd (.arr .jac 46)) (.mul (.rd (.var .jTemp)) (.num 1693305 4))),
  .set (.arr .jac 8) (.add (.rd (.arr .jac 8)) (.mul (.rd (.var .jTemp)) (.num 34014679999999998 15)))]

/-- utilities/mechanisms/yao/lib/src/jacobs/jacob_6.c:1469-1475 -/
def jacobT246 : List CStmt := [
  .set (.var .jTemp) (.mul (.mul (.div (.num 1 0) (.rd (.var .T))) (.sub (.add (.mul (.sub (.rd (.arr .fwd 246)) (.rd (.arr .rev 244))) (.add (.num 26000000000000001 16) (.div (.num 69997841471909524 13) (.rd (.var .T))))) (.mul (.rd (.arr .fwd 246)) (.neg (.num 1 0)))) (.mul (.rd (.arr .rev 244)) (.add (.neg (.num 1 0)) (.mul (.neg (.rd (.var .T))) (.sub (.sub (.add (.rd (.arr .dBdT 46)) (.rd (.arr .dBdT 7))) (.rd (.arr .dBdT 44))) (.rd (.arr .dBdT 4)))))))) (.rd (.var .rhoInv))),
  .set (.arr .jac 5) (.add (.rd (.arr .jac 5)) (.mul (.neg (.rd (.var .jTemp))) (.num 33006740000000001 15))),
  .set (.arr .jac 45) (.add (.rd (.arr .jac 45)) (.mul (.neg (.rd (.var .jTemp))) (.num 17033843999999999 14))),
  .set (.arr .jac 47) (.add (.rd (.arr .jac 47)) (.mul (.rd (.var .jTemp)) (.num 1693305 4))),
  .set (.arr .jac 8) (.add (.rd (.arr .jac 8)) (.mul (.rd (.var .jTemp)) (.num 34014679999999998 15)))]

/-- utilities/mechanisms/yao/lib/src/jacobs/jacob_6.c:1712-1718 -/
def jacobT247 : List CStmt := [
  .set (.var .jTemp) (.mul (.mul (.div (.num 1 0) (.rd (.var .T))) (.sub (.add (.mul (.sub (.rd (.arr .fwd 247)) (.rd (.arr .rev 245))) (.add (.num 26000000000000001 16) (.div (.num 69997841471909524 13) (.rd (.var .T))))) (.mul (.rd (.arr .fwd 247)) (.neg (.num 1 0)))) (.mul (.rd (.arr .rev 245)) (.add (.neg (.num 1 0)) (.mul (.neg (.rd (.var .T))) (.sub (.sub (.add (.rd (.arr .dBdT 7)) (.rd (.arr .dBdT 47))) (.rd (.arr .dBdT 44))) (.rd (.arr .dBdT 4)))))))) (.rd (.var .rhoInv))),
  .set (.arr .jac 5) (.add (.rd (.arr .jac 5)) (.mul (.neg (.rd (.var .jTemp))) (.num 33006740000000001 15))),
  .set (.arr .jac 48) (.add (.rd (.arr .jac 48)) (.mul (.rd (.var .jTemp)) (.num 1693305 4))),
  .set (.arr .jac 45) (.add (.rd (.arr .jac 45)) (.mul (.neg (.rd (.var .jTemp))) (.num 17033843999999999 14))),
  .set (.arr .jac 8) (.add (.rd (.arr .jac 8)) (.mul (.rd (.var .jTemp)) (.num 34014679999999998 15)))]

/-- utilities/mechanisms/yao/lib/src/jacobs/jacob_6.c:1955-1961 -/
def jacobT248 : List CStmt := [
  .set (.var .jTemp) (.mul (.mul (.div (.num 1 0) (.rd (.var .T))) (.sub (.add (.mul (.sub (.rd (.arr .fwd 248)) (.rd (.arr .rev 246))) (.add (.num 36499999999999999 16) (.div (.num 35995295474375903 13) (.rd (.var .T))))) (.mul (.rd (.arr .fwd 248)) (.neg (.num 1 0)))) (.mul (.rd (.arr .rev 246)) (.add (.neg (.num 1 0)) (.mul (.neg (.rd (.var .T))) (.sub (.sub (.add (.rd (.arr .dBdT 12)) (.rd (.arr .dBdT 45))) (.rd (.arr .dBdT 11))) (.rd (.arr .dBdT 44)))))))) (.rd (.var .rhoInv))),
  .set (.arr .jac 13) (.add (.rd (.arr .jac 13)) (.mul (.rd (.var .jTemp)) (.num 16042760000000001 15))),
  .set (.arr .jac 12) (.add (.rd (.arr .jac 12)) (.mul (.neg (.rd (.var .jTemp))) (.num 1503482 5))),
  .set (.arr .jac 45) (.add (.rd (.arr .jac 45)) (.mul (.neg (.rd (.var .jTemp))) (.num 17033843999999999 14))),
  .set (.arr .jac 46) (.add (.rd (.arr .jac 46)) (.mul (.rd (.var .jTemp)) (.num 1693305 4)))]

/-- utilities/mechanisms/yao/lib/src/jacobs/jacob_6.c:2198-2204 -/
def jacobT249 : List CStmt := [
  .set (.var .jTemp) (.mul (.mul (.div (.num 1 0) (.rd (.var .T))) (.sub (.add (.mul (.sub (.rd (.arr .fwd 249)) (.rd (.arr .rev 247))) (.add (.num 346 2) (.div (.num 27576432154282111 13) (.rd (.var .T))))) (.mul (.rd (.arr .fwd 249)) (.neg (.num 1 0)))) (.mul (.rd (.arr .rev 247)) (.add (.neg (.num 1 0)) (.mul (.neg (.rd (.var .T))) (.sub (.sub (.add (.rd (.arr .dBdT 12)) (.rd (.arr .dBdT 46))) (.rd (.arr .dBdT 11))) (.rd (.arr .dBdT 44)))))))) (.rd (.var .rhoInv))),
  .set (.arr .jac 13) (.add (.rd (.arr .jac 13)) (.mul (.rd (.var .jTemp)) (.num 16042760000000001 15))),
  .set (.arr .jac 12) (.add (.rd (.arr .jac 12)) (.mul (.neg (.rd (.var .jTemp))) (.num 1503482 5))),
  .set (.arr .jac 45) (.add (.rd (.arr .jac 45)) (.mul (.neg (.rd (.var .jTemp))) (.num 17033843999999999 14))),
  .set (.arr .jac 47) (.add (.rd (.arr .jac 47)) (.mul (.rd (.var .jTemp)) (.num 1693305 4)))]

/-- utilities/mechanisms/yao/lib/src/jacobs/jacob_6.c:2441-2447 -/
def jacobT250 : List CStmt := [
  .set (.var .jTemp) (.mul (.mul (.div (.num 1 0) (.rd (.var .T))) (.sub (.add (.mul (.sub (.rd (.arr .fwd 250)) (.rd (.arr .rev 248))) (.add (.num 346 2) (.div (.num 27576432154282111 13) (.rd (.var .T))))) (.mul (.rd (.arr .fwd 250)) (.neg (.num 1 0)))) (.mul (.rd (.arr .rev 248)) (.add (.neg (.num 1 0)) (.mul (.neg (.rd (.var .T))) (.sub (.sub (.add (.rd (.arr .dBdT 12)) (.rd (.arr .dBdT 47))) (.rd (.arr .dBdT 11))) (.rd (.arr .dBdT 44)))))))) (.rd (.var .rhoInv))),
  .set (.arr .jac 13) (.add (.rd (.arr .jac 13)) (.mul (.rd (.var .jTemp)) (.num 16042760000000001 15))),
  .set (.arr .jac 12) (.add (.rd (.arr .jac 12)) (.mul (.neg (.rd (.var .jTemp))) (.num 1503482 5))),
  .set (.arr .jac 45) (.add (.rd (.arr .jac 45)) (.mul (.neg (.rd (.var .jTemp))) (.num 17033843999999999 14))),
  .set (.arr .jac 48) (.add (.rd (.arr .jac 48)) (.mul (.rd (.var .jTemp)) (.num 1693305 4)))]

/-- utilities/mechanisms/yao/lib/src/jacobs/jacob_6.c:2684-2689 -/
def jacobT251 : List CStmt := [
  .set (.var .jTemp) (.mul (.mul (.div (.num 1 0) (.rd (.var .T))) (.mul (.rd (.arr .fwd 251)) (.neg (.num 1 0)))) (.rd (.var .rhoInv))),
  .set (.arr .jac 9) (.add (.rd (.arr .jac 9)) (.mul (.neg (.rd (.var .jTemp))) (.num 31998799999999999 15))),
  .set (.arr .jac 50) (.mul (.rd (.var .jTemp)) (.num 20132929999999999 14)),
  .set (.arr .jac 46) (.add (.rd (.arr .jac 46)) (.mul (.neg (.rd (.var .jTemp))) (.num 1693305 4)))]

/-- utilities/mechanisms/yao/lib/src/jacobs/jacob_6.c:2853-2858 -/
def jacobT252 : List CStmt := [
  .set (.var .jTemp) (.mul (.mul (.div (.num 1 0) (.rd (.var .T))) (.mul (.rd (.arr .fwd 252)) (.div (.num 13788216077141056 12) (.rd (.var .T))))) (.rd (.var .rhoInv))),
  .set (.arr .jac 9) (.add (.rd (.arr .jac 9)) (.mul (.rd (.var .jTemp)) (.num 31998799999999999 15))),
  .set (.arr .jac 50) (.add (.rd (.arr .jac 50)) (.mul (.neg (.rd (.var .jTemp))) (.num 20132929999999999 14))),
  .set (.arr .jac 46) (.add (.rd (.arr .jac 46)) (.mul (.rd (.var .jTemp)) (.num 1693305 4)))]

/-- utilities/mechanisms/yao/lib/src/jacobs/jacob_6.c:3022-3027 -/
def jacobT253 : List CStmt := [
  .set (.var .jTemp) (.mul (.mul (.div (.num 1 0) (.rd (.var .T))) (.mul (.rd (.arr .fwd 253)) (.neg (.num 1 0)))) (.rd (.var .rhoInv))),
  .set (.arr .jac 9) (.add (.rd (.arr .jac 9)) (.mul (.neg (.rd (.var .jTemp))) (.num 31998799999999999 15))),
  .set (.arr .jac 50) (.add (.rd (.arr .jac 50)) (.mul (.rd (.var .jTemp)) (.num 20132929999999999 14))),
  .set (.arr .jac 47) (.add (.rd (.arr .jac 47)) (.mul (.neg (.rd (.var .jTemp))) (.num 1693305 4)))]

/-- utilities/mechanisms/yao/lib/src/jacobs/jacob_6.c:3191-3196 -/
def jacobT254 : List CStmt := [
  .set (.var .jTemp) (.mul (.mul (.div (.num 1 0) (.rd (.var .T))) (.mul (.rd (.arr .fwd 254)) (.div (.num 13788216077141056 12) (.rd (.var .T))))) (.rd (.var .rhoInv))),
  .set (.arr .jac 9) (.add (.rd (.arr .jac 9)) (.mul (.rd (.var .jTemp)) (.num 31998799999999999 15))),
  .set (.arr .jac 50) (.add (.rd (.arr .jac 50)) (.mul (.neg (.rd (.var .jTemp))) (.num 20132929999999999 14))),
  .set (.arr .jac 47) (.add (.rd (.arr .jac 47)) (.mul (.rd (.var .jTemp)) (.num 1693305 4)))]

/-- utilities/mechanisms/yao/lib/src/jacobs/jacob_6.c:3360-3365 -/
def jacobT255 : List CStmt := [
  .set (.var .jTemp) (.mul (.mul (.div (.num 1 0) (.rd (.var .T))) (.mul (.rd (.arr .fwd 255)) (.neg (.num 1 0)))) (.rd (.var .rhoInv))),
  .set (.arr .jac 9) (.add (.rd (.arr .jac 9)) (.mul (.neg (.rd (.var .jTemp))) (.num 31998799999999999 15))),
  .set (.arr .jac 50) (.add (.rd (.arr .jac 50)) (.mul (.rd (.var .jTemp)) (.num 20132929999999999 14))),
  .set (.arr .jac 48) (.add (.rd (.arr .jac 48)) (.mul (.neg (.rd (.var .jTemp))) (.num 1693305 4)))]

/-- utilities/mechanisms/yao/lib/src/jacobs/jacob_6.c:3529-3534 -/
def jacobT256 : List CStmt := [
  .set (.var .jTemp) (.mul (.mul (.div (.num 1 0) (.rd (.var .T))) (.mul (.rd (.arr .fwd 256)) (.div (.num 13788216077141056 12) (.rd (.var .T))))) (.rd (.var .rhoInv))),
  .set (.arr .jac 9) (.add (.rd (.arr .jac 9)) (.mul (.rd (.var .jTemp)) (.num 31998799999999999 15))),
  .set (.arr .jac 50) (.add (.rd (.arr .jac 50)) (.mul (.neg (.rd (.var .jTemp))) (.num 20132929999999999 14))),
  .set (.arr .jac 48) (.add (.rd (.arr .jac 48)) (.mul (.rd (.var .jTemp)) (.num 1693305 4)))]

/-- utilities/mechanisms/yao/lib/src/jacobs/jacob_6.c:3698-3702 -/
def jacobT257 : List CStmt := [
  .set (.var .jTemp) (.mul (.mul (.div (.num 1 0) (.rd (.var .T))) (.mul (.rd (.arr .fwd 257)) (.div (.num 956117173232409 11) (.rd (.var .T))))) (.rd (.var .rhoInv))),
  .set (.arr .jac 50) (.add (.rd (.arr .jac 50)) (.mul (.neg (.rd (.var .jTemp))) (.num 20132929999999999 14))),
  .set (.arr .jac 51) (.mul (.rd (.var .jTemp)) (.num 20132929999999999 14))]

/-- utilities/mechanisms/yao/lib/src/jacobs/jacob_6.c:3813-3817 -/
def jacobT258 : List CStmt := [
  .set (.var .jTemp) (.mul (.mul (.div (.num 1 0) (.rd (.var .T))) (.mul (.rd (.arr .fwd 258)) (.div (.num 57870249958803706 13) (.rd (.var .T))))) (.rd (.var .rhoInv))),
  .set (.arr .jac 50) (.add (.rd (.arr .jac 50)) (.mul (.rd (.var .jTemp)) (.num 20132929999999999 14))),
  .set (.arr .jac 51) (.add (.rd (.arr .jac 51)) (.mul (.neg (.rd (.var .jTemp))) (.num 20132929999999999 14)))]

/-- utilities/mechanisms/yao/lib/src/jacobs/jacob_6.c:3928-3934 -/
def jacobT259 : List CStmt := [
  .set (.var .jTemp) (.mul (.mul (.div (.num 1 0) (.rd (.var .T))) (.mul (.rd (.arr .fwd 259)) (.add (.div (.num 30193173891549759 13) (.rd (.var .T))) (.neg (.num 1 0))))) (.rd (.var .rhoInv))),
  .set (.arr .jac 9) (.add (.rd (.arr .jac 9)) (.mul (.neg (.rd (.var .jTemp))) (.num 31998799999999999 15))),
  .set (.arr .jac 49) (.add (.rd (.arr .jac 49)) (.mul (.rd (.var .jTemp)) (.num 16832256000000001 14))),
  .set (.arr .jac 5) (.add (.rd (.arr .jac 5)) (.mul (.rd (.var .jTemp)) (.num 33006740000000001 15))),
  .set (.arr .jac 46) (.add (.rd (.arr .jac 46)) (.mul (.neg (.rd (.var .jTemp))) (.num 1693305 4)))]

/-- utilities/mechanisms/yao/lib/src/jacobs/jacob_6.c:4151-4157 -/
def jacobT260 : List CStmt := [
  .set (.var .jTemp) (.mul (.mul (.div (.num 1 0) (.rd (.var .T))) (.mul (.rd (.arr .fwd 260)) (.add (.div (.num 98127815147536712 13) (.rd (.var .T))) (.neg (.num 1 0))))) (.rd (.var .rhoInv))),
  .set (.arr .jac 49) (.add (.rd (.arr .jac 49)) (.mul (.neg (.rd (.var .jTemp))) (.num 16832256000000001 14))),
  .set (.arr .jac 9) (.add (.rd (.arr .jac 9)) (.mul (.rd (.var .jTemp)) (.num 31998799999999999 15))),
  .set (.arr .jac 5) (.add (.rd (.arr .jac 5)) (.mul (.neg (.rd (.var .jTemp))) (.num 33006740000000001 15))),
  .set (.arr .jac 46) (.add (.rd (.arr .jac 46)) (.mul (.rd (.var .jTemp)) (.num 1693305 4)))]

/-- utilities/mechanisms/yao/lib/src/jacobs/jacob_6.c:4374-4380 -/
def jacobT261 : List CStmt := [
  .set (.var .jTemp) (.mul (.mul (.div (.num 1 0) (.rd (.var .T))) (.mul (.rd (.arr .fwd 261)) (.add (.div (.num 30193173891549759 13) (.rd (.var .T))) (.neg (.num 1 0))))) (.rd (.var .rhoInv))),
  .set (.arr .jac 9) (.add (.rd (.arr .jac 9)) (.mul (.neg (.rd (.var .jTemp))) (.num 31998799999999999 15))),
  .set (.arr .jac 49) (.add (.rd (.arr .jac 49)) (.mul (.rd (.var .jTemp)) (.num 16832256000000001 14))),
  .set (.arr .jac 5) (.add (.rd (.arr .jac 5)) (.mul (.rd (.var .jTemp)) (.num 33006740000000001 15))),
  .set (.arr .jac 47) (.add (.rd (.arr .jac 47)) (.mul (.neg (.rd (.var .jTemp))) (.num 1693305 4)))]

/-- utilities/mechanisms/yao/lib/src/jacobs/jacob_6.c:4597-4603 -/
def jacobT262 : List CStmt := [
  .set (.var .jTemp) (.mul (.mul (.div (.num 1 0) (.rd (.var .T))) (.mul (.rd (.arr .fwd 262)) (.add (.div (.num 98127815147536712 13) (.rd (.var .T))) (.neg (.num 1 0))))) (.rd (.var .rhoInv))),
  .set (.arr .jac 49) (.add (.rd (.arr .jac 49)) (.mul (.neg (.rd (.var .jTemp))) (.num 16832256000000001 14))),
  .set (.arr .jac 9) (.add (.rd (.arr .jac 9)) (.mul (.rd (.var .jTemp)) (.num 31998799999999999 15))),
  .set (.arr .jac 5) (.add (.rd (.arr .jac 5)) (.mul (.neg (.rd (.var .jTemp))) (.num 33006740000000001 15))),
  .set (.arr .jac 47) (.add (.rd (.arr .jac 47)) (.mul (.rd (.var .jTemp)) (.num 1693305 4)))]

/-- utilities/mechanisms/yao/lib/src/jacobs/jacob_6.c:4820-4826 -/
def jacobT263 : List CStmt := [
  .set (.var .jTemp) (.mul (.mul (.div (.num 1 0) (.rd (.var .T))) (.mul (.rd (.arr .fwd 263)) (.add (.div (.num 30193173891549759 13) (.rd (.var .T))) (.neg (.num 1 0))))) (.rd (.var .rhoInv))),
  .set (.arr .jac 9) (.add (.rd (.arr .jac 9)) (.mul (.neg (.rd (.var .jTemp))) (.num 31998799999999999 15))),
  .set (.arr .jac 49) (.add (.rd (.arr .jac 49)) (.mul (.rd (.var .jTemp)) (.num 16832256000000001 14))),
  .set (.arr .jac 5) (.add (.rd (.arr .jac 5)) (.mul (.rd (.var .jTemp)) (.num 33006740000000001 15))),
  .set (.arr .jac 48) (.add (.rd (.arr .jac 48)) (.mul (.neg (.rd (.var .jTemp))) (.num 1693305 4)))]

/-- utilities/mechanisms/yao/lib/src/jacobs/jacob_6.c:5043-5049 -/
def jacobT264 : List CStmt := [
  .set (.var .jTemp) (.mul (.mul (.div (.num 1 0) (.rd (.var .T))) (.mul (.rd (.arr .fwd 264)) (.add (.div (.num 98127815147536712 13) (.rd (.var .T))) (.neg (.num 1 0))))) (.rd (.var .rhoInv))),
  .set (.arr .jac 49) (.add (.rd (.arr .jac 49)) (.mul (.neg (.rd (.var .jTemp))) (.num 16832256000000001 14))),
  .set (.arr .jac 9) (.add (.rd (.arr .jac 9)) (.mul (.rd (.var .jTemp)) (.num 31998799999999999 15))),
  .set (.arr .jac 5) (.add (.rd (.arr .jac 5)) (.mul (.neg (.rd (.var .jTemp))) (.num 33006740000000001 15))),
  .set (.arr .jac 48) (.add (.rd (.arr .jac 48)) (.mul (.rd (.var .jTemp)) (.num 1693305 4)))]

/-- utilities/mechanisms/yao/lib/src/jacobs/jacob_6.c:5266-5271 -/
def jacobT265 : List CStmt := [
  .set (.var .jTemp) (.mul (.mul (.div (.num 1 0) (.rd (.var .T))) (.mul (.rd (.arr .fwd 265)) (.neg (.num 1 0)))) (.rd (.var .rhoInv))),
  .set (.arr .jac 9) (.add (.rd (.arr .jac 9)) (.mul (.neg (.rd (.var .jTemp))) (.num 31998799999999999 15))),
  .set (.arr .jac 51) (.add (.rd (.arr .jac 51)) (.mul (.neg (.rd (.var .jTemp))) (.num 20132929999999999 14))),
  .set (.arr .jac 52) (.mul (.rd (.var .jTemp)) (.num 23332810000000001 14))]

/-- utilities/mechanisms/yao/lib/src/jacobs/jacob_6.c:5435-5440 -/
def jacobT266 : List CStmt := [
  .set (.var .jTemp) (.mul (.mul (.div (.num 1 0) (.rd (.var .T))) (.mul (.rd (.arr .fwd 266)) (.div (.num 13788216077141056 12) (.rd (.var .T))))) (.rd (.var .rhoInv))),
  .set (.arr .jac 9) (.add (.rd (.arr .jac 9)) (.mul (.rd (.var .jTemp)) (.num 31998799999999999 15))),
  .set (.arr .jac 51) (.add (.rd (.arr .jac 51)) (.mul (.rd (.var .jTemp)) (.num 20132929999999999 14))),
  .set (.arr .jac 52) (.add (.rd (.arr .jac 52)) (.mul (.neg (.rd (.var .jTemp))) (.num 23332810000000001 14)))]

/-- utilities/mechanisms/yao/lib/src/jacobs/jacob_6.c:5604-5609 -/
def jacobT267 : List CStmt := [
  .set (.var .jTemp) (.mul (.mul (.div (.num 1 0) (.rd (.var .T))) (.sub (.mul (.sub (.rd (.arr .fwd 267)) (.rd (.arr .rev 249))) (.div (.num 85547326026057654 13) (.rd (.var .T)))) (.mul (.rd (.arr .rev 249)) (.add (.neg (.num 1 0)) (.mul (.neg (.rd (.var .T))) (.sub (.add (.rd (.arr .dBdT 52)) (.rd (.arr .dBdT 3))) (.rd (.arr .dBdT 51)))))))) (.rd (.var .rhoInv))),
  .set (.arr .jac 4) (.add (.rd (.arr .jac 4)) (.mul (.rd (.var .jTemp)) (.num 17007339999999999 15))),
  .set (.arr .jac 52) (.add (.rd (.arr .jac 52)) (.mul (.neg (.rd (.var .jTemp))) (.num 23332810000000001 14))),
  .set (.arr .jac 53) (.mul (.rd (.var .jTemp)) (.num 21632076000000001 14))]

/-- utilities/mechanisms/yao/lib/src/jacobs/jacob_6.c:5781-5788 -/
def jacobT268 : List CStmt := [
  .set (.var .jTemp) (.mul (.mul (.div (.num 1 0) (.rd (.var .T))) (.mul (.rd (.arr .fwd 268)) (.div (.num 21167930995800678 12) (.rd (.var .T))))) (.rd (.var .rhoInv))),
  .set (.arr .jac 21) (.add (.rd (.arr .jac 21)) (.mul (.mul (.rd (.var .jTemp)) (.num 3 0)) (.num 28053759999999997 15))),
  .set (.arr .jac 4) (.add (.rd (.arr .jac 4)) (.mul (.rd (.var .jTemp)) (.num 17007339999999999 15))),
  .set (.arr .jac 53) (.add (.rd (.arr .jac 53)) (.mul (.neg (.rd (.var .jTemp))) (.num 21632076000000001 14))),
  .set (.arr .jac 22) (.add (.rd (.arr .jac 22)) (.mul (.rd (.var .jTemp)) (.num 29061699999999998 15))),
  .set (.arr .jac 24) (.add (.rd (.arr .jac 24)) (.mul (.mul (.rd (.var .jTemp)) (.num 2 0)) (.num 4304522 5)))]

/-- The derivatives with respect to the temperature in `eval_jacob_6`, one block per reaction, utilities/mechanisms/yao/lib/src/jacobs/jacob_6.c:5-6057. -/
def jacob6Blocks : List (List CStmt × List CStmt) := [
  (jacobT240, []), (jacobT241, []), (jacobT242, []), (jacobT243, []), (jacobT244, []), (jacobT245, []), (jacobT246, []), (jacobT247, []), (jacobT248, []), (jacobT249, []), (jacobT250, []), (jacobT251, []), (jacobT252, []), (jacobT253, []), (jacobT254, []), (jacobT255, []), (jacobT256, []), (jacobT257, []), (jacobT258, []), (jacobT259, []), (jacobT260, []), (jacobT261, []), (jacobT262, []), (jacobT263, []), (jacobT264, []), (jacobT265, []), (jacobT266, []), (jacobT267, []), (jacobT268, [])]

end DLB.Mech.Yao
