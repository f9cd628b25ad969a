/- Generated by tools/gen_mechanisms.py from utilities/mechanisms/gri30/lib/src/jacobs/jacob_6.c. Do not edit. -/
import Verif.Model.CLang
set_option autoImplicit false
set_option maxRecDepth 1000000

namespace DLB.Mech.Gri30
open DLB

/-- utilities/mechanisms/gri30/lib/src/jacobs/jacob_6.c:5-17 -/
def jacob6Start : List CStmt := [
  .set (.var .logT) (.log (.rd (.var .T))),
  .set (.var .kf) (.num 0 0),
  .set (.var .jTemp) (.num 0 0),
  .set (.var .presModTemp) (.num 0 0),
  .set (.var .Kc) (.num 0 0),
  .set (.var .kr) (.num 0 0),
  .set (.var .Pr) (.num 0 0),
  .set (.var .Fcent) (.num 0 0),
  .set (.var .A) (.num 0 0),
  .set (.var .B) (.num 0 0),
  .set (.var .lnFAB) (.num 0 0),
  .set (.var .rhoInv) (.div (.num 1 0) (.rd (.var .rho)))]

/-- utilities/mechanisms/gri30/lib/src/jacobs/jacob_6.c:18-29 without the assignment to `*J_nplusone` -/
def jacobT240 : List CStmt := [
  .set (.var .concTemp) (.add (.add (.add (.add (.add (.add (.rd (.var .m)) (.mul (.num 1 0) (.rd (.arr .C 0)))) (.mul (.num 5 0) (.rd (.arr .C 5)))) (.mul (.num 1 0) (.rd (.arr .C 13)))) (.mul (.num 5 1) (.rd (.arr .C 14)))) (.mul (.num 1 0) (.rd (.arr .C 15)))) (.mul (.num 2 0) (.rd (.arr .C 26)))),
  .set (.var .Pr) (.mul (.rd (.var .concTemp)) (.exp (.sub (.sub (.num 22156813082916848 15) (.mul (.num 331 2) (.rd (.var .logT)))) (.div (.num 37238247799578033 14) (.rd (.var .T)))))),
  .set (.var .Fcent) (.add (.add (.mul (.num 33299999999999996 17) (.exp (.div (.rd (.var .T)) (.neg (.num 235 0))))) (.mul (.num 66700000000000004 17) (.exp (.div (.rd (.var .T)) (.neg (.num 2117 0)))))) (.exp (.div (.neg (.num 4536 0)) (.rd (.var .T))))),
  .set (.var .A) (.sub (.sub (.log10 (.fmax (.rd (.var .Pr)) (.num 1 300))) (.mul (.num 67 2) (.log10 (.fmax (.rd (.var .Fcent)) (.num 1 300))))) (.num 4 1)),
  .set (.var .B) (.sub (.sub (.num 806 3) (.mul (.num 11762 4) (.log10 (.fmax (.rd (.var .Fcent)) (.num 1 300))))) (.mul (.num 14 2) (.log10 (.fmax (.rd (.var .Pr)) (.num 1 300))))),
  .set (.var .lnFAB) (.div (.mul (.mul (.num 2 0) (.log (.fmax (.rd (.var .Fcent)) (.num 1 300)))) (.rd (.var .A))) (.mul (.mul (.mul (.mul (.rd (.var .B)) (.rd (.var .B))) (.rd (.var .B))) (.add (.num 1 0) (.div (.mul (.rd (.var .A)) (.rd (.var .A))) (.mul (.rd (.var .B)) (.rd (.var .B)))))) (.add (.num 1 0) (.div (.mul (.rd (.var .A)) (.rd (.var .A))) (.mul (.rd (.var .B)) (.rd (.var .B))))))),
  .set (.var .jTemp) (.mul (.add (.mul (.mul (.rd (.arr .presMod 34)) (.sub (.add (.div (.sub (.add (.neg (.num 331 2)) (.div (.num 37238247799578033 14) (.rd (.var .T)))) (.num 1 0)) (.mul (.rd (.var .T)) (.add (.num 1 0) (.rd (.var .Pr))))) (.mul (.sub (.div (.num 1 0) (.mul (.rd (.var .Fcent)) (.add (.num 1 0) (.div (.mul (.rd (.var .A)) (.rd (.var .A))) (.mul (.rd (.var .B)) (.rd (.var .B))))))) (.div (.mul (.rd (.var .lnFAB)) (.add (.mul (.neg (.num 2909773028751787 16)) (.rd (.var .B))) (.mul (.num 51081716961460466 17) (.rd (.var .A))))) (.rd (.var .Fcent)))) (.add (.sub (.mul (.neg (.num 14170212765957444 19)) (.exp (.div (.rd (.var .T)) (.neg (.num 235 0))))) (.mul (.num 31506849315068495 20) (.exp (.div (.rd (.var .T)) (.neg (.num 2117 0)))))) (.mul (.div (.num 4536 0) (.mul (.rd (.var .T)) (.rd (.var .T)))) (.exp (.div (.neg (.num 4536 0)) (.rd (.var .T)))))))) (.div (.mul (.mul (.rd (.var .lnFAB)) (.add (.mul (.num 43429448190325176 17) (.rd (.var .B))) (.mul (.num 60801227466455256 18) (.rd (.var .A))))) (.sub (.add (.neg (.num 33100000000000001 16)) (.div (.num 37238247799578033 14) (.rd (.var .T)))) (.num 1 0))) (.rd (.var .T))))) (.sub (.rd (.arr .fwd 240)) (.rd (.arr .rev 239)))) (.mul (.div (.rd (.arr .presMod 34)) (.rd (.var .T))) (.sub (.add (.mul (.sub (.rd (.arr .fwd 240)) (.rd (.arr .rev 239))) (.num 14999999999999999 17)) (.mul (.rd (.arr .fwd 240)) (.neg (.num 1 0)))) (.mul (.rd (.arr .rev 239)) (.mul (.neg (.rd (.var .T))) (.sub (.sub (.rd (.arr .dBdT 42)) (.rd (.arr .dBdT 52))) (.rd (.arr .dBdT 9)))))))) (.rd (.var .rhoInv))),
  .set (.arr .jac 10) (.add (.rd (.arr .jac 10)) (.mul (.neg (.rd (.var .jTemp))) (.num 13018939999999999 15))),
  .set (.arr .jac 43) (.mul (.rd (.var .jTemp)) (.num 41032420000000002 15))]

/-- utilities/mechanisms/gri30/lib/src/jacobs/jacob_6.c:28 -/
def jacobN240 : List CStmt := [
  .set (.var .jN) (.mul (.neg (.rd (.var .jTemp))) (.num 28013480000000001 15))]

/-- utilities/mechanisms/gri30/lib/src/jacobs/jacob_6.c:200-206 without the assignment to `*J_nplusone` -/
def jacobT241 : List CStmt := [
  .set (.var .jTemp) (.mul (.mul (.div (.num 1 0) (.rd (.var .T))) (.sub (.add (.mul (.sub (.rd (.arr .fwd 241)) (.rd (.arr .rev 240))) (.div (.num 37238247799578035 12) (.rd (.var .T)))) (.mul (.rd (.arr .fwd 241)) (.neg (.num 1 0)))) (.mul (.rd (.arr .rev 240)) (.add (.neg (.num 1 0)) (.mul (.neg (.rd (.var .T))) (.sub (.sub (.add (.rd (.arr .dBdT 31)) (.rd (.arr .dBdT 40))) (.rd (.arr .dBdT 10))) (.rd (.arr .dBdT 52)))))))) (.rd (.var .rhoInv))),
  .set (.arr .jac 41) (.add (.rd (.arr .jac 41)) (.mul (.rd (.var .jTemp)) (.num 27025680000000001 15))),
  .set (.arr .jac 11) (.add (.rd (.arr .jac 11)) (.mul (.neg (.rd (.var .jTemp))) (.num 14026879999999998 15))),
  .set (.arr .jac 32) (.add (.rd (.arr .jac 32)) (.mul (.rd (.var .jTemp)) (.num 1501468 5)))]

/-- utilities/mechanisms/gri30/lib/src/jacobs/jacob_6.c:204 -/
def jacobN241 : List CStmt := [
  .set (.var .jN) (.mul (.neg (.rd (.var .jTemp))) (.num 28013480000000001 15))]

/-- utilities/mechanisms/gri30/lib/src/jacobs/jacob_6.c:427-433 without the assignment to `*J_nplusone` -/
def jacobT242 : List CStmt := [
  .set (.var .jTemp) (.mul (.mul (.div (.num 1 0) (.rd (.var .T))) (.sub (.add (.mul (.sub (.rd (.arr .fwd 242)) (.rd (.arr .rev 241))) (.div (.num 32709271715845571 12) (.rd (.var .T)))) (.mul (.rd (.arr .fwd 242)) (.neg (.num 1 0)))) (.mul (.rd (.arr .rev 241)) (.add (.neg (.num 1 0)) (.mul (.neg (.rd (.var .T))) (.sub (.sub (.add (.rd (.arr .dBdT 31)) (.rd (.arr .dBdT 40))) (.rd (.arr .dBdT 11))) (.rd (.arr .dBdT 52)))))))) (.rd (.var .rhoInv))),
  .set (.arr .jac 41) (.add (.rd (.arr .jac 41)) (.mul (.rd (.var .jTemp)) (.num 27025680000000001 15))),
  .set (.arr .jac 12) (.add (.rd (.arr .jac 12)) (.mul (.neg (.rd (.var .jTemp))) (.num 14026879999999998 15))),
  .set (.arr .jac 32) (.add (.rd (.arr .jac 32)) (.mul (.rd (.var .jTemp)) (.num 1501468 5)))]

/-- utilities/mechanisms/gri30/lib/src/jacobs/jacob_6.c:431 -/
def jacobN242 : List CStmt := [
  .set (.var .jN) (.mul (.neg (.rd (.var .jTemp))) (.num 28013480000000001 15))]

/-- utilities/mechanisms/gri30/lib/src/jacobs/jacob_6.c:654-660 -/
def jacobT243 : List CStmt := [
  .set (.var .jTemp) (.mul (.mul (.div (.num 1 0) (.rd (.var .T))) (.sub (.mul (.rd (.arr .fwd 243)) (.neg (.num 1 0))) (.mul (.rd (.arr .rev 242)) (.add (.neg (.num 1 0)) (.mul (.neg (.rd (.var .T))) (.sub (.sub (.add (.rd (.arr .dBdT 39)) (.rd (.arr .dBdT 2))) (.rd (.arr .dBdT 8))) (.rd (.arr .dBdT 35)))))))) (.rd (.var .rhoInv))),
  .set (.arr .jac 9) (.add (.rd (.arr .jac 9)) (.mul (.neg (.rd (.var .jTemp))) (.num 12010999999999999 15))),
  .set (.arr .jac 3) (.add (.rd (.arr .jac 3)) (.mul (.rd (.var .jTemp)) (.num 159994 4))),
  .set (.arr .jac 36) (.add (.rd (.arr .jac 36)) (.mul (.neg (.rd (.var .jTemp))) (.num 30006140000000002 15))),
  .set (.arr .jac 40) (.add (.rd (.arr .jac 40)) (.mul (.rd (.var .jTemp)) (.num 2601774 5)))]

/-- utilities/mechanisms/gri30/lib/src/jacobs/jacob_6.c:881-887 -/
def jacobT244 : List CStmt := [
  .set (.var .jTemp) (.mul (.mul (.div (.num 1 0) (.rd (.var .T))) (.sub (.mul (.rd (.arr .fwd 244)) (.neg (.num 1 0))) (.mul (.rd (.arr .rev 243)) (.add (.neg (.num 1 0)) (.mul (.neg (.rd (.var .T))) (.sub (.sub (.add (.rd (.arr .dBdT 14)) (.rd (.arr .dBdT 30))) (.rd (.arr .dBdT 8))) (.rd (.arr .dBdT 35)))))))) (.rd (.var .rhoInv))),
  .set (.arr .jac 9) (.add (.rd (.arr .jac 9)) (.mul (.neg (.rd (.var .jTemp))) (.num 12010999999999999 15))),
  .set (.arr .jac 36) (.add (.rd (.arr .jac 36)) (.mul (.neg (.rd (.var .jTemp))) (.num 30006140000000002 15))),
  .set (.arr .jac 31) (.add (.rd (.arr .jac 31)) (.mul (.rd (.var .jTemp)) (.num 14006740000000001 15))),
  .set (.arr .jac 15) (.add (.rd (.arr .jac 15)) (.mul (.rd (.var .jTemp)) (.num 28010399999999997 15)))]

/-- utilities/mechanisms/gri30/lib/src/jacobs/jacob_6.c:1108-1114 -/
def jacobT245 : List CStmt := [
  .set (.var .jTemp) (.mul (.mul (.div (.num 1 0) (.rd (.var .T))) (.sub (.mul (.rd (.arr .fwd 245)) (.neg (.num 1 0))) (.mul (.rd (.arr .rev 244)) (.add (.neg (.num 1 0)) (.mul (.neg (.rd (.var .T))) (.sub (.sub (.add (.rd (.arr .dBdT 40)) (.rd (.arr .dBdT 2))) (.rd (.arr .dBdT 9))) (.rd (.arr .dBdT 35)))))))) (.rd (.var .rhoInv))),
  .set (.arr .jac 41) (.add (.rd (.arr .jac 41)) (.mul (.rd (.var .jTemp)) (.num 27025680000000001 15))),
  .set (.arr .jac 10) (.add (.rd (.arr .jac 10)) (.mul (.neg (.rd (.var .jTemp))) (.num 13018939999999999 15))),
  .set (.arr .jac 3) (.add (.rd (.arr .jac 3)) (.mul (.rd (.var .jTemp)) (.num 159994 4))),
  .set (.arr .jac 36) (.add (.rd (.arr .jac 36)) (.mul (.neg (.rd (.var .jTemp))) (.num 30006140000000002 15)))]

/-- utilities/mechanisms/gri30/lib/src/jacobs/jacob_6.c:1335-1341 -/
def jacobT246 : List CStmt := [
  .set (.var .jTemp) (.mul (.mul (.div (.num 1 0) (.rd (.var .T))) (.sub (.mul (.rd (.arr .fwd 246)) (.neg (.num 1 0))) (.mul (.rd (.arr .rev 245)) (.add (.neg (.num 1 0)) (.mul (.neg (.rd (.var .T))) (.sub (.sub (.add (.rd (.arr .dBdT 1)) (.rd (.arr .dBdT 46))) (.rd (.arr .dBdT 9))) (.rd (.arr .dBdT 35)))))))) (.rd (.var .rhoInv))),
  .set (.arr .jac 10) (.add (.rd (.arr .jac 10)) (.mul (.neg (.rd (.var .jTemp))) (.num 13018939999999999 15))),
  .set (.arr .jac 36) (.add (.rd (.arr .jac 36)) (.mul (.neg (.rd (.var .jTemp))) (.num 30006140000000002 15))),
  .set (.arr .jac 47) (.add (.rd (.arr .jac 47)) (.mul (.rd (.var .jTemp)) (.num 42017139999999998 15))),
  .set (.arr .jac 2) (.add (.rd (.arr .jac 2)) (.mul (.rd (.var .jTemp)) (.num 10079400000000001 16)))]

/-- utilities/mechanisms/gri30/lib/src/jacobs/jacob_6.c:1562-1568 -/
def jacobT247 : List CStmt := [
  .set (.var .jTemp) (.mul (.mul (.div (.num 1 0) (.rd (.var .T))) (.sub (.mul (.rd (.arr .fwd 247)) (.neg (.num 1 0))) (.mul (.rd (.arr .rev 246)) (.add (.neg (.num 1 0)) (.mul (.neg (.rd (.var .T))) (.sub (.sub (.add (.rd (.arr .dBdT 16)) (.rd (.arr .dBdT 30))) (.rd (.arr .dBdT 9))) (.rd (.arr .dBdT 35)))))))) (.rd (.var .rhoInv))),
  .set (.arr .jac 17) (.add (.rd (.arr .jac 17)) (.mul (.rd (.var .jTemp)) (.num 29018339999999998 15))),
  .set (.arr .jac 10) (.add (.rd (.arr .jac 10)) (.mul (.neg (.rd (.var .jTemp))) (.num 13018939999999999 15))),
  .set (.arr .jac 36) (.add (.rd (.arr .jac 36)) (.mul (.neg (.rd (.var .jTemp))) (.num 30006140000000002 15))),
  .set (.arr .jac 31) (.add (.rd (.arr .jac 31)) (.mul (.rd (.var .jTemp)) (.num 14006740000000001 15)))]

/-- utilities/mechanisms/gri30/lib/src/jacobs/jacob_6.c:1789-1795 -/
def jacobT248 : List CStmt := [
  .set (.var .jTemp) (.mul (.mul (.div (.num 1 0) (.rd (.var .T))) (.sub (.add (.mul (.sub (.rd (.arr .fwd 248)) (.rd (.arr .rev 247))) (.add (.neg (.num 13799999999999999 16)) (.div (.num 63908884737113658 14) (.rd (.var .T))))) (.mul (.rd (.arr .fwd 248)) (.neg (.num 1 0)))) (.mul (.rd (.arr .rev 247)) (.add (.neg (.num 1 0)) (.mul (.neg (.rd (.var .T))) (.sub (.sub (.add (.rd (.arr .dBdT 45)) (.rd (.arr .dBdT 1))) (.rd (.arr .dBdT 10))) (.rd (.arr .dBdT 35)))))))) (.rd (.var .rhoInv))),
  .set (.arr .jac 2) (.add (.rd (.arr .jac 2)) (.mul (.rd (.var .jTemp)) (.num 10079400000000001 16))),
  .set (.arr .jac 11) (.add (.rd (.arr .jac 11)) (.mul (.neg (.rd (.var .jTemp))) (.num 14026879999999998 15))),
  .set (.arr .jac 36) (.add (.rd (.arr .jac 36)) (.mul (.neg (.rd (.var .jTemp))) (.num 30006140000000002 15))),
  .set (.arr .jac 46) (.add (.rd (.arr .jac 46)) (.mul (.rd (.var .jTemp)) (.num 43025080000000003 15)))]

/-- utilities/mechanisms/gri30/lib/src/jacobs/jacob_6.c:2022-2028 -/
def jacobT249 : List CStmt := [
  .set (.var .jTemp) (.mul (.mul (.div (.num 1 0) (.rd (.var .T))) (.sub (.add (.mul (.sub (.rd (.arr .fwd 249)) (.rd (.arr .rev 248))) (.add (.neg (.num 68999999999999995 17)) (.div (.num 38244686929296358 14) (.rd (.var .T))))) (.mul (.rd (.arr .fwd 249)) (.neg (.num 1 0)))) (.mul (.rd (.arr .rev 248)) (.add (.neg (.num 1 0)) (.mul (.neg (.rd (.var .T))) (.sub (.sub (.add (.rd (.arr .dBdT 40)) (.rd (.arr .dBdT 4))) (.rd (.arr .dBdT 10))) (.rd (.arr .dBdT 35)))))))) (.rd (.var .rhoInv))),
  .set (.arr .jac 41) (.add (.rd (.arr .jac 41)) (.mul (.rd (.var .jTemp)) (.num 27025680000000001 15))),
  .set (.arr .jac 11) (.add (.rd (.arr .jac 11)) (.mul (.neg (.rd (.var .jTemp))) (.num 14026879999999998 15))),
  .set (.arr .jac 36) (.add (.rd (.arr .jac 36)) (.mul (.neg (.rd (.var .jTemp))) (.num 30006140000000002 15))),
  .set (.arr .jac 5) (.add (.rd (.arr .jac 5)) (.mul (.rd (.var .jTemp)) (.num 17007339999999999 15)))]

/-- utilities/mechanisms/gri30/lib/src/jacobs/jacob_6.c:2249-2255 -/
def jacobT250 : List CStmt := [
  .set (.var .jTemp) (.mul (.mul (.div (.num 1 0) (.rd (.var .T))) (.sub (.add (.mul (.sub (.rd (.arr .fwd 250)) (.rd (.arr .rev 249))) (.add (.neg (.num 35999999999999999 17)) (.div (.num 29186734761831434 14) (.rd (.var .T))))) (.mul (.rd (.arr .fwd 250)) (.neg (.num 1 0)))) (.mul (.rd (.arr .rev 249)) (.add (.neg (.num 1 0)) (.mul (.neg (.rd (.var .T))) (.sub (.sub (.add (.rd (.arr .dBdT 1)) (.rd (.arr .dBdT 43))) (.rd (.arr .dBdT 10))) (.rd (.arr .dBdT 35)))))))) (.rd (.var .rhoInv))),
  .set (.arr .jac 2) (.add (.rd (.arr .jac 2)) (.mul (.rd (.var .jTemp)) (.num 10079400000000001 16))),
  .set (.arr .jac 11) (.add (.rd (.arr .jac 11)) (.mul (.neg (.rd (.var .jTemp))) (.num 14026879999999998 15))),
  .set (.arr .jac 36) (.add (.rd (.arr .jac 36)) (.mul (.neg (.rd (.var .jTemp))) (.num 30006140000000002 15))),
  .set (.arr .jac 44) (.mul (.rd (.var .jTemp)) (.num 43025080000000003 15))]

/-- utilities/mechanisms/gri30/lib/src/jacobs/jacob_6.c:2482-2488 -/
def jacobT251 : List CStmt := [
  .set (.var .jTemp) (.mul (.mul (.div (.num 1 0) (.rd (.var .T))) (.sub (.add (.mul (.sub (.rd (.arr .fwd 251)) (.rd (.arr .rev 250))) (.add (.neg (.num 13799999999999999 16)) (.div (.num 63908884737113658 14) (.rd (.var .T))))) (.mul (.rd (.arr .fwd 251)) (.neg (.num 1 0)))) (.mul (.rd (.arr .rev 250)) (.add (.neg (.num 1 0)) (.mul (.neg (.rd (.var .T))) (.sub (.sub (.add (.rd (.arr .dBdT 45)) (.rd (.arr .dBdT 1))) (.rd (.arr .dBdT 11))) (.rd (.arr .dBdT 35)))))))) (.rd (.var .rhoInv))),
  .set (.arr .jac 36) (.add (.rd (.arr .jac 36)) (.mul (.neg (.rd (.var .jTemp))) (.num 30006140000000002 15))),
  .set (.arr .jac 12) (.add (.rd (.arr .jac 12)) (.mul (.neg (.rd (.var .jTemp))) (.num 14026879999999998 15))),
  .set (.arr .jac 46) (.add (.rd (.arr .jac 46)) (.mul (.rd (.var .jTemp)) (.num 43025080000000003 15))),
  .set (.arr .jac 2) (.add (.rd (.arr .jac 2)) (.mul (.rd (.var .jTemp)) (.num 10079400000000001 16)))]

/-- utilities/mechanisms/gri30/lib/src/jacobs/jacob_6.c:2715-2721 -/
def jacobT252 : List CStmt := [
  .set (.var .jTemp) (.mul (.mul (.div (.num 1 0) (.rd (.var .T))) (.sub (.add (.mul (.sub (.rd (.arr .fwd 252)) (.rd (.arr .rev 251))) (.add (.neg (.num 68999999999999995 17)) (.div (.num 38244686929296358 14) (.rd (.var .T))))) (.mul (.rd (.arr .fwd 252)) (.neg (.num 1 0)))) (.mul (.rd (.arr .rev 251)) (.add (.neg (.num 1 0)) (.mul (.neg (.rd (.var .T))) (.sub (.sub (.add (.rd (.arr .dBdT 40)) (.rd (.arr .dBdT 4))) (.rd (.arr .dBdT 11))) (.rd (.arr .dBdT 35)))))))) (.rd (.var .rhoInv))),
  .set (.arr .jac 41) (.add (.rd (.arr .jac 41)) (.mul (.rd (.var .jTemp)) (.num 27025680000000001 15))),
  .set (.arr .jac 36) (.add (.rd (.arr .jac 36)) (.mul (.neg (.rd (.var .jTemp))) (.num 30006140000000002 15))),
  .set (.arr .jac 12) (.add (.rd (.arr .jac 12)) (.mul (.neg (.rd (.var .jTemp))) (.num 14026879999999998 15))),
  .set (.arr .jac 5) (.add (.rd (.arr .jac 5)) (.mul (.rd (.var .jTemp)) (.num 17007339999999999 15)))]

/-- utilities/mechanisms/gri30/lib/src/jacobs/jacob_6.c:2942-2948 -/
def jacobT253 : List CStmt := [
  .set (.var .jTemp) (.mul (.mul (.div (.num 1 0) (.rd (.var .T))) (.sub (.add (.mul (.sub (.rd (.arr .fwd 253)) (.rd (.arr .rev 252))) (.add (.neg (.num 35999999999999999 17)) (.div (.num 29186734761831434 14) (.rd (.var .T))))) (.mul (.rd (.arr .fwd 253)) (.neg (.num 1 0)))) (.mul (.rd (.arr .rev 252)) (.add (.neg (.num 1 0)) (.mul (.neg (.rd (.var .T))) (.sub (.sub (.add (.rd (.arr .dBdT 1)) (.rd (.arr .dBdT 43))) (.rd (.arr .dBdT 11))) (.rd (.arr .dBdT 35)))))))) (.rd (.var .rhoInv))),
  .set (.arr .jac 36) (.add (.rd (.arr .jac 36)) (.mul (.neg (.rd (.var .jTemp))) (.num 30006140000000002 15))),
  .set (.arr .jac 12) (.add (.rd (.arr .jac 12)) (.mul (.neg (.rd (.var .jTemp))) (.num 14026879999999998 15))),
  .set (.arr .jac 44) (.add (.rd (.arr .jac 44)) (.mul (.rd (.var .jTemp)) (.num 43025080000000003 15))),
  .set (.arr .jac 2) (.add (.rd (.arr .jac 2)) (.mul (.rd (.var .jTemp)) (.num 10079400000000001 16)))]

/-- utilities/mechanisms/gri30/lib/src/jacobs/jacob_6.c:3175-3181 -/
def jacobT254 : List CStmt := [
  .set (.var .jTemp) (.mul (.mul (.div (.num 1 0) (.rd (.var .T))) (.sub (.add (.mul (.sub (.rd (.arr .fwd 254)) (.rd (.arr .rev 253))) (.div (.num 14492723467943884 12) (.rd (.var .T)))) (.mul (.rd (.arr .fwd 254)) (.neg (.num 1 0)))) (.mul (.rd (.arr .rev 253)) (.add (.neg (.num 1 0)) (.mul (.neg (.rd (.var .T))) (.sub (.sub (.add (.rd (.arr .dBdT 5)) (.rd (.arr .dBdT 40))) (.rd (.arr .dBdT 12))) (.rd (.arr .dBdT 35)))))))) (.rd (.var .rhoInv))),
  .set (.arr .jac 41) (.add (.rd (.arr .jac 41)) (.mul (.rd (.var .jTemp)) (.num 27025680000000001 15))),
  .set (.arr .jac 36) (.add (.rd (.arr .jac 36)) (.mul (.neg (.rd (.var .jTemp))) (.num 30006140000000002 15))),
  .set (.arr .jac 13) (.add (.rd (.arr .jac 13)) (.mul (.neg (.rd (.var .jTemp))) (.num 1503482 5))),
  .set (.arr .jac 6) (.add (.rd (.arr .jac 6)) (.mul (.rd (.var .jTemp)) (.num 18015280000000001 15)))]

/-- utilities/mechanisms/gri30/lib/src/jacobs/jacob_6.c:3402-3408 -/
def jacobT255 : List CStmt := [
  .set (.var .jTemp) (.mul (.mul (.div (.num 1 0) (.rd (.var .T))) (.sub (.add (.mul (.sub (.rd (.arr .fwd 255)) (.rd (.arr .rev 254))) (.div (.num 10945025535686787 12) (.rd (.var .T)))) (.mul (.rd (.arr .fwd 255)) (.neg (.num 1 0)))) (.mul (.rd (.arr .rev 254)) (.add (.neg (.num 1 0)) (.mul (.neg (.rd (.var .T))) (.sub (.sub (.add (.rd (.arr .dBdT 41)) (.rd (.arr .dBdT 4))) (.rd (.arr .dBdT 12))) (.rd (.arr .dBdT 35)))))))) (.rd (.var .rhoInv))),
  .set (.arr .jac 42) (.add (.rd (.arr .jac 42)) (.mul (.rd (.var .jTemp)) (.num 28033619999999999 15))),
  .set (.arr .jac 36) (.add (.rd (.arr .jac 36)) (.mul (.neg (.rd (.var .jTemp))) (.num 30006140000000002 15))),
  .set (.arr .jac 13) (.add (.rd (.arr .jac 13)) (.mul (.neg (.rd (.var .jTemp))) (.num 1503482 5))),
  .set (.arr .jac 5) (.add (.rd (.arr .jac 5)) (.mul (.rd (.var .jTemp)) (.num 17007339999999999 15)))]

/-- utilities/mechanisms/gri30/lib/src/jacobs/jacob_6.c:3629-3636 without the assignment to `*J_nplusone` -/
def jacobT256 : List CStmt := [
  .set (.var .jTemp) (.mul (.mul (.div (.num 1 0) (.rd (.var .T))) (.sub (.mul (.rd (.arr .fwd 256)) (.neg (.num 1 0))) (.mul (.rd (.arr .rev 255)) (.add (.neg (.num 2 0)) (.mul (.neg (.rd (.var .T))) (.sub (.sub (.add (.add (.rd (.arr .dBdT 1)) (.rd (.arr .dBdT 52))) (.rd (.arr .dBdT 14))) (.rd (.arr .dBdT 2))) (.rd (.arr .dBdT 42)))))))) (.rd (.var .rhoInv))),
  .set (.arr .jac 2) (.add (.rd (.arr .jac 2)) (.mul (.rd (.var .jTemp)) (.num 10079400000000001 16))),
  .set (.arr .jac 3) (.add (.rd (.arr .jac 3)) (.mul (.neg (.rd (.var .jTemp))) (.num 159994 4))),
  .set (.arr .jac 43) (.add (.rd (.arr .jac 43)) (.mul (.neg (.rd (.var .jTemp))) (.num 41032420000000002 15))),
  .set (.arr .jac 15) (.add (.rd (.arr .jac 15)) (.mul (.rd (.var .jTemp)) (.num 28010399999999997 15)))]

/-- utilities/mechanisms/gri30/lib/src/jacobs/jacob_6.c:3633 -/
def jacobN256 : List CStmt := [
  .set (.var .jN) (.mul (.rd (.var .jTemp)) (.num 28013480000000001 15))]

/-- utilities/mechanisms/gri30/lib/src/jacobs/jacob_6.c:3909-3915 -/
def jacobT257 : List CStmt := [
  .set (.var .jTemp) (.mul (.mul (.div (.num 1 0) (.rd (.var .T))) (.sub (.mul (.rd (.arr .fwd 257)) (.neg (.num 1 0))) (.mul (.rd (.arr .rev 256)) (.add (.neg (.num 1 0)) (.mul (.neg (.rd (.var .T))) (.sub (.sub (.add (.rd (.arr .dBdT 40)) (.rd (.arr .dBdT 35))) (.rd (.arr .dBdT 2))) (.rd (.arr .dBdT 42)))))))) (.rd (.var .rhoInv))),
  .set (.arr .jac 41) (.add (.rd (.arr .jac 41)) (.mul (.rd (.var .jTemp)) (.num 27025680000000001 15))),
  .set (.arr .jac 3) (.add (.rd (.arr .jac 3)) (.mul (.neg (.rd (.var .jTemp))) (.num 159994 4))),
  .set (.arr .jac 36) (.add (.rd (.arr .jac 36)) (.mul (.rd (.var .jTemp)) (.num 30006140000000002 15))),
  .set (.arr .jac 43) (.add (.rd (.arr .jac 43)) (.mul (.neg (.rd (.var .jTemp))) (.num 41032420000000002 15)))]

/-- utilities/mechanisms/gri30/lib/src/jacobs/jacob_6.c:4136-4143 without the assignment to `*J_nplusone` -/
def jacobT258 : List CStmt := [
  .set (.var .jTemp) (.mul (.mul (.div (.num 1 0) (.rd (.var .T))) (.sub (.mul (.rd (.arr .fwd 258)) (.neg (.num 1 0))) (.mul (.rd (.arr .rev 257)) (.add (.neg (.num 2 0)) (.mul (.neg (.rd (.var .T))) (.sub (.sub (.add (.add (.rd (.arr .dBdT 52)) (.rd (.arr .dBdT 16))) (.rd (.arr .dBdT 2))) (.rd (.arr .dBdT 3))) (.rd (.arr .dBdT 42)))))))) (.rd (.var .rhoInv))),
  .set (.arr .jac 17) (.add (.rd (.arr .jac 17)) (.mul (.rd (.var .jTemp)) (.num 29018339999999998 15))),
  .set (.arr .jac 43) (.add (.rd (.arr .jac 43)) (.mul (.neg (.rd (.var .jTemp))) (.num 41032420000000002 15))),
  .set (.arr .jac 4) (.add (.rd (.arr .jac 4)) (.mul (.neg (.rd (.var .jTemp))) (.num 31998799999999999 15))),
  .set (.arr .jac 3) (.add (.rd (.arr .jac 3)) (.mul (.rd (.var .jTemp)) (.num 159994 4)))]

/-- utilities/mechanisms/gri30/lib/src/jacobs/jacob_6.c:4141 -/
def jacobN258 : List CStmt := [
  .set (.var .jN) (.mul (.rd (.var .jTemp)) (.num 28013480000000001 15))]

/-- utilities/mechanisms/gri30/lib/src/jacobs/jacob_6.c:4416-4423 without the assignment to `*J_nplusone` -/
def jacobT259 : List CStmt := [
  .set (.var .jTemp) (.mul (.mul (.div (.num 1 0) (.rd (.var .T))) (.sub (.mul (.rd (.arr .fwd 259)) (.neg (.num 1 0))) (.mul (.rd (.arr .rev 258)) (.add (.neg (.num 2 0)) (.mul (.neg (.rd (.var .T))) (.sub (.sub (.add (.add (.rd (.arr .dBdT 1)) (.rd (.arr .dBdT 52))) (.rd (.arr .dBdT 16))) (.rd (.arr .dBdT 42))) (.rd (.arr .dBdT 4)))))))) (.rd (.var .rhoInv))),
  .set (.arr .jac 17) (.add (.rd (.arr .jac 17)) (.mul (.rd (.var .jTemp)) (.num 29018339999999998 15))),
  .set (.arr .jac 2) (.add (.rd (.arr .jac 2)) (.mul (.rd (.var .jTemp)) (.num 10079400000000001 16))),
  .set (.arr .jac 43) (.add (.rd (.arr .jac 43)) (.mul (.neg (.rd (.var .jTemp))) (.num 41032420000000002 15))),
  .set (.arr .jac 5) (.add (.rd (.arr .jac 5)) (.mul (.neg (.rd (.var .jTemp))) (.num 17007339999999999 15)))]

/-- utilities/mechanisms/gri30/lib/src/jacobs/jacob_6.c:4422 -/
def jacobN259 : List CStmt := [
  .set (.var .jN) (.mul (.rd (.var .jTemp)) (.num 28013480000000001 15))]

/-- utilities/mechanisms/gri30/lib/src/jacobs/jacob_6.c:4696-4702 without the assignment to `*J_nplusone` -/
def jacobT260 : List CStmt := [
  .set (.var .jTemp) (.mul (.mul (.div (.num 1 0) (.rd (.var .T))) (.sub (.mul (.rd (.arr .fwd 260)) (.neg (.num 1 0))) (.mul (.rd (.arr .rev 259)) (.add (.neg (.num 1 0)) (.mul (.neg (.rd (.var .T))) (.sub (.sub (.add (.rd (.arr .dBdT 10)) (.rd (.arr .dBdT 52))) (.rd (.arr .dBdT 1))) (.rd (.arr .dBdT 42)))))))) (.rd (.var .rhoInv))),
  .set (.arr .jac 2) (.add (.rd (.arr .jac 2)) (.mul (.neg (.rd (.var .jTemp))) (.num 10079400000000001 16))),
  .set (.arr .jac 43) (.add (.rd (.arr .jac 43)) (.mul (.neg (.rd (.var .jTemp))) (.num 41032420000000002 15))),
  .set (.arr .jac 11) (.add (.rd (.arr .jac 11)) (.mul (.rd (.var .jTemp)) (.num 14026879999999998 15)))]

/-- utilities/mechanisms/gri30/lib/src/jacobs/jacob_6.c:4700 -/
def jacobN260 : List CStmt := [
  .set (.var .jN) (.mul (.rd (.var .jTemp)) (.num 28013480000000001 15))]

/-- utilities/mechanisms/gri30/lib/src/jacobs/jacob_6.c:4923-4929 -/
def jacobT261 : List CStmt := [
  .set (.var .jTemp) (.mul (.mul (.div (.num 1 0) (.rd (.var .T))) (.sub (.add (.mul (.sub (.rd (.arr .fwd 261)) (.rd (.arr .rev 260))) (.add (.num 14099999999999999 16) (.div (.num 42773663013028827 13) (.rd (.var .T))))) (.mul (.rd (.arr .fwd 261)) (.neg (.num 1 0)))) (.mul (.rd (.arr .rev 260)) (.add (.neg (.num 1 0)) (.mul (.neg (.rd (.var .T))) (.sub (.sub (.add (.rd (.arr .dBdT 31)) (.rd (.arr .dBdT 15))) (.rd (.arr .dBdT 45))) (.rd (.arr .dBdT 2)))))))) (.rd (.var .rhoInv))),
  .set (.arr .jac 3) (.add (.rd (.arr .jac 3)) (.mul (.neg (.rd (.var .jTemp))) (.num 159994 4))),
  .set (.arr .jac 16) (.add (.rd (.arr .jac 16)) (.mul (.rd (.var .jTemp)) (.num 44009799999999998 15))),
  .set (.arr .jac 46) (.add (.rd (.arr .jac 46)) (.mul (.neg (.rd (.var .jTemp))) (.num 43025080000000003 15))),
  .set (.arr .jac 32) (.add (.rd (.arr .jac 32)) (.mul (.rd (.var .jTemp)) (.num 1501468 5)))]

/-- utilities/mechanisms/gri30/lib/src/jacobs/jacob_6.c:5156-5162 -/
def jacobT262 : List CStmt := [
  .set (.var .jTemp) (.mul (.mul (.div (.num 1 0) (.rd (.var .T))) (.sub (.add (.mul (.sub (.rd (.arr .fwd 262)) (.rd (.arr .rev 261))) (.add (.num 15700000000000001 16) (.div (.num 22141660853803154 12) (.rd (.var .T))))) (.mul (.rd (.arr .fwd 262)) (.neg (.num 1 0)))) (.mul (.rd (.arr .rev 261)) (.add (.neg (.num 1 0)) (.mul (.neg (.rd (.var .T))) (.sub (.sub (.add (.rd (.arr .dBdT 14)) (.rd (.arr .dBdT 38))) (.rd (.arr .dBdT 45))) (.rd (.arr .dBdT 2)))))))) (.rd (.var .rhoInv))),
  .set (.arr .jac 3) (.add (.rd (.arr .jac 3)) (.mul (.neg (.rd (.var .jTemp))) (.num 159994 4))),
  .set (.arr .jac 39) (.add (.rd (.arr .jac 39)) (.mul (.rd (.var .jTemp)) (.num 3101408 5))),
  .set (.arr .jac 46) (.add (.rd (.arr .jac 46)) (.mul (.neg (.rd (.var .jTemp))) (.num 43025080000000003 15))),
  .set (.arr .jac 15) (.add (.rd (.arr .jac 15)) (.mul (.rd (.var .jTemp)) (.num 28010399999999997 15)))]

/-- utilities/mechanisms/gri30/lib/src/jacobs/jacob_6.c:5389-5395 -/
def jacobT263 : List CStmt := [
  .set (.var .jTemp) (.mul (.mul (.div (.num 1 0) (.rd (.var .T))) (.sub (.add (.mul (.sub (.rd (.arr .fwd 263)) (.rd (.arr .rev 262))) (.add (.num 21099999999999999 16) (.div (.num 57367030393944542 13) (.rd (.var .T))))) (.mul (.rd (.arr .fwd 263)) (.neg (.num 1 0)))) (.mul (.rd (.arr .rev 262)) (.add (.neg (.num 1 0)) (.mul (.neg (.rd (.var .T))) (.sub (.sub (.add (.rd (.arr .dBdT 46)) (.rd (.arr .dBdT 4))) (.rd (.arr .dBdT 45))) (.rd (.arr .dBdT 2)))))))) (.rd (.var .rhoInv))),
  .set (.arr .jac 3) (.add (.rd (.arr .jac 3)) (.mul (.neg (.rd (.var .jTemp))) (.num 159994 4))),
  .set (.arr .jac 5) (.add (.rd (.arr .jac 5)) (.mul (.rd (.var .jTemp)) (.num 17007339999999999 15))),
  .set (.arr .jac 46) (.add (.rd (.arr .jac 46)) (.mul (.neg (.rd (.var .jTemp))) (.num 43025080000000003 15))),
  .set (.arr .jac 47) (.add (.rd (.arr .jac 47)) (.mul (.rd (.var .jTemp)) (.num 42017139999999998 15)))]

/-- utilities/mechanisms/gri30/lib/src/jacobs/jacob_6.c:5622-5628 -/
def jacobT264 : List CStmt := [
  .set (.var .jTemp) (.mul (.mul (.div (.num 1 0) (.rd (.var .T))) (.sub (.add (.mul (.sub (.rd (.arr .fwd 264)) (.rd (.arr .rev 263))) (.add (.num 17 1) (.div (.num 19122343464648179 13) (.rd (.var .T))))) (.mul (.rd (.arr .fwd 264)) (.neg (.num 1 0)))) (.mul (.rd (.arr .rev 263)) (.add (.neg (.num 1 0)) (.mul (.neg (.rd (.var .T))) (.sub (.sub (.add (.rd (.arr .dBdT 14)) (.rd (.arr .dBdT 32))) (.rd (.arr .dBdT 45))) (.rd (.arr .dBdT 1)))))))) (.rd (.var .rhoInv))),
  .set (.arr .jac 33) (.add (.rd (.arr .jac 33)) (.mul (.rd (.var .jTemp)) (.num 1602262 5))),
  .set (.arr .jac 2) (.add (.rd (.arr .jac 2)) (.mul (.neg (.rd (.var .jTemp))) (.num 10079400000000001 16))),
  .set (.arr .jac 46) (.add (.rd (.arr .jac 46)) (.mul (.neg (.rd (.var .jTemp))) (.num 43025080000000003 15))),
  .set (.arr .jac 15) (.add (.rd (.arr .jac 15)) (.mul (.rd (.var .jTemp)) (.num 28010399999999997 15)))]

/-- utilities/mechanisms/gri30/lib/src/jacobs/jacob_6.c:5855-5861 -/
def jacobT265 : List CStmt := [
  .set (.var .jTemp) (.mul (.mul (.div (.num 1 0) (.rd (.var .T))) (.sub (.add (.mul (.sub (.rd (.arr .fwd 265)) (.rd (.arr .rev 264))) (.add (.num 25 1) (.div (.num 66928202126268634 13) (.rd (.var .T))))) (.mul (.rd (.arr .fwd 265)) (.neg (.num 1 0)))) (.mul (.rd (.arr .rev 264)) (.add (.neg (.num 1 0)) (.mul (.neg (.rd (.var .T))) (.sub (.sub (.add (.rd (.arr .dBdT 0)) (.rd (.arr .dBdT 46))) (.rd (.arr .dBdT 45))) (.rd (.arr .dBdT 1)))))))) (.rd (.var .rhoInv))),
  .set (.arr .jac 1) (.add (.rd (.arr .jac 1)) (.mul (.rd (.var .jTemp)) (.num 20158800000000001 16))),
  .set (.arr .jac 2) (.add (.rd (.arr .jac 2)) (.mul (.neg (.rd (.var .jTemp))) (.num 10079400000000001 16))),
  .set (.arr .jac 46) (.add (.rd (.arr .jac 46)) (.mul (.neg (.rd (.var .jTemp))) (.num 43025080000000003 15))),
  .set (.arr .jac 47) (.add (.rd (.arr .jac 47)) (.mul (.rd (.var .jTemp)) (.num 42017139999999998 15)))]

/-- utilities/mechanisms/gri30/lib/src/jacobs/jacob_6.c:6088-6094 -/
def jacobT266 : List CStmt := [
  .set (.var .jTemp) (.mul (.mul (.div (.num 1 0) (.rd (.var .T))) (.sub (.add (.mul (.sub (.rd (.arr .fwd 266)) (.rd (.arr .rev 265))) (.add (.num 15 1) (.div (.num 18115904334929855 13) (.rd (.var .T))))) (.mul (.rd (.arr .fwd 266)) (.neg (.num 1 0)))) (.mul (.rd (.arr .rev 265)) (.add (.neg (.num 1 0)) (.mul (.neg (.rd (.var .T))) (.sub (.sub (.add (.rd (.arr .dBdT 5)) (.rd (.arr .dBdT 46))) (.rd (.arr .dBdT 45))) (.rd (.arr .dBdT 4)))))))) (.rd (.var .rhoInv))),
  .set (.arr .jac 5) (.add (.rd (.arr .jac 5)) (.mul (.neg (.rd (.var .jTemp))) (.num 17007339999999999 15))),
  .set (.arr .jac 46) (.add (.rd (.arr .jac 46)) (.mul (.neg (.rd (.var .jTemp))) (.num 43025080000000003 15))),
  .set (.arr .jac 47) (.add (.rd (.arr .jac 47)) (.mul (.rd (.var .jTemp)) (.num 42017139999999998 15))),
  .set (.arr .jac 6) (.add (.rd (.arr .jac 6)) (.mul (.rd (.var .jTemp)) (.num 18015280000000001 15)))]

/-- utilities/mechanisms/gri30/lib/src/jacobs/jacob_6.c:6321-6327 -/
def jacobT267 : List CStmt := [
  .set (.var .jTemp) (.mul (.mul (.div (.num 1 0) (.rd (.var .T))) (.sub (.add (.mul (.sub (.rd (.arr .fwd 267)) (.rd (.arr .rev 266))) (.add (.num 15 1) (.div (.num 18115904334929855 13) (.rd (.var .T))))) (.mul (.rd (.arr .fwd 267)) (.neg (.num 1 0)))) (.mul (.rd (.arr .rev 266)) (.add (.neg (.num 1 0)) (.mul (.neg (.rd (.var .T))) (.sub (.sub (.add (.rd (.arr .dBdT 15)) (.rd (.arr .dBdT 32))) (.rd (.arr .dBdT 45))) (.rd (.arr .dBdT 4)))))))) (.rd (.var .rhoInv))),
  .set (.arr .jac 33) (.add (.rd (.arr .jac 33)) (.mul (.rd (.var .jTemp)) (.num 1602262 5))),
  .set (.arr .jac 5) (.add (.rd (.arr .jac 5)) (.mul (.neg (.rd (.var .jTemp))) (.num 17007339999999999 15))),
  .set (.arr .jac 46) (.add (.rd (.arr .jac 46)) (.mul (.neg (.rd (.var .jTemp))) (.num 43025080000000003 15))),
  .set (.arr .jac 16) (.add (.rd (.arr .jac 16)) (.mul (.rd (.var .jTemp)) (.num 44009799999999998 15)))]

/-- utilities/mechanisms/gri30/lib/src/jacobs/jacob_6.c:6554-6559 -/
def jacobT268 : List CStmt := [
  .set (.var .jTemp) (.mul (.add (.div (.mul (.neg (.rd (.arr .presMod 35))) (.sub (.rd (.arr .fwd 268)) (.rd (.arr .rev 267)))) (.rd (.var .T))) (.mul (.div (.rd (.arr .presMod 35)) (.rd (.var .T))) (.sub (.mul (.sub (.rd (.arr .fwd 268)) (.rd (.arr .rev 267))) (.div (.num 42632761534868259 12) (.rd (.var .T)))) (.mul (.rd (.arr .rev 267)) (.add (.neg (.num 1 0)) (.mul (.neg (.rd (.var .T))) (.sub (.add (.rd (.arr .dBdT 31)) (.rd (.arr .dBdT 14))) (.rd (.arr .dBdT 45))))))))) (.rd (.var .rhoInv))),
  .set (.arr .jac 46) (.add (.rd (.arr .jac 46)) (.mul (.neg (.rd (.var .jTemp))) (.num 43025080000000003 15))),
  .set (.arr .jac 15) (.add (.rd (.arr .jac 15)) (.mul (.rd (.var .jTemp)) (.num 28010399999999997 15))),
  .set (.arr .jac 32) (.add (.rd (.arr .jac 32)) (.mul (.rd (.var .jTemp)) (.num 1501468 5)))]

/-- utilities/mechanisms/gri30/lib/src/jacobs/jacob_6.c:6735-6739 -/
def jacobT269 : List CStmt := [
  .set (.var .jTemp) (.mul (.mul (.div (.num 1 0) (.rd (.var .T))) (.sub (.add (.mul (.sub (.rd (.arr .fwd 269)) (.rd (.arr .rev 268))) (.add (.neg (.num 68999999999999995 17)) (.div (.num 14341757598486136 13) (.rd (.var .T))))) (.mul (.rd (.arr .fwd 269)) (.neg (.num 1 0)))) (.mul (.rd (.arr .rev 268)) (.add (.neg (.num 1 0)) (.mul (.neg (.rd (.var .T))) (.sub (.rd (.arr .dBdT 45)) (.rd (.arr .dBdT 43)))))))) (.rd (.var .rhoInv))),
  .set (.arr .jac 44) (.add (.rd (.arr .jac 44)) (.mul (.neg (.rd (.var .jTemp))) (.num 43025080000000003 15))),
  .set (.arr .jac 46) (.add (.rd (.arr .jac 46)) (.mul (.rd (.var .jTemp)) (.num 43025080000000003 15)))]

/-- utilities/mechanisms/gri30/lib/src/jacobs/jacob_6.c:6862-6868 -/
def jacobT270 : List CStmt := [
  .set (.var .jTemp) (.mul (.mul (.div (.num 1 0) (.rd (.var .T))) (.sub (.add (.mul (.sub (.rd (.arr .fwd 270)) (.rd (.arr .rev 269))) (.add (.num 17999999999999999 17) (.div (.num 10668254775014248 13) (.rd (.var .T))))) (.mul (.rd (.arr .fwd 270)) (.neg (.num 1 0)))) (.mul (.rd (.arr .rev 269)) (.add (.neg (.num 1 0)) (.mul (.neg (.rd (.var .T))) (.sub (.sub (.add (.rd (.arr .dBdT 40)) (.rd (.arr .dBdT 4))) (.rd (.arr .dBdT 1))) (.rd (.arr .dBdT 43)))))))) (.rd (.var .rhoInv))),
  .set (.arr .jac 41) (.add (.rd (.arr .jac 41)) (.mul (.rd (.var .jTemp)) (.num 27025680000000001 15))),
  .set (.arr .jac 2) (.add (.rd (.arr .jac 2)) (.mul (.neg (.rd (.var .jTemp))) (.num 10079400000000001 16))),
  .set (.arr .jac 44) (.add (.rd (.arr .jac 44)) (.mul (.neg (.rd (.var .jTemp))) (.num 43025080000000003 15))),
  .set (.arr .jac 5) (.add (.rd (.arr .jac 5)) (.mul (.rd (.var .jTemp)) (.num 17007339999999999 15)))]

/-- utilities/mechanisms/gri30/lib/src/jacobs/jacob_6.c:7095-7101 -/
def jacobT271 : List CStmt := [
  .set (.var .jTemp) (.mul (.mul (.div (.num 1 0) (.rd (.var .T))) (.sub (.add (.mul (.sub (.rd (.arr .fwd 271)) (.rd (.arr .rev 270))) (.add (.neg (.num 75 2)) (.div (.num 14543045424429799 13) (.rd (.var .T))))) (.mul (.rd (.arr .fwd 271)) (.neg (.num 1 0)))) (.mul (.rd (.arr .rev 270)) (.add (.neg (.num 1 0)) (.mul (.neg (.rd (.var .T))) (.sub (.sub (.add (.rd (.arr .dBdT 14)) (.rd (.arr .dBdT 32))) (.rd (.arr .dBdT 1))) (.rd (.arr .dBdT 43)))))))) (.rd (.var .rhoInv))),
  .set (.arr .jac 33) (.add (.rd (.arr .jac 33)) (.mul (.rd (.var .jTemp)) (.num 1602262 5))),
  .set (.arr .jac 2) (.add (.rd (.arr .jac 2)) (.mul (.neg (.rd (.var .jTemp))) (.num 10079400000000001 16))),
  .set (.arr .jac 44) (.add (.rd (.arr .jac 44)) (.mul (.neg (.rd (.var .jTemp))) (.num 43025080000000003 15))),
  .set (.arr .jac 15) (.add (.rd (.arr .jac 15)) (.mul (.rd (.var .jTemp)) (.num 28010399999999997 15)))]

/-- utilities/mechanisms/gri30/lib/src/jacobs/jacob_6.c:7328-7332 -/
def jacobT272 : List CStmt := [
  .set (.var .jTemp) (.mul (.mul (.div (.num 1 0) (.rd (.var .T))) (.sub (.add (.mul (.sub (.rd (.arr .fwd 272)) (.rd (.arr .rev 271))) (.add (.num 2 0) (.div (.num 10064391297183253 13) (.rd (.var .T))))) (.mul (.rd (.arr .fwd 272)) (.neg (.num 1 0)))) (.mul (.rd (.arr .rev 271)) (.add (.neg (.num 1 0)) (.mul (.neg (.rd (.var .T))) (.sub (.rd (.arr .dBdT 45)) (.rd (.arr .dBdT 44)))))))) (.rd (.var .rhoInv))),
  .set (.arr .jac 45) (.add (.rd (.arr .jac 45)) (.mul (.neg (.rd (.var .jTemp))) (.num 43025080000000003 15))),
  .set (.arr .jac 46) (.add (.rd (.arr .jac 46)) (.mul (.rd (.var .jTemp)) (.num 43025080000000003 15)))]

/-- utilities/mechanisms/gri30/lib/src/jacobs/jacob_6.c:7455-7461 -/
def jacobT273 : List CStmt := [
  .set (.var .jTemp) (.mul (.mul (.div (.num 1 0) (.rd (.var .T))) (.sub (.mul (.rd (.arr .fwd 273)) (.neg (.num 1 0))) (.mul (.rd (.arr .rev 272)) (.add (.neg (.num 1 0)) (.mul (.neg (.rd (.var .T))) (.sub (.sub (.add (.rd (.arr .dBdT 14)) (.rd (.arr .dBdT 43))) (.rd (.arr .dBdT 27))) (.rd (.arr .dBdT 35)))))))) (.rd (.var .rhoInv))),
  .set (.arr .jac 36) (.add (.rd (.arr .jac 36)) (.mul (.neg (.rd (.var .jTemp))) (.num 30006140000000002 15))),
  .set (.arr .jac 28) (.add (.rd (.arr .jac 28)) (.mul (.neg (.rd (.var .jTemp))) (.num 41029339999999998 15))),
  .set (.arr .jac 15) (.add (.rd (.arr .jac 15)) (.mul (.rd (.var .jTemp)) (.num 28010399999999997 15))),
  .set (.arr .jac 44) (.add (.rd (.arr .jac 44)) (.mul (.rd (.var .jTemp)) (.num 43025080000000003 15)))]

/-- utilities/mechanisms/gri30/lib/src/jacobs/jacob_6.c:7688-7694 -/
def jacobT274 : List CStmt := [
  .set (.var .jTemp) (.mul (.mul (.div (.num 1 0) (.rd (.var .T))) (.sub (.add (.mul (.sub (.rd (.arr .fwd 274)) (.rd (.arr .rev 273))) (.add (.neg (.num 31 2)) (.div (.num 14593367380915717 14) (.rd (.var .T))))) (.mul (.rd (.arr .fwd 274)) (.neg (.num 1 0)))) (.mul (.rd (.arr .rev 273)) (.add (.neg (.num 1 0)) (.mul (.neg (.rd (.var .T))) (.sub (.sub (.add (.rd (.arr .dBdT 1)) (.rd (.arr .dBdT 41))) (.rd (.arr .dBdT 12))) (.rd (.arr .dBdT 30)))))))) (.rd (.var .rhoInv))),
  .set (.arr .jac 2) (.add (.rd (.arr .jac 2)) (.mul (.rd (.var .jTemp)) (.num 10079400000000001 16))),
  .set (.arr .jac 13) (.add (.rd (.arr .jac 13)) (.mul (.neg (.rd (.var .jTemp))) (.num 1503482 5))),
  .set (.arr .jac 31) (.add (.rd (.arr .jac 31)) (.mul (.neg (.rd (.var .jTemp))) (.num 14006740000000001 15))),
  .set (.arr .jac 42) (.add (.rd (.arr .jac 42)) (.mul (.rd (.var .jTemp)) (.num 28033619999999999 15)))]

/-- utilities/mechanisms/gri30/lib/src/jacobs/jacob_6.c:7915-7921 -/
def jacobT275 : List CStmt := [
  .set (.var .jTemp) (.mul (.mul (.div (.num 1 0) (.rd (.var .T))) (.sub (.add (.mul (.sub (.rd (.arr .fwd 275)) (.rd (.arr .rev 274))) (.add (.num 14999999999999999 17) (.div (.neg (.num 45289760837324636 15)) (.rd (.var .T))))) (.mul (.rd (.arr .fwd 275)) (.neg (.num 1 0)))) (.mul (.rd (.arr .rev 274)) (.add (.neg (.num 1 0)) (.mul (.neg (.rd (.var .T))) (.sub (.sub (.add (.rd (.arr .dBdT 0)) (.rd (.arr .dBdT 40))) (.rd (.arr .dBdT 12))) (.rd (.arr .dBdT 30)))))))) (.rd (.var .rhoInv))),
  .set (.arr .jac 1) (.add (.rd (.arr .jac 1)) (.mul (.rd (.var .jTemp)) (.num 20158800000000001 16))),
  .set (.arr .jac 41) (.add (.rd (.arr .jac 41)) (.mul (.rd (.var .jTemp)) (.num 27025680000000001 15))),
  .set (.arr .jac 13) (.add (.rd (.arr .jac 13)) (.mul (.neg (.rd (.var .jTemp))) (.num 1503482 5))),
  .set (.arr .jac 31) (.add (.rd (.arr .jac 31)) (.mul (.neg (.rd (.var .jTemp))) (.num 14006740000000001 15)))]

/-- utilities/mechanisms/gri30/lib/src/jacobs/jacob_6.c:8142-8148 -/
def jacobT276 : List CStmt := [
  .set (.var .jTemp) (.mul (.mul (.div (.num 1 0) (.rd (.var .T))) (.sub (.add (.mul (.sub (.rd (.arr .fwd 276)) (.rd (.arr .rev 275))) (.add (.num 23999999999999999 16) (.div (.num 49894219855785977 13) (.rd (.var .T))))) (.mul (.rd (.arr .fwd 276)) (.neg (.num 1 0)))) (.mul (.rd (.arr .rev 275)) (.add (.neg (.num 1 0)) (.mul (.neg (.rd (.var .T))) (.sub (.sub (.add (.rd (.arr .dBdT 0)) (.rd (.arr .dBdT 32))) (.rd (.arr .dBdT 1))) (.rd (.arr .dBdT 33)))))))) (.rd (.var .rhoInv))),
  .set (.arr .jac 1) (.add (.rd (.arr .jac 1)) (.mul (.rd (.var .jTemp)) (.num 20158800000000001 16))),
  .set (.arr .jac 2) (.add (.rd (.arr .jac 2)) (.mul (.neg (.rd (.var .jTemp))) (.num 10079400000000001 16))),
  .set (.arr .jac 33) (.add (.rd (.arr .jac 33)) (.mul (.rd (.var .jTemp)) (.num 1602262 5))),
  .set (.arr .jac 34) (.mul (.neg (.rd (.var .jTemp))) (.num 17030560000000001 15))]

/-- utilities/mechanisms/gri30/lib/src/jacobs/jacob_6.c:8369-8375 -/
def jacobT277 : List CStmt := [
  .set (.var .jTemp) (.mul (.mul (.div (.num 1 0) (.rd (.var .T))) (.sub (.add (.mul (.sub (.rd (.arr .fwd 277)) (.rd (.arr .rev 276))) (.add (.num 16000000000000001 16) (.div (.num 48057468444050033 14) (.rd (.var .T))))) (.mul (.rd (.arr .fwd 277)) (.neg (.num 1 0)))) (.mul (.rd (.arr .rev 276)) (.add (.neg (.num 1 0)) (.mul (.neg (.rd (.var .T))) (.sub (.sub (.add (.rd (.arr .dBdT 5)) (.rd (.arr .dBdT 32))) (.rd (.arr .dBdT 33))) (.rd (.arr .dBdT 4)))))))) (.rd (.var .rhoInv))),
  .set (.arr .jac 33) (.add (.rd (.arr .jac 33)) (.mul (.rd (.var .jTemp)) (.num 1602262 5))),
  .set (.arr .jac 34) (.add (.rd (.arr .jac 34)) (.mul (.neg (.rd (.var .jTemp))) (.num 17030560000000001 15))),
  .set (.arr .jac 5) (.add (.rd (.arr .jac 5)) (.mul (.neg (.rd (.var .jTemp))) (.num 17007339999999999 15))),
  .set (.arr .jac 6) (.add (.rd (.arr .jac 6)) (.mul (.rd (.var .jTemp)) (.num 18015280000000001 15)))]

/-- utilities/mechanisms/gri30/lib/src/jacobs/jacob_6.c:8596-8602 -/
def jacobT278 : List CStmt := [
  .set (.var .jTemp) (.mul (.mul (.div (.num 1 0) (.rd (.var .T))) (.sub (.add (.mul (.sub (.rd (.arr .fwd 278)) (.rd (.arr .rev 277))) (.add (.num 19399999999999999 16) (.div (.num 32507983889901907 13) (.rd (.var .T))))) (.mul (.rd (.arr .fwd 278)) (.neg (.num 1 0)))) (.mul (.rd (.arr .rev 277)) (.add (.neg (.num 1 0)) (.mul (.neg (.rd (.var .T))) (.sub (.sub (.add (.rd (.arr .dBdT 32)) (.rd (.arr .dBdT 4))) (.rd (.arr .dBdT 33))) (.rd (.arr .dBdT 2)))))))) (.rd (.var .rhoInv))),
  .set (.arr .jac 33) (.add (.rd (.arr .jac 33)) (.mul (.rd (.var .jTemp)) (.num 1602262 5))),
  .set (.arr .jac 34) (.add (.rd (.arr .jac 34)) (.mul (.neg (.rd (.var .jTemp))) (.num 17030560000000001 15))),
  .set (.arr .jac 3) (.add (.rd (.arr .jac 3)) (.mul (.neg (.rd (.var .jTemp))) (.num 159994 4))),
  .set (.arr .jac 5) (.add (.rd (.arr .jac 5)) (.mul (.rd (.var .jTemp)) (.num 17007339999999999 15)))]

/-- utilities/mechanisms/gri30/lib/src/jacobs/jacob_6.c:8823-8829 -/
def jacobT279 : List CStmt := [
  .set (.var .jTemp) (.mul (.mul (.div (.num 1 0) (.rd (.var .T))) (.sub (.add (.mul (.sub (.rd (.arr .fwd 279)) (.rd (.arr .rev 278))) (.div (.num 72212007557289835 13) (.rd (.var .T)))) (.mul (.rd (.arr .fwd 279)) (.neg (.num 1 0)))) (.mul (.rd (.arr .rev 278)) (.add (.neg (.num 1 0)) (.mul (.neg (.rd (.var .T))) (.sub (.sub (.add (.rd (.arr .dBdT 14)) (.rd (.arr .dBdT 38))) (.rd (.arr .dBdT 31))) (.rd (.arr .dBdT 15)))))))) (.rd (.var .rhoInv))),
  .set (.arr .jac 16) (.add (.rd (.arr .jac 16)) (.mul (.neg (.rd (.var .jTemp))) (.num 44009799999999998 15))),
  .set (.arr .jac 39) (.add (.rd (.arr .jac 39)) (.mul (.rd (.var .jTemp)) (.num 3101408 5))),
  .set (.arr .jac 15) (.add (.rd (.arr .jac 15)) (.mul (.rd (.var .jTemp)) (.num 28010399999999997 15))),
  .set (.arr .jac 32) (.add (.rd (.arr .jac 32)) (.mul (.neg (.rd (.var .jTemp))) (.num 1501468 5)))]

/-- The derivatives with respect to the temperature in `eval_jacob_6`, one block per reaction, utilities/mechanisms/gri30/lib/src/jacobs/jacob_6.c:5-9049. -/
def jacob6Blocks : List (List CStmt × List CStmt) := [
  (jacobT240, jacobN240), (jacobT241, jacobN241), (jacobT242, jacobN242), (jacobT243, []), (jacobT244, []), (jacobT245, []), (jacobT246, []), (jacobT247, []), (jacobT248, []), (jacobT249, []), (jacobT250, []), (jacobT251, []), (jacobT252, []), (jacobT253, []), (jacobT254, []), (jacobT255, []), (jacobT256, jacobN256), (jacobT257, []), (jacobT258, jacobN258), (jacobT259, jacobN259), (jacobT260, jacobN260), (jacobT261, []), (jacobT262, []), (jacobT263, []), (jacobT264, []), (jacobT265, []), (jacobT266, []), (jacobT267, []), (jacobT268, []), (jacobT269, []), (jacobT270, []), (jacobT271, []), (jacobT272, []), (jacobT273, []), (jacobT274, []), (jacobT275, []), (jacobT276, []), (jacobT277, []), (jacobT278, []), (jacobT279, [])]

end DLB.Mech.Gri30
