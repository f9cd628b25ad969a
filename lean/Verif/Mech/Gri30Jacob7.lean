/- Generated by tools/gen_mechanisms.py from utilities/mechanisms/gri30/lib/src/jacobs/jacob_7.c. Do not edit. -/
import Verif.Model.CLang
set_option autoImplicit false
set_option maxRecDepth 1000000

namespace DLB.Mech.Gri30
open DLB

/-- utilities/mechanisms/gri30/lib/src/jacobs/jacob_7.c:5-17 -/
def jacob7Start : List CStmt := [
  .set (.var .logT) (.log (.rd (.var .T))),
  .set (.var .kf) (.num 0 0),
  .set (.var .jTemp) (.num 0 0),
  .set (.var .presModTemp) (.num 0 0),
  .set (.var .Kc) (.num 0 0),
  .set (.var .kr) (.num 0 0),
  .set (.var .Pr) (.num 0 0),
  .set (.var .Fcent) (.num 0 0),
  .set (.var .A) (.num 0 0),
  .set (.var .B) (.num 0 0),
  .set (.var .lnFAB) (.num 0 0),
  .set (.var .rhoInv) (.div (.num 1 0) (.rd (.var .rho)))]

/-- utilities/mechanisms/gri30/lib/src/jacobs/jacob_7.c:18-24 -/
def jacobT280 : List CStmt := [
  .set (.var .jTemp) (.mul (.mul (.div (.num 1 0) (.rd (.var .T))) (.sub (.add (.mul (.sub (.rd (.arr .fwd 280)) (.rd (.arr .rev 279))) (.add (.neg (.num 752 3)) (.div (.num 17361074987641112 14) (.rd (.var .T))))) (.mul (.rd (.arr .fwd 280)) (.neg (.num 1 0)))) (.mul (.rd (.arr .rev 279)) (.add (.neg (.num 1 0)) (.mul (.neg (.rd (.var .T))) (.sub (.sub (.add (.rd (.arr .dBdT 46)) (.rd (.arr .dBdT 35))) (.rd (.arr .dBdT 39))) (.rd (.arr .dBdT 36)))))))) (.rd (.var .rhoInv))),
  .set (.arr .jac 36) (.add (.rd (.arr .jac 36)) (.mul (.rd (.var .jTemp)) (.num 30006140000000002 15))),
  .set (.arr .jac 37) (.add (.rd (.arr .jac 37)) (.mul (.neg (.rd (.var .jTemp))) (.num 46005539999999996 15))),
  .set (.arr .jac 47) (.add (.rd (.arr .jac 47)) (.mul (.rd (.var .jTemp)) (.num 42017139999999998 15))),
  .set (.arr .jac 40) (.add (.rd (.arr .jac 40)) (.mul (.neg (.rd (.var .jTemp))) (.num 2601774 5)))]

/-- utilities/mechanisms/gri30/lib/src/jacobs/jacob_7.c:245-251 -/
def jacobT281 : List CStmt := [
  .set (.var .jTemp) (.mul (.mul (.div (.num 1 0) (.rd (.var .T))) (.sub (.add (.mul (.sub (.rd (.arr .fwd 281)) (.rd (.arr .rev 280))) (.div (.neg (.num 35476979322570963 14)) (.rd (.var .T)))) (.mul (.rd (.arr .fwd 281)) (.neg (.num 1 0)))) (.mul (.rd (.arr .rev 280)) (.add (.neg (.num 1 0)) (.mul (.neg (.rd (.var .T))) (.sub (.sub (.add (.rd (.arr .dBdT 15)) (.rd (.arr .dBdT 37))) (.rd (.arr .dBdT 36))) (.rd (.arr .dBdT 46)))))))) (.rd (.var .rhoInv))),
  .set (.arr .jac 37) (.add (.rd (.arr .jac 37)) (.mul (.neg (.rd (.var .jTemp))) (.num 46005539999999996 15))),
  .set (.arr .jac 38) (.add (.rd (.arr .jac 38)) (.mul (.rd (.var .jTemp)) (.num 44012880000000003 15))),
  .set (.arr .jac 47) (.add (.rd (.arr .jac 47)) (.mul (.neg (.rd (.var .jTemp))) (.num 42017139999999998 15))),
  .set (.arr .jac 16) (.add (.rd (.arr .jac 16)) (.mul (.rd (.var .jTemp)) (.num 44009799999999998 15)))]

/-- utilities/mechanisms/gri30/lib/src/jacobs/jacob_7.c:472-478 -/
def jacobT282 : List CStmt := [
  .set (.var .jTemp) (.mul (.mul (.div (.num 1 0) (.rd (.var .T))) (.sub (.add (.mul (.sub (.rd (.arr .fwd 282)) (.rd (.arr .rev 281))) (.div (.num 56863810829085378 13) (.rd (.var .T)))) (.mul (.rd (.arr .fwd 282)) (.neg (.num 1 0)))) (.mul (.rd (.arr .rev 281)) (.add (.neg (.num 1 0)) (.mul (.neg (.rd (.var .T))) (.sub (.sub (.add (.rd (.arr .dBdT 14)) (.rd (.arr .dBdT 35))) (.rd (.arr .dBdT 15))) (.rd (.arr .dBdT 30)))))))) (.rd (.var .rhoInv))),
  .set (.arr .jac 36) (.add (.rd (.arr .jac 36)) (.mul (.rd (.var .jTemp)) (.num 30006140000000002 15))),
  .set (.arr .jac 15) (.add (.rd (.arr .jac 15)) (.mul (.rd (.var .jTemp)) (.num 28010399999999997 15))),
  .set (.arr .jac 31) (.add (.rd (.arr .jac 31)) (.mul (.neg (.rd (.var .jTemp))) (.num 14006740000000001 15))),
  .set (.arr .jac 16) (.add (.rd (.arr .jac 16)) (.mul (.neg (.rd (.var .jTemp))) (.num 44009799999999998 15)))]

/-- utilities/mechanisms/gri30/lib/src/jacobs/jacob_7.c:699-706 -/
def jacobT283 : List CStmt := [
  .set (.var .jTemp) (.mul (.mul (.div (.num 1 0) (.rd (.var .T))) (.mul (.rd (.arr .fwd 283)) (.neg (.num 1 0)))) (.rd (.var .rhoInv))),
  .set (.arr .jac 1) (.add (.rd (.arr .jac 1)) (.mul (.rd (.var .jTemp)) (.num 20158800000000001 16))),
  .set (.arr .jac 2) (.add (.rd (.arr .jac 2)) (.mul (.rd (.var .jTemp)) (.num 10079400000000001 16))),
  .set (.arr .jac 3) (.add (.rd (.arr .jac 3)) (.mul (.neg (.rd (.var .jTemp))) (.num 159994 4))),
  .set (.arr .jac 13) (.add (.rd (.arr .jac 13)) (.mul (.neg (.rd (.var .jTemp))) (.num 1503482 5))),
  .set (.arr .jac 15) (.add (.rd (.arr .jac 15)) (.mul (.rd (.var .jTemp)) (.num 28010399999999997 15)))]

/-- utilities/mechanisms/gri30/lib/src/jacobs/jacob_7.c:971-977 -/
def jacobT284 : List CStmt := [
  .set (.var .jTemp) (.mul (.mul (.div (.num 1 0) (.rd (.var .T))) (.sub (.add (.mul (.sub (.rd (.arr .fwd 284)) (.rd (.arr .rev 282))) (.add (.num 18300000000000001 16) (.div (.num 11070830426901578 14) (.rd (.var .T))))) (.mul (.rd (.arr .fwd 284)) (.neg (.num 1 0)))) (.mul (.rd (.arr .rev 282)) (.add (.neg (.num 1 0)) (.mul (.neg (.rd (.var .T))) (.sub (.sub (.add (.rd (.arr .dBdT 50)) (.rd (.arr .dBdT 1))) (.rd (.arr .dBdT 24))) (.rd (.arr .dBdT 2)))))))) (.rd (.var .rhoInv))),
  .set (.arr .jac 25) (.add (.rd (.arr .jac 25)) (.mul (.neg (.rd (.var .jTemp))) (.num 28053759999999997 15))),
  .set (.arr .jac 2) (.add (.rd (.arr .jac 2)) (.mul (.rd (.var .jTemp)) (.num 10079400000000001 16))),
  .set (.arr .jac 3) (.add (.rd (.arr .jac 3)) (.mul (.neg (.rd (.var .jTemp))) (.num 159994 4))),
  .set (.arr .jac 51) (.mul (.rd (.var .jTemp)) (.num 4304522 5))]

/-- utilities/mechanisms/gri30/lib/src/jacobs/jacob_7.c:1198-1204 -/
def jacobT285 : List CStmt := [
  .set (.var .jTemp) (.mul (.mul (.div (.num 1 0) (.rd (.var .T))) (.sub (.mul (.rd (.arr .fwd 285)) (.neg (.num 1 0))) (.mul (.rd (.arr .rev 283)) (.add (.neg (.num 1 0)) (.mul (.neg (.rd (.var .T))) (.sub (.sub (.add (.rd (.arr .dBdT 1)) (.rd (.arr .dBdT 51))) (.rd (.arr .dBdT 25))) (.rd (.arr .dBdT 2)))))))) (.rd (.var .rhoInv))),
  .set (.arr .jac 26) (.add (.rd (.arr .jac 26)) (.mul (.neg (.rd (.var .jTemp))) (.num 29061699999999998 15))),
  .set (.arr .jac 3) (.add (.rd (.arr .jac 3)) (.mul (.neg (.rd (.var .jTemp))) (.num 159994 4))),
  .set (.arr .jac 52) (.mul (.rd (.var .jTemp)) (.num 44053159999999998 15)),
  .set (.arr .jac 2) (.add (.rd (.arr .jac 2)) (.mul (.rd (.var .jTemp)) (.num 10079400000000001 16)))]

/-- utilities/mechanisms/gri30/lib/src/jacobs/jacob_7.c:1425-1431 -/
def jacobT286 : List CStmt := [
  .set (.var .jTemp) (.mul (.mul (.div (.num 1 0) (.rd (.var .T))) (.sub (.add (.mul (.sub (.rd (.arr .fwd 286)) (.rd (.arr .rev 284))) (.div (.num 87207950590092878 13) (.rd (.var .T)))) (.mul (.rd (.arr .fwd 286)) (.neg (.num 1 0)))) (.mul (.rd (.arr .rev 284)) (.add (.neg (.num 1 0)) (.mul (.neg (.rd (.var .T))) (.sub (.sub (.add (.rd (.arr .dBdT 5)) (.rd (.arr .dBdT 3))) (.rd (.arr .dBdT 6))) (.rd (.arr .dBdT 4)))))))) (.rd (.var .rhoInv))),
  .set (.arr .jac 4) (.add (.rd (.arr .jac 4)) (.mul (.rd (.var .jTemp)) (.num 31998799999999999 15))),
  .set (.arr .jac 5) (.add (.rd (.arr .jac 5)) (.mul (.neg (.rd (.var .jTemp))) (.num 17007339999999999 15))),
  .set (.arr .jac 6) (.add (.rd (.arr .jac 6)) (.mul (.rd (.var .jTemp)) (.num 18015280000000001 15))),
  .set (.arr .jac 7) (.add (.rd (.arr .jac 7)) (.mul (.neg (.rd (.var .jTemp))) (.num 33006740000000001 15)))]

/-- utilities/mechanisms/gri30/lib/src/jacobs/jacob_7.c:1652-1658 -/
def jacobT287 : List CStmt := [
  .set (.var .jTemp) (.mul (.mul (.div (.num 1 0) (.rd (.var .T))) (.mul (.rd (.arr .fwd 287)) (.add (.add (.num 5 1) (.div (.neg (.num 88315033632783047 14)) (.rd (.var .T)))) (.neg (.num 1 0))))) (.rd (.var .rhoInv))),
  .set (.arr .jac 1) (.add (.rd (.arr .jac 1)) (.mul (.rd (.var .jTemp)) (.num 20158800000000001 16))),
  .set (.arr .jac 5) (.add (.rd (.arr .jac 5)) (.mul (.neg (.rd (.var .jTemp))) (.num 17007339999999999 15))),
  .set (.arr .jac 13) (.add (.rd (.arr .jac 13)) (.mul (.neg (.rd (.var .jTemp))) (.num 1503482 5))),
  .set (.arr .jac 18) (.add (.rd (.arr .jac 18)) (.mul (.rd (.var .jTemp)) (.num 3002628 5)))]

/-- utilities/mechanisms/gri30/lib/src/jacobs/jacob_7.c:1871-1882 -/
def jacobT288 : List CStmt := [
  .set (.var .concTemp) (.sub (.add (.add (.add (.add (.add (.add (.rd (.var .m)) (.mul (.num 1 0) (.rd (.arr .C 0)))) (.mul (.num 5 0) (.rd (.arr .C 5)))) (.mul (.num 1 0) (.rd (.arr .C 13)))) (.mul (.num 5 1) (.rd (.arr .C 14)))) (.mul (.num 1 0) (.rd (.arr .C 15)))) (.mul (.num 2 0) (.rd (.arr .C 26)))) (.mul (.num 3 1) (.rd (.arr .C 47)))),
  .set (.var .Pr) (.mul (.rd (.var .concTemp)) (.exp (.sub (.sub (.num 2392059131525307 14) (.mul (.num 323 2) (.rd (.var .logT)))) (.div (.num 48309078226479608 14) (.rd (.var .T)))))),
  .set (.var .Fcent) (.add (.add (.mul (.num 42200000000000004 17) (.exp (.div (.rd (.var .T)) (.neg (.num 122 0))))) (.mul (.num 57799999999999996 17) (.exp (.div (.rd (.var .T)) (.neg (.num 2535 0)))))) (.exp (.div (.neg (.num 9365 0)) (.rd (.var .T))))),
  .set (.var .A) (.sub (.sub (.log10 (.fmax (.rd (.var .Pr)) (.num 1 300))) (.mul (.num 67 2) (.log10 (.fmax (.rd (.var .Fcent)) (.num 1 300))))) (.num 4 1)),
  .set (.var .B) (.sub (.sub (.num 806 3) (.mul (.num 11762 4) (.log10 (.fmax (.rd (.var .Fcent)) (.num 1 300))))) (.mul (.num 14 2) (.log10 (.fmax (.rd (.var .Pr)) (.num 1 300))))),
  .set (.var .lnFAB) (.div (.mul (.mul (.num 2 0) (.log (.fmax (.rd (.var .Fcent)) (.num 1 300)))) (.rd (.var .A))) (.mul (.mul (.mul (.mul (.rd (.var .B)) (.rd (.var .B))) (.rd (.var .B))) (.add (.num 1 0) (.div (.mul (.rd (.var .A)) (.rd (.var .A))) (.mul (.rd (.var .B)) (.rd (.var .B)))))) (.add (.num 1 0) (.div (.mul (.rd (.var .A)) (.rd (.var .A))) (.mul (.rd (.var .B)) (.rd (.var .B))))))),
  .set (.var .jTemp) (.mul (.add (.mul (.mul (.rd (.arr .presMod 36)) (.sub (.add (.div (.sub (.add (.neg (.num 323 2)) (.div (.num 48309078226479608 14) (.rd (.var .T)))) (.num 1 0)) (.mul (.rd (.var .T)) (.add (.num 1 0) (.rd (.var .Pr))))) (.mul (.sub (.div (.num 1 0) (.mul (.rd (.var .Fcent)) (.add (.num 1 0) (.div (.mul (.rd (.var .A)) (.rd (.var .A))) (.mul (.rd (.var .B)) (.rd (.var .B))))))) (.div (.mul (.rd (.var .lnFAB)) (.add (.mul (.neg (.num 2909773028751787 16)) (.rd (.var .B))) (.mul (.num 51081716961460466 17) (.rd (.var .A))))) (.rd (.var .Fcent)))) (.add (.sub (.mul (.neg (.num 34590163934426232 19)) (.exp (.div (.rd (.var .T)) (.neg (.num 122 0))))) (.mul (.num 22800788954635106 20) (.exp (.div (.rd (.var .T)) (.neg (.num 2535 0)))))) (.mul (.div (.num 9365 0) (.mul (.rd (.var .T)) (.rd (.var .T)))) (.exp (.div (.neg (.num 9365 0)) (.rd (.var .T)))))))) (.div (.mul (.mul (.rd (.var .lnFAB)) (.add (.mul (.num 43429448190325176 17) (.rd (.var .B))) (.mul (.num 60801227466455256 18) (.rd (.var .A))))) (.sub (.add (.neg (.num 323 2)) (.div (.num 48309078226479608 14) (.rd (.var .T)))) (.num 1 0))) (.rd (.var .T))))) (.sub (.rd (.arr .fwd 288)) (.rd (.arr .rev 285)))) (.mul (.div (.rd (.arr .presMod 36)) (.rd (.var .T))) (.sub (.add (.mul (.sub (.rd (.arr .fwd 288)) (.rd (.arr .rev 285))) (.add (.num 42999999999999999 17) (.div (.neg (.num 18619123899789017 14)) (.rd (.var .T))))) (.mul (.rd (.arr .fwd 288)) (.neg (.num 1 0)))) (.mul (.rd (.arr .rev 285)) (.mul (.neg (.rd (.var .T))) (.sub (.sub (.rd (.arr .dBdT 12)) (.rd (.arr .dBdT 0))) (.rd (.arr .dBdT 9)))))))) (.rd (.var .rhoInv))),
  .set (.arr .jac 1) (.add (.rd (.arr .jac 1)) (.mul (.neg (.rd (.var .jTemp))) (.num 20158800000000001 16))),
  .set (.arr .jac 10) (.add (.rd (.arr .jac 10)) (.mul (.neg (.rd (.var .jTemp))) (.num 13018939999999999 15))),
  .set (.arr .jac 13) (.add (.rd (.arr .jac 13)) (.mul (.rd (.var .jTemp)) (.num 1503482 5)))]

/-- utilities/mechanisms/gri30/lib/src/jacobs/jacob_7.c:2053-2059 -/
def jacobT289 : List CStmt := [
  .set (.var .jTemp) (.mul (.mul (.div (.num 1 0) (.rd (.var .T))) (.mul (.rd (.arr .fwd 289)) (.add (.div (.num 75482934728874397 14) (.rd (.var .T))) (.neg (.num 1 0))))) (.rd (.var .rhoInv))),
  .set (.arr .jac 2) (.add (.rd (.arr .jac 2)) (.mul (.mul (.rd (.var .jTemp)) (.num 2 0)) (.num 10079400000000001 16))),
  .set (.arr .jac 11) (.add (.rd (.arr .jac 11)) (.mul (.neg (.rd (.var .jTemp))) (.num 14026879999999998 15))),
  .set (.arr .jac 4) (.add (.rd (.arr .jac 4)) (.mul (.neg (.rd (.var .jTemp))) (.num 31998799999999999 15))),
  .set (.arr .jac 16) (.add (.rd (.arr .jac 16)) (.mul (.rd (.var .jTemp)) (.num 44009799999999998 15)))]

/-- utilities/mechanisms/gri30/lib/src/jacobs/jacob_7.c:2272-2278 -/
def jacobT290 : List CStmt := [
  .set (.var .jTemp) (.mul (.mul (.div (.num 1 0) (.rd (.var .T))) (.sub (.add (.mul (.sub (.rd (.arr .fwd 290)) (.rd (.arr .rev 286))) (.div (.num 75482934728874397 14) (.rd (.var .T)))) (.mul (.rd (.arr .fwd 290)) (.neg (.num 1 0)))) (.mul (.rd (.arr .rev 286)) (.add (.neg (.num 1 0)) (.mul (.neg (.rd (.var .T))) (.sub (.sub (.add (.rd (.arr .dBdT 17)) (.rd (.arr .dBdT 2))) (.rd (.arr .dBdT 10))) (.rd (.arr .dBdT 3)))))))) (.rd (.var .rhoInv))),
  .set (.arr .jac 18) (.add (.rd (.arr .jac 18)) (.mul (.rd (.var .jTemp)) (.num 3002628 5))),
  .set (.arr .jac 11) (.add (.rd (.arr .jac 11)) (.mul (.neg (.rd (.var .jTemp))) (.num 14026879999999998 15))),
  .set (.arr .jac 4) (.add (.rd (.arr .jac 4)) (.mul (.neg (.rd (.var .jTemp))) (.num 31998799999999999 15))),
  .set (.arr .jac 3) (.add (.rd (.arr .jac 3)) (.mul (.rd (.var .jTemp)) (.num 159994 4)))]

/-- utilities/mechanisms/gri30/lib/src/jacobs/jacob_7.c:2499-2504 -/
def jacobT291 : List CStmt := [
  .set (.var .jTemp) (.mul (.mul (.div (.num 1 0) (.rd (.var .T))) (.mul (.rd (.arr .fwd 291)) (.add (.div (.num 5529879798237338 12) (.rd (.var .T))) (.neg (.num 1 0))))) (.rd (.var .rhoInv))),
  .set (.arr .jac 2) (.add (.rd (.arr .jac 2)) (.mul (.mul (.rd (.var .jTemp)) (.num 2 0)) (.num 10079400000000001 16))),
  .set (.arr .jac 11) (.add (.rd (.arr .jac 11)) (.mul (.mul (.rd (.var .jTemp)) (.neg (.num 2 0))) (.num 14026879999999998 15))),
  .set (.arr .jac 23) (.add (.rd (.arr .jac 23)) (.mul (.rd (.var .jTemp)) (.num 26037879999999998 15)))]

/-- utilities/mechanisms/gri30/lib/src/jacobs/jacob_7.c:2665-2671 -/
def jacobT292 : List CStmt := [
  .set (.var .jTemp) (.mul (.mul (.div (.num 1 0) (.rd (.var .T))) (.mul (.rd (.arr .fwd 292)) (.add (.add (.num 25 2) (.div (.neg (.num 47051029314331709 14)) (.rd (.var .T)))) (.neg (.num 1 0))))) (.rd (.var .rhoInv))),
  .set (.arr .jac 1) (.add (.rd (.arr .jac 1)) (.mul (.rd (.var .jTemp)) (.num 20158800000000001 16))),
  .set (.arr .jac 18) (.add (.rd (.arr .jac 18)) (.mul (.rd (.var .jTemp)) (.num 3002628 5))),
  .set (.arr .jac 12) (.add (.rd (.arr .jac 12)) (.mul (.neg (.rd (.var .jTemp))) (.num 14026879999999998 15))),
  .set (.arr .jac 6) (.add (.rd (.arr .jac 6)) (.mul (.neg (.rd (.var .jTemp))) (.num 18015280000000001 15)))]

/-- utilities/mechanisms/gri30/lib/src/jacobs/jacob_7.c:2884-2890 -/
def jacobT293 : List CStmt := [
  .set (.var .jTemp) (.mul (.mul (.div (.num 1 0) (.rd (.var .T))) (.sub (.add (.mul (.sub (.rd (.arr .fwd 293)) (.rd (.arr .rev 287))) (.add (.num 28999999999999998 17) (.div (.num 5535415213450789 15) (.rd (.var .T))))) (.mul (.rd (.arr .fwd 293)) (.neg (.num 1 0)))) (.mul (.rd (.arr .rev 287)) (.add (.neg (.num 1 0)) (.mul (.neg (.rd (.var .T))) (.sub (.sub (.add (.rd (.arr .dBdT 50)) (.rd (.arr .dBdT 2))) (.rd (.arr .dBdT 23))) (.rd (.arr .dBdT 3)))))))) (.rd (.var .rhoInv))),
  .set (.arr .jac 51) (.add (.rd (.arr .jac 51)) (.mul (.rd (.var .jTemp)) (.num 4304522 5))),
  .set (.arr .jac 4) (.add (.rd (.arr .jac 4)) (.mul (.neg (.rd (.var .jTemp))) (.num 31998799999999999 15))),
  .set (.arr .jac 3) (.add (.rd (.arr .jac 3)) (.mul (.rd (.var .jTemp)) (.num 159994 4))),
  .set (.arr .jac 24) (.add (.rd (.arr .jac 24)) (.mul (.neg (.rd (.var .jTemp))) (.num 27045819999999999 15)))]

/-- utilities/mechanisms/gri30/lib/src/jacobs/jacob_7.c:3111-3117 -/
def jacobT294 : List CStmt := [
  .set (.var .jTemp) (.mul (.mul (.div (.num 1 0) (.rd (.var .T))) (.sub (.add (.mul (.sub (.rd (.arr .fwd 294)) (.rd (.arr .rev 288))) (.add (.num 16100000000000001 16) (.div (.neg (.num 19323631290591845 14)) (.rd (.var .T))))) (.mul (.rd (.arr .fwd 294)) (.neg (.num 1 0)))) (.mul (.rd (.arr .rev 288)) (.add (.neg (.num 1 0)) (.mul (.neg (.rd (.var .T))) (.sub (.sub (.add (.rd (.arr .dBdT 6)) (.rd (.arr .dBdT 22))) (.rd (.arr .dBdT 23))) (.rd (.arr .dBdT 3)))))))) (.rd (.var .rhoInv))),
  .set (.arr .jac 4) (.add (.rd (.arr .jac 4)) (.mul (.neg (.rd (.var .jTemp))) (.num 31998799999999999 15))),
  .set (.arr .jac 23) (.add (.rd (.arr .jac 23)) (.mul (.rd (.var .jTemp)) (.num 26037879999999998 15))),
  .set (.arr .jac 7) (.add (.rd (.arr .jac 7)) (.mul (.rd (.var .jTemp)) (.num 33006740000000001 15))),
  .set (.arr .jac 24) (.add (.rd (.arr .jac 24)) (.mul (.neg (.rd (.var .jTemp))) (.num 27045819999999999 15)))]

/-- utilities/mechanisms/gri30/lib/src/jacobs/jacob_7.c:3338-3344 -/
def jacobT295 : List CStmt := [
  .set (.var .jTemp) (.mul (.mul (.div (.num 1 0) (.rd (.var .T))) (.sub (.add (.mul (.sub (.rd (.arr .fwd 295)) (.rd (.arr .rev 289))) (.div (.num 90982097326536609 14) (.rd (.var .T)))) (.mul (.rd (.arr .fwd 295)) (.neg (.num 1 0)))) (.mul (.rd (.arr .rev 289)) (.add (.neg (.num 1 0)) (.mul (.neg (.rd (.var .T))) (.sub (.sub (.add (.rd (.arr .dBdT 50)) (.rd (.arr .dBdT 4))) (.rd (.arr .dBdT 51))) (.rd (.arr .dBdT 2)))))))) (.rd (.var .rhoInv))),
  .set (.arr .jac 3) (.add (.rd (.arr .jac 3)) (.mul (.neg (.rd (.var .jTemp))) (.num 159994 4))),
  .set (.arr .jac 52) (.add (.rd (.arr .jac 52)) (.mul (.neg (.rd (.var .jTemp))) (.num 44053159999999998 15))),
  .set (.arr .jac 5) (.add (.rd (.arr .jac 5)) (.mul (.rd (.var .jTemp)) (.num 17007339999999999 15))),
  .set (.arr .jac 51) (.add (.rd (.arr .jac 51)) (.mul (.rd (.var .jTemp)) (.num 4304522 5)))]

/-- utilities/mechanisms/gri30/lib/src/jacobs/jacob_7.c:3565-3572 -/
def jacobT296 : List CStmt := [
  .set (.var .jTemp) (.mul (.mul (.div (.num 1 0) (.rd (.var .T))) (.mul (.rd (.arr .fwd 296)) (.add (.div (.num 90982097326536609 14) (.rd (.var .T))) (.neg (.num 1 0))))) (.rd (.var .rhoInv))),
  .set (.arr .jac 5) (.add (.rd (.arr .jac 5)) (.mul (.rd (.var .jTemp)) (.num 17007339999999999 15))),
  .set (.arr .jac 3) (.add (.rd (.arr .jac 3)) (.mul (.neg (.rd (.var .jTemp))) (.num 159994 4))),
  .set (.arr .jac 52) (.add (.rd (.arr .jac 52)) (.mul (.neg (.rd (.var .jTemp))) (.num 44053159999999998 15))),
  .set (.arr .jac 13) (.add (.rd (.arr .jac 13)) (.mul (.rd (.var .jTemp)) (.num 1503482 5))),
  .set (.arr .jac 15) (.add (.rd (.arr .jac 15)) (.mul (.rd (.var .jTemp)) (.num 28010399999999997 15)))]

/-- utilities/mechanisms/gri30/lib/src/jacobs/jacob_7.c:3837-3844 -/
def jacobT297 : List CStmt := [
  .set (.var .jTemp) (.mul (.mul (.div (.num 1 0) (.rd (.var .T))) (.mul (.rd (.arr .fwd 297)) (.add (.div (.num 19701045964236218 12) (.rd (.var .T))) (.neg (.num 1 0))))) (.rd (.var .rhoInv))),
  .set (.arr .jac 4) (.add (.rd (.arr .jac 4)) (.mul (.neg (.rd (.var .jTemp))) (.num 31998799999999999 15))),
  .set (.arr .jac 52) (.add (.rd (.arr .jac 52)) (.mul (.neg (.rd (.var .jTemp))) (.num 44053159999999998 15))),
  .set (.arr .jac 13) (.add (.rd (.arr .jac 13)) (.mul (.rd (.var .jTemp)) (.num 1503482 5))),
  .set (.arr .jac 7) (.add (.rd (.arr .jac 7)) (.mul (.rd (.var .jTemp)) (.num 33006740000000001 15))),
  .set (.arr .jac 15) (.add (.rd (.arr .jac 15)) (.mul (.rd (.var .jTemp)) (.num 28010399999999997 15)))]

/-- utilities/mechanisms/gri30/lib/src/jacobs/jacob_7.c:4109-4115 -/
def jacobT298 : List CStmt := [
  .set (.var .jTemp) (.mul (.mul (.div (.num 1 0) (.rd (.var .T))) (.sub (.add (.mul (.sub (.rd (.arr .fwd 298)) (.rd (.arr .rev 290))) (.add (.num 11599999999999999 16) (.div (.num 1210243053486286 12) (.rd (.var .T))))) (.mul (.rd (.arr .fwd 298)) (.neg (.num 1 0)))) (.mul (.rd (.arr .rev 290)) (.add (.neg (.num 1 0)) (.mul (.neg (.rd (.var .T))) (.sub (.sub (.add (.rd (.arr .dBdT 0)) (.rd (.arr .dBdT 50))) (.rd (.arr .dBdT 1))) (.rd (.arr .dBdT 51)))))))) (.rd (.var .rhoInv))),
  .set (.arr .jac 1) (.add (.rd (.arr .jac 1)) (.mul (.rd (.var .jTemp)) (.num 20158800000000001 16))),
  .set (.arr .jac 2) (.add (.rd (.arr .jac 2)) (.mul (.neg (.rd (.var .jTemp))) (.num 10079400000000001 16))),
  .set (.arr .jac 51) (.add (.rd (.arr .jac 51)) (.mul (.rd (.var .jTemp)) (.num 4304522 5))),
  .set (.arr .jac 52) (.add (.rd (.arr .jac 52)) (.mul (.neg (.rd (.var .jTemp))) (.num 44053159999999998 15)))]

/-- utilities/mechanisms/gri30/lib/src/jacobs/jacob_7.c:4336-4343 -/
def jacobT299 : List CStmt := [
  .set (.var .jTemp) (.mul (.mul (.div (.num 1 0) (.rd (.var .T))) (.mul (.rd (.arr .fwd 299)) (.add (.add (.num 11599999999999999 16) (.div (.num 1210243053486286 12) (.rd (.var .T)))) (.neg (.num 1 0))))) (.rd (.var .rhoInv))),
  .set (.arr .jac 1) (.add (.rd (.arr .jac 1)) (.mul (.rd (.var .jTemp)) (.num 20158800000000001 16))),
  .set (.arr .jac 2) (.add (.rd (.arr .jac 2)) (.mul (.neg (.rd (.var .jTemp))) (.num 10079400000000001 16))),
  .set (.arr .jac 52) (.add (.rd (.arr .jac 52)) (.mul (.neg (.rd (.var .jTemp))) (.num 44053159999999998 15))),
  .set (.arr .jac 13) (.add (.rd (.arr .jac 13)) (.mul (.rd (.var .jTemp)) (.num 1503482 5))),
  .set (.arr .jac 15) (.add (.rd (.arr .jac 15)) (.mul (.rd (.var .jTemp)) (.num 28010399999999997 15)))]

/-- utilities/mechanisms/gri30/lib/src/jacobs/jacob_7.c:4608-4615 -/
def jacobT300 : List CStmt := [
  .set (.var .jTemp) (.mul (.mul (.div (.num 1 0) (.rd (.var .T))) (.mul (.rd (.arr .fwd 300)) (.add (.add (.num 72999999999999998 17) (.div (.neg (.num 560083375688248 12)) (.rd (.var .T)))) (.neg (.num 1 0))))) (.rd (.var .rhoInv))),
  .set (.arr .jac 13) (.add (.rd (.arr .jac 13)) (.mul (.rd (.var .jTemp)) (.num 1503482 5))),
  .set (.arr .jac 52) (.add (.rd (.arr .jac 52)) (.mul (.neg (.rd (.var .jTemp))) (.num 44053159999999998 15))),
  .set (.arr .jac 5) (.add (.rd (.arr .jac 5)) (.mul (.neg (.rd (.var .jTemp))) (.num 17007339999999999 15))),
  .set (.arr .jac 6) (.add (.rd (.arr .jac 6)) (.mul (.rd (.var .jTemp)) (.num 18015280000000001 15))),
  .set (.arr .jac 15) (.add (.rd (.arr .jac 15)) (.mul (.rd (.var .jTemp)) (.num 28010399999999997 15)))]

/-- utilities/mechanisms/gri30/lib/src/jacobs/jacob_7.c:4880-4887 -/
def jacobT301 : List CStmt := [
  .set (.var .jTemp) (.mul (.mul (.div (.num 1 0) (.rd (.var .T))) (.mul (.rd (.arr .fwd 301)) (.add (.div (.num 59998868718157964 13) (.rd (.var .T))) (.neg (.num 1 0))))) (.rd (.var .rhoInv))),
  .set (.arr .jac 52) (.add (.rd (.arr .jac 52)) (.mul (.neg (.rd (.var .jTemp))) (.num 44053159999999998 15))),
  .set (.arr .jac 13) (.add (.rd (.arr .jac 13)) (.mul (.rd (.var .jTemp)) (.num 1503482 5))),
  .set (.arr .jac 15) (.add (.rd (.arr .jac 15)) (.mul (.rd (.var .jTemp)) (.num 28010399999999997 15))),
  .set (.arr .jac 7) (.add (.rd (.arr .jac 7)) (.mul (.neg (.rd (.var .jTemp))) (.num 33006740000000001 15))),
  .set (.arr .jac 8) (.add (.rd (.arr .jac 8)) (.mul (.rd (.var .jTemp)) (.num 34014679999999998 15)))]

/-- utilities/mechanisms/gri30/lib/src/jacobs/jacob_7.c:5152-5157 -/
def jacobT302 : List CStmt := [
  .set (.var .jTemp) (.mul (.mul (.div (.num 1 0) (.rd (.var .T))) (.mul (.rd (.arr .fwd 302)) (.add (.add (.num 177 2) (.div (.num 29790598239662427 13) (.rd (.var .T)))) (.neg (.num 1 0))))) (.rd (.var .rhoInv))),
  .set (.arr .jac 52) (.add (.rd (.arr .jac 52)) (.mul (.neg (.rd (.var .jTemp))) (.num 44053159999999998 15))),
  .set (.arr .jac 14) (.add (.rd (.arr .jac 14)) (.mul (.rd (.var .jTemp)) (.num 16042760000000001 15))),
  .set (.arr .jac 15) (.add (.rd (.arr .jac 15)) (.mul (.rd (.var .jTemp)) (.num 28010399999999997 15)))]

/-- utilities/mechanisms/gri30/lib/src/jacobs/jacob_7.c:5318-5328 -/
def jacobT303 : List CStmt := [
  .set (.var .Pr) (.mul (.rd (.var .concTemp)) (.exp (.sub (.sub (.num 62902244459060583 15) (.mul (.num 8052 3) (.rd (.var .logT)))) (.div (.num 28225585392950434 13) (.rd (.var .T)))))),
  .set (.var .Fcent) (.add (.add (.mul (.num 53499999999999992 17) (.exp (.div (.rd (.var .T)) (.neg (.num 201 0))))) (.mul (.num 46500000000000002 17) (.exp (.div (.rd (.var .T)) (.neg (.num 17729999999999998 13)))))) (.exp (.div (.neg (.num 5333 0)) (.rd (.var .T))))),
  .set (.var .A) (.sub (.sub (.log10 (.fmax (.rd (.var .Pr)) (.num 1 300))) (.mul (.num 67 2) (.log10 (.fmax (.rd (.var .Fcent)) (.num 1 300))))) (.num 4 1)),
  .set (.var .B) (.sub (.sub (.num 806 3) (.mul (.num 11762 4) (.log10 (.fmax (.rd (.var .Fcent)) (.num 1 300))))) (.mul (.num 14 2) (.log10 (.fmax (.rd (.var .Pr)) (.num 1 300))))),
  .set (.var .lnFAB) (.div (.mul (.mul (.num 2 0) (.log (.fmax (.rd (.var .Fcent)) (.num 1 300)))) (.rd (.var .A))) (.mul (.mul (.mul (.mul (.rd (.var .B)) (.rd (.var .B))) (.rd (.var .B))) (.add (.num 1 0) (.div (.mul (.rd (.var .A)) (.rd (.var .A))) (.mul (.rd (.var .B)) (.rd (.var .B)))))) (.add (.num 1 0) (.div (.mul (.rd (.var .A)) (.rd (.var .A))) (.mul (.rd (.var .B)) (.rd (.var .B))))))),
  .set (.var .jTemp) (.mul (.add (.mul (.mul (.rd (.arr .presMod 37)) (.sub (.add (.div (.sub (.add (.neg (.num 8052 3)) (.div (.num 28225585392950434 13) (.rd (.var .T)))) (.num 1 0)) (.mul (.rd (.var .T)) (.add (.num 1 0) (.rd (.var .Pr))))) (.mul (.sub (.div (.num 1 0) (.mul (.rd (.var .Fcent)) (.add (.num 1 0) (.div (.mul (.rd (.var .A)) (.rd (.var .A))) (.mul (.rd (.var .B)) (.rd (.var .B))))))) (.div (.mul (.rd (.var .lnFAB)) (.add (.mul (.neg (.num 2909773028751787 16)) (.rd (.var .B))) (.mul (.num 51081716961460466 17) (.rd (.var .A))))) (.rd (.var .Fcent)))) (.add (.sub (.mul (.neg (.num 26616915422885568 19)) (.exp (.div (.rd (.var .T)) (.neg (.num 201 0))))) (.mul (.num 26226734348561766 20) (.exp (.div (.rd (.var .T)) (.neg (.num 17729999999999998 13)))))) (.mul (.div (.num 5333 0) (.mul (.rd (.var .T)) (.rd (.var .T)))) (.exp (.div (.neg (.num 5333 0)) (.rd (.var .T)))))))) (.div (.mul (.mul (.rd (.var .lnFAB)) (.add (.mul (.num 43429448190325176 17) (.rd (.var .B))) (.mul (.num 60801227466455256 18) (.rd (.var .A))))) (.sub (.add (.neg (.num 80519999999999996 16)) (.div (.num 28225585392950434 13) (.rd (.var .T)))) (.num 1 0))) (.rd (.var .T))))) (.sub (.rd (.arr .fwd 303)) (.rd (.arr .rev 291)))) (.mul (.div (.rd (.arr .presMod 37)) (.rd (.var .T))) (.sub (.add (.mul (.sub (.rd (.arr .fwd 303)) (.rd (.arr .rev 291))) (.add (.num 42199999999999999 17) (.div (.neg (.num 88315033632783047 14)) (.rd (.var .T))))) (.mul (.rd (.arr .fwd 303)) (.neg (.num 1 0)))) (.mul (.rd (.arr .rev 291)) (.mul (.neg (.rd (.var .T))) (.sub (.sub (.rd (.arr .dBdT 50)) (.rd (.arr .dBdT 1))) (.rd (.arr .dBdT 28)))))))) (.rd (.var .rhoInv))),
  .set (.arr .jac 2) (.add (.rd (.arr .jac 2)) (.mul (.neg (.rd (.var .jTemp))) (.num 10079400000000001 16))),
  .set (.arr .jac 51) (.add (.rd (.arr .jac 51)) (.mul (.rd (.var .jTemp)) (.num 4304522 5))),
  .set (.arr .jac 29) (.add (.rd (.arr .jac 29)) (.mul (.neg (.rd (.var .jTemp))) (.num 42037279999999996 15)))]

/-- utilities/mechanisms/gri30/lib/src/jacobs/jacob_7.c:5499-5506 -/
def jacobT304 : List CStmt := [
  .set (.var .jTemp) (.mul (.mul (.div (.num 1 0) (.rd (.var .T))) (.mul (.rd (.arr .fwd 304)) (.neg (.num 1 0)))) (.rd (.var .rhoInv))),
  .set (.arr .jac 2) (.add (.rd (.arr .jac 2)) (.mul (.rd (.var .jTemp)) (.num 10079400000000001 16))),
  .set (.arr .jac 51) (.add (.rd (.arr .jac 51)) (.mul (.neg (.rd (.var .jTemp))) (.num 4304522 5))),
  .set (.arr .jac 11) (.add (.rd (.arr .jac 11)) (.mul (.rd (.var .jTemp)) (.num 14026879999999998 15))),
  .set (.arr .jac 3) (.add (.rd (.arr .jac 3)) (.mul (.neg (.rd (.var .jTemp))) (.num 159994 4))),
  .set (.arr .jac 16) (.add (.rd (.arr .jac 16)) (.mul (.rd (.var .jTemp)) (.num 44009799999999998 15)))]

/-- utilities/mechanisms/gri30/lib/src/jacobs/jacob_7.c:5771-5778 -/
def jacobT305 : List CStmt := [
  .set (.var .jTemp) (.mul (.mul (.div (.num 1 0) (.rd (.var .T))) (.mul (.rd (.arr .fwd 305)) (.neg (.num 1 0)))) (.rd (.var .rhoInv))),
  .set (.arr .jac 18) (.add (.rd (.arr .jac 18)) (.mul (.rd (.var .jTemp)) (.num 3002628 5))),
  .set (.arr .jac 51) (.add (.rd (.arr .jac 51)) (.mul (.neg (.rd (.var .jTemp))) (.num 4304522 5))),
  .set (.arr .jac 4) (.add (.rd (.arr .jac 4)) (.mul (.neg (.rd (.var .jTemp))) (.num 31998799999999999 15))),
  .set (.arr .jac 5) (.add (.rd (.arr .jac 5)) (.mul (.rd (.var .jTemp)) (.num 17007339999999999 15))),
  .set (.arr .jac 15) (.add (.rd (.arr .jac 15)) (.mul (.rd (.var .jTemp)) (.num 28010399999999997 15)))]

/-- utilities/mechanisms/gri30/lib/src/jacobs/jacob_7.c:6043-6049 -/
def jacobT306 : List CStmt := [
  .set (.var .jTemp) (.mul (.mul (.div (.num 1 0) (.rd (.var .T))) (.mul (.rd (.arr .fwd 306)) (.neg (.num 1 0)))) (.rd (.var .rhoInv))),
  .set (.arr .jac 17) (.add (.rd (.arr .jac 17)) (.mul (.mul (.rd (.var .jTemp)) (.num 2 0)) (.num 29018339999999998 15))),
  .set (.arr .jac 51) (.add (.rd (.arr .jac 51)) (.mul (.neg (.rd (.var .jTemp))) (.num 4304522 5))),
  .set (.arr .jac 4) (.add (.rd (.arr .jac 4)) (.mul (.neg (.rd (.var .jTemp))) (.num 31998799999999999 15))),
  .set (.arr .jac 5) (.add (.rd (.arr .jac 5)) (.mul (.rd (.var .jTemp)) (.num 17007339999999999 15)))]

/-- utilities/mechanisms/gri30/lib/src/jacobs/jacob_7.c:6262-6268 -/
def jacobT307 : List CStmt := [
  .set (.var .jTemp) (.mul (.mul (.div (.num 1 0) (.rd (.var .T))) (.sub (.mul (.rd (.arr .fwd 307)) (.neg (.num 1 0))) (.mul (.rd (.arr .rev 292)) (.add (.neg (.num 1 0)) (.mul (.neg (.rd (.var .T))) (.sub (.sub (.add (.rd (.arr .dBdT 12)) (.rd (.arr .dBdT 16))) (.rd (.arr .dBdT 50))) (.rd (.arr .dBdT 1)))))))) (.rd (.var .rhoInv))),
  .set (.arr .jac 17) (.add (.rd (.arr .jac 17)) (.mul (.rd (.var .jTemp)) (.num 29018339999999998 15))),
  .set (.arr .jac 2) (.add (.rd (.arr .jac 2)) (.mul (.neg (.rd (.var .jTemp))) (.num 10079400000000001 16))),
  .set (.arr .jac 51) (.add (.rd (.arr .jac 51)) (.mul (.neg (.rd (.var .jTemp))) (.num 4304522 5))),
  .set (.arr .jac 13) (.add (.rd (.arr .jac 13)) (.mul (.rd (.var .jTemp)) (.num 1503482 5)))]

/-- utilities/mechanisms/gri30/lib/src/jacobs/jacob_7.c:6489-6495 -/
def jacobT308 : List CStmt := [
  .set (.var .jTemp) (.mul (.mul (.div (.num 1 0) (.rd (.var .T))) (.sub (.mul (.rd (.arr .fwd 308)) (.neg (.num 1 0))) (.mul (.rd (.arr .rev 293)) (.add (.neg (.num 1 0)) (.mul (.neg (.rd (.var .T))) (.sub (.sub (.add (.rd (.arr .dBdT 0)) (.rd (.arr .dBdT 28))) (.rd (.arr .dBdT 50))) (.rd (.arr .dBdT 1)))))))) (.rd (.var .rhoInv))),
  .set (.arr .jac 1) (.add (.rd (.arr .jac 1)) (.mul (.rd (.var .jTemp)) (.num 20158800000000001 16))),
  .set (.arr .jac 2) (.add (.rd (.arr .jac 2)) (.mul (.neg (.rd (.var .jTemp))) (.num 10079400000000001 16))),
  .set (.arr .jac 51) (.add (.rd (.arr .jac 51)) (.mul (.neg (.rd (.var .jTemp))) (.num 4304522 5))),
  .set (.arr .jac 29) (.add (.rd (.arr .jac 29)) (.mul (.rd (.var .jTemp)) (.num 42037279999999996 15)))]

/-- utilities/mechanisms/gri30/lib/src/jacobs/jacob_7.c:6716-6722 -/
def jacobT309 : List CStmt := [
  .set (.var .jTemp) (.mul (.mul (.div (.num 1 0) (.rd (.var .T))) (.sub (.mul (.rd (.arr .fwd 309)) (.neg (.num 1 0))) (.mul (.rd (.arr .rev 294)) (.add (.neg (.num 1 0)) (.mul (.neg (.rd (.var .T))) (.sub (.sub (.add (.rd (.arr .dBdT 28)) (.rd (.arr .dBdT 5))) (.rd (.arr .dBdT 50))) (.rd (.arr .dBdT 4)))))))) (.rd (.var .rhoInv))),
  .set (.arr .jac 29) (.add (.rd (.arr .jac 29)) (.mul (.rd (.var .jTemp)) (.num 42037279999999996 15))),
  .set (.arr .jac 51) (.add (.rd (.arr .jac 51)) (.mul (.neg (.rd (.var .jTemp))) (.num 4304522 5))),
  .set (.arr .jac 5) (.add (.rd (.arr .jac 5)) (.mul (.neg (.rd (.var .jTemp))) (.num 17007339999999999 15))),
  .set (.arr .jac 6) (.add (.rd (.arr .jac 6)) (.mul (.rd (.var .jTemp)) (.num 18015280000000001 15)))]

/-- utilities/mechanisms/gri30/lib/src/jacobs/jacob_7.c:6943-6949 -/
def jacobT310 : List CStmt := [
  .set (.var .jTemp) (.mul (.mul (.div (.num 1 0) (.rd (.var .T))) (.sub (.mul (.rd (.arr .fwd 310)) (.neg (.num 1 0))) (.mul (.rd (.arr .rev 295)) (.add (.neg (.num 1 0)) (.mul (.neg (.rd (.var .T))) (.sub (.sub (.add (.rd (.arr .dBdT 18)) (.rd (.arr .dBdT 16))) (.rd (.arr .dBdT 50))) (.rd (.arr .dBdT 4)))))))) (.rd (.var .rhoInv))),
  .set (.arr .jac 17) (.add (.rd (.arr .jac 17)) (.mul (.rd (.var .jTemp)) (.num 29018339999999998 15))),
  .set (.arr .jac 51) (.add (.rd (.arr .jac 51)) (.mul (.neg (.rd (.var .jTemp))) (.num 4304522 5))),
  .set (.arr .jac 5) (.add (.rd (.arr .jac 5)) (.mul (.neg (.rd (.var .jTemp))) (.num 17007339999999999 15))),
  .set (.arr .jac 19) (.add (.rd (.arr .jac 19)) (.mul (.rd (.var .jTemp)) (.num 31034219999999998 15)))]

/-- utilities/mechanisms/gri30/lib/src/jacobs/jacob_7.c:7170-7180 -/
def jacobT311 : List CStmt := [
  .set (.var .Pr) (.mul (.rd (.var .concTemp)) (.exp (.sub (.sub (.num 13460557302489494 14) (.mul (.num 1682 2) (.rd (.var .logT)))) (.div (.num 65745636148849599 13) (.rd (.var .T)))))),
  .set (.var .Fcent) (.add (.add (.mul (.num 84729999999999994 17) (.exp (.div (.rd (.var .T)) (.neg (.num 291 0))))) (.mul (.num 1527 4) (.exp (.div (.rd (.var .T)) (.neg (.num 2742 0)))))) (.exp (.div (.neg (.num 7748 0)) (.rd (.var .T))))),
  .set (.var .A) (.sub (.sub (.log10 (.fmax (.rd (.var .Pr)) (.num 1 300))) (.mul (.num 67 2) (.log10 (.fmax (.rd (.var .Fcent)) (.num 1 300))))) (.num 4 1)),
  .set (.var .B) (.sub (.sub (.num 806 3) (.mul (.num 11762 4) (.log10 (.fmax (.rd (.var .Fcent)) (.num 1 300))))) (.mul (.num 14 2) (.log10 (.fmax (.rd (.var .Pr)) (.num 1 300))))),
  .set (.var .lnFAB) (.div (.mul (.mul (.num 2 0) (.log (.fmax (.rd (.var .Fcent)) (.num 1 300)))) (.rd (.var .A))) (.mul (.mul (.mul (.mul (.rd (.var .B)) (.rd (.var .B))) (.rd (.var .B))) (.add (.num 1 0) (.div (.mul (.rd (.var .A)) (.rd (.var .A))) (.mul (.rd (.var .B)) (.rd (.var .B)))))) (.add (.num 1 0) (.div (.mul (.rd (.var .A)) (.rd (.var .A))) (.mul (.rd (.var .B)) (.rd (.var .B))))))),
  .set (.var .jTemp) (.mul (.add (.mul (.mul (.rd (.arr .presMod 38)) (.sub (.add (.div (.sub (.add (.neg (.num 1682 2)) (.div (.num 65745636148849599 13) (.rd (.var .T)))) (.num 1 0)) (.mul (.rd (.var .T)) (.add (.num 1 0) (.rd (.var .Pr))))) (.mul (.sub (.div (.num 1 0) (.mul (.rd (.var .Fcent)) (.add (.num 1 0) (.div (.mul (.rd (.var .A)) (.rd (.var .A))) (.mul (.rd (.var .B)) (.rd (.var .B))))))) (.div (.mul (.rd (.var .lnFAB)) (.add (.mul (.neg (.num 2909773028751787 16)) (.rd (.var .B))) (.mul (.num 51081716961460466 17) (.rd (.var .A))))) (.rd (.var .Fcent)))) (.add (.sub (.mul (.neg (.num 29116838487972508 19)) (.exp (.div (.rd (.var .T)) (.neg (.num 291 0))))) (.mul (.num 55689277899343547 21) (.exp (.div (.rd (.var .T)) (.neg (.num 2742 0)))))) (.mul (.div (.num 7748 0) (.mul (.rd (.var .T)) (.rd (.var .T)))) (.exp (.div (.neg (.num 7748 0)) (.rd (.var .T)))))))) (.div (.mul (.mul (.rd (.var .lnFAB)) (.add (.mul (.num 43429448190325176 17) (.rd (.var .B))) (.mul (.num 60801227466455256 18) (.rd (.var .A))))) (.sub (.add (.neg (.num 1682 2)) (.div (.num 65745636148849599 13) (.rd (.var .T)))) (.num 1 0))) (.rd (.var .T))))) (.sub (.rd (.arr .fwd 311)) (.rd (.arr .rev 296)))) (.mul (.div (.rd (.arr .presMod 38)) (.rd (.var .T))) (.sub (.mul (.rd (.arr .fwd 311)) (.neg (.num 1 0))) (.mul (.rd (.arr .rev 296)) (.mul (.neg (.rd (.var .T))) (.sub (.sub (.rd (.arr .dBdT 49)) (.rd (.arr .dBdT 25))) (.rd (.arr .dBdT 12)))))))) (.rd (.var .rhoInv))),
  .set (.arr .jac 26) (.add (.rd (.arr .jac 26)) (.mul (.neg (.rd (.var .jTemp))) (.num 29061699999999998 15))),
  .set (.arr .jac 13) (.add (.rd (.arr .jac 13)) (.mul (.neg (.rd (.var .jTemp))) (.num 1503482 5))),
  .set (.arr .jac 50) (.mul (.rd (.var .jTemp)) (.num 44096519999999998 15))]

/-- utilities/mechanisms/gri30/lib/src/jacobs/jacob_7.c:7351-7357 -/
def jacobT312 : List CStmt := [
  .set (.var .jTemp) (.mul (.mul (.div (.num 1 0) (.rd (.var .T))) (.sub (.add (.mul (.sub (.rd (.arr .fwd 312)) (.rd (.arr .rev 297))) (.add (.num 26800000000000002 16) (.div (.num 18699639030166484 13) (.rd (.var .T))))) (.mul (.rd (.arr .fwd 312)) (.neg (.num 1 0)))) (.mul (.rd (.arr .rev 297)) (.add (.neg (.num 1 0)) (.mul (.neg (.rd (.var .T))) (.sub (.sub (.add (.rd (.arr .dBdT 48)) (.rd (.arr .dBdT 4))) (.rd (.arr .dBdT 49))) (.rd (.arr .dBdT 2)))))))) (.rd (.var .rhoInv))),
  .set (.arr .jac 49) (.mul (.rd (.var .jTemp)) (.num 4308858 5)),
  .set (.arr .jac 50) (.add (.rd (.arr .jac 50)) (.mul (.neg (.rd (.var .jTemp))) (.num 44096519999999998 15))),
  .set (.arr .jac 3) (.add (.rd (.arr .jac 3)) (.mul (.neg (.rd (.var .jTemp))) (.num 159994 4))),
  .set (.arr .jac 5) (.add (.rd (.arr .jac 5)) (.mul (.rd (.var .jTemp)) (.num 17007339999999999 15)))]

/-- utilities/mechanisms/gri30/lib/src/jacobs/jacob_7.c:7578-7584 -/
def jacobT313 : List CStmt := [
  .set (.var .jTemp) (.mul (.mul (.div (.num 1 0) (.rd (.var .T))) (.sub (.add (.mul (.sub (.rd (.arr .fwd 313)) (.rd (.arr .rev 298))) (.add (.num 254 2) (.div (.num 33997513801885029 13) (.rd (.var .T))))) (.mul (.rd (.arr .fwd 313)) (.neg (.num 1 0)))) (.mul (.rd (.arr .rev 298)) (.add (.neg (.num 1 0)) (.mul (.neg (.rd (.var .T))) (.sub (.sub (.add (.rd (.arr .dBdT 0)) (.rd (.arr .dBdT 48))) (.rd (.arr .dBdT 1))) (.rd (.arr .dBdT 49)))))))) (.rd (.var .rhoInv))),
  .set (.arr .jac 1) (.add (.rd (.arr .jac 1)) (.mul (.rd (.var .jTemp)) (.num 20158800000000001 16))),
  .set (.arr .jac 2) (.add (.rd (.arr .jac 2)) (.mul (.neg (.rd (.var .jTemp))) (.num 10079400000000001 16))),
  .set (.arr .jac 49) (.add (.rd (.arr .jac 49)) (.mul (.rd (.var .jTemp)) (.num 4308858 5))),
  .set (.arr .jac 50) (.add (.rd (.arr .jac 50)) (.mul (.neg (.rd (.var .jTemp))) (.num 44096519999999998 15)))]

/-- utilities/mechanisms/gri30/lib/src/jacobs/jacob_7.c:7805-7811 -/
def jacobT314 : List CStmt := [
  .set (.var .jTemp) (.mul (.mul (.div (.num 1 0) (.rd (.var .T))) (.sub (.add (.mul (.sub (.rd (.arr .fwd 314)) (.rd (.arr .rev 299))) (.add (.num 18 1) (.div (.num 47000707357845789 14) (.rd (.var .T))))) (.mul (.rd (.arr .fwd 314)) (.neg (.num 1 0)))) (.mul (.rd (.arr .rev 299)) (.add (.neg (.num 1 0)) (.mul (.neg (.rd (.var .T))) (.sub (.sub (.add (.rd (.arr .dBdT 48)) (.rd (.arr .dBdT 5))) (.rd (.arr .dBdT 49))) (.rd (.arr .dBdT 4)))))))) (.rd (.var .rhoInv))),
  .set (.arr .jac 49) (.add (.rd (.arr .jac 49)) (.mul (.rd (.var .jTemp)) (.num 4308858 5))),
  .set (.arr .jac 50) (.add (.rd (.arr .jac 50)) (.mul (.neg (.rd (.var .jTemp))) (.num 44096519999999998 15))),
  .set (.arr .jac 5) (.add (.rd (.arr .jac 5)) (.mul (.neg (.rd (.var .jTemp))) (.num 17007339999999999 15))),
  .set (.arr .jac 6) (.add (.rd (.arr .jac 6)) (.mul (.rd (.var .jTemp)) (.num 18015280000000001 15)))]

/-- utilities/mechanisms/gri30/lib/src/jacobs/jacob_7.c:8032-8038 -/
def jacobT315 : List CStmt := [
  .set (.var .jTemp) (.mul (.mul (.div (.num 1 0) (.rd (.var .T))) (.sub (.add (.mul (.sub (.rd (.arr .fwd 315)) (.rd (.arr .rev 300))) (.add (.num 27200000000000002 16) (.div (.num 75482934728874397 14) (.rd (.var .T))))) (.mul (.rd (.arr .fwd 315)) (.neg (.num 1 0)))) (.mul (.rd (.arr .rev 300)) (.add (.neg (.num 1 0)) (.mul (.neg (.rd (.var .T))) (.sub (.sub (.add (.rd (.arr .dBdT 6)) (.rd (.arr .dBdT 49))) (.rd (.arr .dBdT 48))) (.rd (.arr .dBdT 7)))))))) (.rd (.var .rhoInv))),
  .set (.arr .jac 49) (.add (.rd (.arr .jac 49)) (.mul (.neg (.rd (.var .jTemp))) (.num 4308858 5))),
  .set (.arr .jac 50) (.add (.rd (.arr .jac 50)) (.mul (.rd (.var .jTemp)) (.num 44096519999999998 15))),
  .set (.arr .jac 7) (.add (.rd (.arr .jac 7)) (.mul (.rd (.var .jTemp)) (.num 33006740000000001 15))),
  .set (.arr .jac 8) (.add (.rd (.arr .jac 8)) (.mul (.neg (.rd (.var .jTemp))) (.num 34014679999999998 15)))]

/-- utilities/mechanisms/gri30/lib/src/jacobs/jacob_7.c:8259-8265 -/
def jacobT316 : List CStmt := [
  .set (.var .jTemp) (.mul (.mul (.div (.num 1 0) (.rd (.var .T))) (.sub (.add (.mul (.sub (.rd (.arr .fwd 316)) (.rd (.arr .rev 301))) (.add (.num 36499999999999999 16) (.div (.num 36000327670024494 13) (.rd (.var .T))))) (.mul (.rd (.arr .fwd 316)) (.neg (.num 1 0)))) (.mul (.rd (.arr .rev 301)) (.add (.neg (.num 1 0)) (.mul (.neg (.rd (.var .T))) (.sub (.sub (.add (.rd (.arr .dBdT 48)) (.rd (.arr .dBdT 13))) (.rd (.arr .dBdT 12))) (.rd (.arr .dBdT 49)))))))) (.rd (.var .rhoInv))),
  .set (.arr .jac 49) (.add (.rd (.arr .jac 49)) (.mul (.rd (.var .jTemp)) (.num 4308858 5))),
  .set (.arr .jac 50) (.add (.rd (.arr .jac 50)) (.mul (.neg (.rd (.var .jTemp))) (.num 44096519999999998 15))),
  .set (.arr .jac 13) (.add (.rd (.arr .jac 13)) (.mul (.neg (.rd (.var .jTemp))) (.num 1503482 5))),
  .set (.arr .jac 14) (.add (.rd (.arr .jac 14)) (.mul (.rd (.var .jTemp)) (.num 16042760000000001 15)))]

/-- utilities/mechanisms/gri30/lib/src/jacobs/jacob_7.c:8486-8496 -/
def jacobT317 : List CStmt := [
  .set (.var .Pr) (.mul (.rd (.var .concTemp)) (.exp (.sub (.sub (.num 12450211395117624 14) (.mul (.num 162 1) (.rd (.var .logT)))) (.div (.num 6275147973793757 12) (.rd (.var .T)))))),
  .set (.var .Fcent) (.add (.add (.mul (.num 81059999999999999 17) (.exp (.div (.rd (.var .T)) (.neg (.num 277 0))))) (.mul (.num 18940000000000001 17) (.exp (.div (.rd (.var .T)) (.neg (.num 8748 0)))))) (.exp (.div (.neg (.num 7891 0)) (.rd (.var .T))))),
  .set (.var .A) (.sub (.sub (.log10 (.fmax (.rd (.var .Pr)) (.num 1 300))) (.mul (.num 67 2) (.log10 (.fmax (.rd (.var .Fcent)) (.num 1 300))))) (.num 4 1)),
  .set (.var .B) (.sub (.sub (.num 806 3) (.mul (.num 11762 4) (.log10 (.fmax (.rd (.var .Fcent)) (.num 1 300))))) (.mul (.num 14 2) (.log10 (.fmax (.rd (.var .Pr)) (.num 1 300))))),
  .set (.var .lnFAB) (.div (.mul (.mul (.num 2 0) (.log (.fmax (.rd (.var .Fcent)) (.num 1 300)))) (.rd (.var .A))) (.mul (.mul (.mul (.mul (.rd (.var .B)) (.rd (.var .B))) (.rd (.var .B))) (.add (.num 1 0) (.div (.mul (.rd (.var .A)) (.rd (.var .A))) (.mul (.rd (.var .B)) (.rd (.var .B)))))) (.add (.num 1 0) (.div (.mul (.rd (.var .A)) (.rd (.var .A))) (.mul (.rd (.var .B)) (.rd (.var .B))))))),
  .set (.var .jTemp) (.mul (.add (.mul (.mul (.rd (.arr .presMod 39)) (.sub (.add (.div (.sub (.add (.neg (.num 162 1)) (.div (.num 6275147973793757 12) (.rd (.var .T)))) (.num 1 0)) (.mul (.rd (.var .T)) (.add (.num 1 0) (.rd (.var .Pr))))) (.mul (.sub (.div (.num 1 0) (.mul (.rd (.var .Fcent)) (.add (.num 1 0) (.div (.mul (.rd (.var .A)) (.rd (.var .A))) (.mul (.rd (.var .B)) (.rd (.var .B))))))) (.div (.mul (.rd (.var .lnFAB)) (.add (.mul (.neg (.num 2909773028751787 16)) (.rd (.var .B))) (.mul (.num 51081716961460466 17) (.rd (.var .A))))) (.rd (.var .Fcent)))) (.add (.sub (.mul (.neg (.num 29263537906137182 19)) (.exp (.div (.rd (.var .T)) (.neg (.num 277 0))))) (.mul (.num 216506630086877 19) (.exp (.div (.rd (.var .T)) (.neg (.num 8748 0)))))) (.mul (.div (.num 7891 0) (.mul (.rd (.var .T)) (.rd (.var .T)))) (.exp (.div (.neg (.num 7891 0)) (.rd (.var .T)))))))) (.div (.mul (.mul (.rd (.var .lnFAB)) (.add (.mul (.num 43429448190325176 17) (.rd (.var .B))) (.mul (.num 60801227466455256 18) (.rd (.var .A))))) (.sub (.add (.neg (.num 16199999999999999 15)) (.div (.num 6275147973793757 12) (.rd (.var .T)))) (.num 1 0))) (.rd (.var .T))))) (.sub (.rd (.arr .fwd 317)) (.rd (.arr .rev 302)))) (.mul (.div (.rd (.arr .presMod 39)) (.rd (.var .T))) (.sub (.add (.mul (.sub (.rd (.arr .fwd 317)) (.rd (.arr .rev 302))) (.add (.num 16000000000000001 16) (.div (.num 28683515196972271 13) (.rd (.var .T))))) (.mul (.rd (.arr .fwd 317)) (.neg (.num 1 0)))) (.mul (.rd (.arr .rev 302)) (.mul (.neg (.rd (.var .T))) (.sub (.sub (.rd (.arr .dBdT 48)) (.rd (.arr .dBdT 12))) (.rd (.arr .dBdT 24)))))))) (.rd (.var .rhoInv))),
  .set (.arr .jac 25) (.add (.rd (.arr .jac 25)) (.mul (.neg (.rd (.var .jTemp))) (.num 28053759999999997 15))),
  .set (.arr .jac 49) (.add (.rd (.arr .jac 49)) (.mul (.rd (.var .jTemp)) (.num 4308858 5))),
  .set (.arr .jac 13) (.add (.rd (.arr .jac 13)) (.mul (.neg (.rd (.var .jTemp))) (.num 1503482 5)))]

/-- utilities/mechanisms/gri30/lib/src/jacobs/jacob_7.c:8667-8673 -/
def jacobT318 : List CStmt := [
  .set (.var .jTemp) (.mul (.mul (.div (.num 1 0) (.rd (.var .T))) (.sub (.mul (.rd (.arr .fwd 318)) (.neg (.num 1 0))) (.mul (.rd (.arr .rev 303)) (.add (.neg (.num 1 0)) (.mul (.neg (.rd (.var .T))) (.sub (.sub (.add (.rd (.arr .dBdT 17)) (.rd (.arr .dBdT 25))) (.rd (.arr .dBdT 48))) (.rd (.arr .dBdT 2)))))))) (.rd (.var .rhoInv))),
  .set (.arr .jac 49) (.add (.rd (.arr .jac 49)) (.mul (.neg (.rd (.var .jTemp))) (.num 4308858 5))),
  .set (.arr .jac 18) (.add (.rd (.arr .jac 18)) (.mul (.rd (.var .jTemp)) (.num 3002628 5))),
  .set (.arr .jac 3) (.add (.rd (.arr .jac 3)) (.mul (.neg (.rd (.var .jTemp))) (.num 159994 4))),
  .set (.arr .jac 26) (.add (.rd (.arr .jac 26)) (.mul (.rd (.var .jTemp)) (.num 29061699999999998 15)))]

/-- utilities/mechanisms/gri30/lib/src/jacobs/jacob_7.c:8894-8904 -/
def jacobT319 : List CStmt := [
  .set (.var .Pr) (.mul (.rd (.var .concTemp)) (.exp (.sub (.sub (.num 10381793042865615 14) (.mul (.num 13545 3) (.rd (.var .logT)))) (.div (.num 57150645981055104 13) (.rd (.var .T)))))),
  .set (.var .Fcent) (.add (.add (.mul (.num 68500000000000005 17) (.exp (.div (.rd (.var .T)) (.neg (.num 369 0))))) (.mul (.num 315 3) (.exp (.div (.rd (.var .T)) (.neg (.num 32849999999999995 13)))))) (.exp (.div (.neg (.num 6667 0)) (.rd (.var .T))))),
  .set (.var .A) (.sub (.sub (.log10 (.fmax (.rd (.var .Pr)) (.num 1 300))) (.mul (.num 67 2) (.log10 (.fmax (.rd (.var .Fcent)) (.num 1 300))))) (.num 4 1)),
  .set (.var .B) (.sub (.sub (.num 806 3) (.mul (.num 11762 4) (.log10 (.fmax (.rd (.var .Fcent)) (.num 1 300))))) (.mul (.num 14 2) (.log10 (.fmax (.rd (.var .Pr)) (.num 1 300))))),
  .set (.var .lnFAB) (.div (.mul (.mul (.num 2 0) (.log (.fmax (.rd (.var .Fcent)) (.num 1 300)))) (.rd (.var .A))) (.mul (.mul (.mul (.mul (.rd (.var .B)) (.rd (.var .B))) (.rd (.var .B))) (.add (.num 1 0) (.div (.mul (.rd (.var .A)) (.rd (.var .A))) (.mul (.rd (.var .B)) (.rd (.var .B)))))) (.add (.num 1 0) (.div (.mul (.rd (.var .A)) (.rd (.var .A))) (.mul (.rd (.var .B)) (.rd (.var .B))))))),
  .set (.var .jTemp) (.mul (.add (.mul (.mul (.rd (.arr .presMod 40)) (.sub (.add (.div (.sub (.add (.neg (.num 13545 3)) (.div (.num 57150645981055104 13) (.rd (.var .T)))) (.num 1 0)) (.mul (.rd (.var .T)) (.add (.num 1 0) (.rd (.var .Pr))))) (.mul (.sub (.div (.num 1 0) (.mul (.rd (.var .Fcent)) (.add (.num 1 0) (.div (.mul (.rd (.var .A)) (.rd (.var .A))) (.mul (.rd (.var .B)) (.rd (.var .B))))))) (.div (.mul (.rd (.var .lnFAB)) (.add (.mul (.neg (.num 2909773028751787 16)) (.rd (.var .B))) (.mul (.num 51081716961460466 17) (.rd (.var .A))))) (.rd (.var .Fcent)))) (.add (.sub (.mul (.neg (.num 1856368563685637 18)) (.exp (.div (.rd (.var .T)) (.neg (.num 369 0))))) (.mul (.num 95890410958904119 21) (.exp (.div (.rd (.var .T)) (.neg (.num 32849999999999995 13)))))) (.mul (.div (.num 6667 0) (.mul (.rd (.var .T)) (.rd (.var .T)))) (.exp (.div (.neg (.num 6667 0)) (.rd (.var .T)))))))) (.div (.mul (.mul (.rd (.var .lnFAB)) (.add (.mul (.num 43429448190325176 17) (.rd (.var .B))) (.mul (.num 60801227466455256 18) (.rd (.var .A))))) (.sub (.add (.neg (.num 13545 3)) (.div (.num 57150645981055104 13) (.rd (.var .T)))) (.num 1 0))) (.rd (.var .T))))) (.sub (.rd (.arr .fwd 319)) (.rd (.arr .rev 304)))) (.mul (.div (.rd (.arr .presMod 40)) (.rd (.var .T))) (.sub (.mul (.rd (.arr .fwd 319)) (.neg (.num 1 0))) (.mul (.rd (.arr .rev 304)) (.mul (.neg (.rd (.var .T))) (.sub (.sub (.rd (.arr .dBdT 49)) (.rd (.arr .dBdT 48))) (.rd (.arr .dBdT 1)))))))) (.rd (.var .rhoInv))),
  .set (.arr .jac 49) (.add (.rd (.arr .jac 49)) (.mul (.neg (.rd (.var .jTemp))) (.num 4308858 5))),
  .set (.arr .jac 2) (.add (.rd (.arr .jac 2)) (.mul (.neg (.rd (.var .jTemp))) (.num 10079400000000001 16))),
  .set (.arr .jac 50) (.add (.rd (.arr .jac 50)) (.mul (.rd (.var .jTemp)) (.num 44096519999999998 15)))]

/-- The derivatives with respect to the temperature in `eval_jacob_7`, one block per reaction, utilities/mechanisms/gri30/lib/src/jacobs/jacob_7.c:5-9074. -/
def jacob7Blocks : List (List CStmt × List CStmt) := [
  (jacobT280, []), (jacobT281, []), (jacobT282, []), (jacobT283, []), (jacobT284, []), (jacobT285, []), (jacobT286, []), (jacobT287, []), (jacobT288, []), (jacobT289, []), (jacobT290, []), (jacobT291, []), (jacobT292, []), (jacobT293, []), (jacobT294, []), (jacobT295, []), (jacobT296, []), (jacobT297, []), (jacobT298, []), (jacobT299, []), (jacobT300, []), (jacobT301, []), (jacobT302, []), (jacobT303, []), (jacobT304, []), (jacobT305, []), (jacobT306, []), (jacobT307, []), (jacobT308, []), (jacobT309, []), (jacobT310, []), (jacobT311, []), (jacobT312, []), (jacobT313, []), (jacobT314, []), (jacobT315, []), (jacobT316, []), (jacobT317, []), (jacobT318, []), (jacobT319, [])]

end DLB.Mech.Gri30
