/- Generated by tools/gen_mechanisms.py from utilities/mechanisms/gri30/lib/src/jacobs/jacob_2.c. Do not edit. -/
import Verif.Model.CLang
set_option autoImplicit false
set_option maxRecDepth 1000000

namespace DLB.Mech.Gri30
open DLB

/-- utilities/mechanisms/gri30/lib/src/jacobs/jacob_2.c:5-17 -/
def jacob2Start : List CStmt := [
  .set (.var .logT) (.log (.rd (.var .T))),
  .set (.var .kf) (.num 0 0),
  .set (.var .jTemp) (.num 0 0),
  .set (.var .presModTemp) (.num 0 0),
  .set (.var .Kc) (.num 0 0),
  .set (.var .kr) (.num 0 0),
  .set (.var .Pr) (.num 0 0),
  .set (.var .Fcent) (.num 0 0),
  .set (.var .A) (.num 0 0),
  .set (.var .B) (.num 0 0),
  .set (.var .lnFAB) (.num 0 0),
  .set (.var .rhoInv) (.div (.num 1 0) (.rd (.var .rho)))]

/-- utilities/mechanisms/gri30/lib/src/jacobs/jacob_2.c:18-24 -/
def jacobT80 : List CStmt := [
  .set (.var .jTemp) (.mul (.mul (.div (.num 1 0) (.rd (.var .T))) (.sub (.add (.mul (.sub (.rd (.arr .fwd 80)) (.rd (.arr .rev 80))) (.div (.num 17250366683372094 13) (.rd (.var .T)))) (.mul (.rd (.arr .fwd 80)) (.neg (.num 1 0)))) (.mul (.rd (.arr .rev 80)) (.add (.neg (.num 1 0)) (.mul (.neg (.rd (.var .T))) (.sub (.sub (.add (.rd (.arr .dBdT 12)) (.rd (.arr .dBdT 14))) (.rd (.arr .dBdT 1))) (.rd (.arr .dBdT 28)))))))) (.rd (.var .rhoInv))),
  .set (.arr .jac 2) (.add (.rd (.arr .jac 2)) (.mul (.neg (.rd (.var .jTemp))) (.num 10079400000000001 16))),
  .set (.arr .jac 29) (.add (.rd (.arr .jac 29)) (.mul (.neg (.rd (.var .jTemp))) (.num 42037279999999996 15))),
  .set (.arr .jac 15) (.add (.rd (.arr .jac 15)) (.mul (.rd (.var .jTemp)) (.num 28010399999999997 15))),
  .set (.arr .jac 13) (.add (.rd (.arr .jac 13)) (.mul (.rd (.var .jTemp)) (.num 1503482 5)))]

/-- utilities/mechanisms/gri30/lib/src/jacobs/jacob_2.c:245-249 -/
def jacobT81 : List CStmt := [
  .set (.var .jTemp) (.mul (.mul (.div (.num 1 0) (.rd (.var .T))) (.sub (.mul (.rd (.arr .fwd 81)) (.neg (.num 1 0))) (.mul (.rd (.arr .rev 81)) (.add (.neg (.num 1 0)) (.mul (.neg (.rd (.var .T))) (.sub (.rd (.arr .dBdT 28)) (.rd (.arr .dBdT 29)))))))) (.rd (.var .rhoInv))),
  .set (.arr .jac 29) (.add (.rd (.arr .jac 29)) (.mul (.rd (.var .jTemp)) (.num 42037279999999996 15))),
  .set (.arr .jac 30) (.mul (.neg (.rd (.var .jTemp))) (.num 42037279999999996 15))]

/-- utilities/mechanisms/gri30/lib/src/jacobs/jacob_2.c:366-377 -/
def jacobT82 : List CStmt := [
  .set (.var .concTemp) (.sub (.add (.add (.add (.add (.add (.add (.rd (.var .m)) (.mul (.num 1 0) (.rd (.arr .C 0)))) (.mul (.num 5 0) (.rd (.arr .C 5)))) (.mul (.num 1 0) (.rd (.arr .C 13)))) (.mul (.num 5 1) (.rd (.arr .C 14)))) (.mul (.num 1 0) (.rd (.arr .C 15)))) (.mul (.num 2 0) (.rd (.arr .C 26)))) (.mul (.num 3 1) (.rd (.arr .C 47)))),
  .set (.var .Pr) (.mul (.rd (.var .concTemp)) (.exp (.sub (.sub (.num 39308672375802352 15) (.mul (.num 492 2) (.rd (.var .logT)))) (.div (.num 23902929330810221 13) (.rd (.var .T)))))),
  .set (.var .Fcent) (.add (.add (.mul (.num 67999999999999949 18) (.exp (.div (.rd (.var .T)) (.neg (.num 19700000000000003 14))))) (.mul (.num 93200000000000005 17) (.exp (.div (.rd (.var .T)) (.neg (.num 1540 0)))))) (.exp (.div (.neg (.num 10300 0)) (.rd (.var .T))))),
  .set (.var .A) (.sub (.sub (.log10 (.fmax (.rd (.var .Pr)) (.num 1 300))) (.mul (.num 67 2) (.log10 (.fmax (.rd (.var .Fcent)) (.num 1 300))))) (.num 4 1)),
  .set (.var .B) (.sub (.sub (.num 806 3) (.mul (.num 11762 4) (.log10 (.fmax (.rd (.var .Fcent)) (.num 1 300))))) (.mul (.num 14 2) (.log10 (.fmax (.rd (.var .Pr)) (.num 1 300))))),
  .set (.var .lnFAB) (.div (.mul (.mul (.num 2 0) (.log (.fmax (.rd (.var .Fcent)) (.num 1 300)))) (.rd (.var .A))) (.mul (.mul (.mul (.mul (.rd (.var .B)) (.rd (.var .B))) (.rd (.var .B))) (.add (.num 1 0) (.div (.mul (.rd (.var .A)) (.rd (.var .A))) (.mul (.rd (.var .B)) (.rd (.var .B)))))) (.add (.num 1 0) (.div (.mul (.rd (.var .A)) (.rd (.var .A))) (.mul (.rd (.var .B)) (.rd (.var .B))))))),
  .set (.var .jTemp) (.mul (.add (.mul (.mul (.rd (.arr .presMod 18)) (.sub (.add (.div (.sub (.add (.neg (.num 492 2)) (.div (.num 23902929330810221 13) (.rd (.var .T)))) (.num 1 0)) (.mul (.rd (.var .T)) (.add (.num 1 0) (.rd (.var .Pr))))) (.mul (.sub (.div (.num 1 0) (.mul (.rd (.var .Fcent)) (.add (.num 1 0) (.div (.mul (.rd (.var .A)) (.rd (.var .A))) (.mul (.rd (.var .B)) (.rd (.var .B))))))) (.div (.mul (.rd (.var .lnFAB)) (.add (.mul (.neg (.num 2909773028751787 16)) (.rd (.var .B))) (.mul (.num 51081716961460466 17) (.rd (.var .A))))) (.rd (.var .Fcent)))) (.add (.sub (.mul (.neg (.num 34517766497461899 20)) (.exp (.div (.rd (.var .T)) (.neg (.num 19700000000000003 14))))) (.mul (.num 60519480519480523 20) (.exp (.div (.rd (.var .T)) (.neg (.num 1540 0)))))) (.mul (.div (.num 10300 0) (.mul (.rd (.var .T)) (.rd (.var .T)))) (.exp (.div (.neg (.num 10300 0)) (.rd (.var .T)))))))) (.div (.mul (.mul (.rd (.var .lnFAB)) (.add (.mul (.num 43429448190325176 17) (.rd (.var .B))) (.mul (.num 60801227466455256 18) (.rd (.var .A))))) (.sub (.add (.neg (.num 49199999999999999 16)) (.div (.num 23902929330810221 13) (.rd (.var .T)))) (.num 1 0))) (.rd (.var .T))))) (.sub (.rd (.arr .fwd 82)) (.rd (.arr .rev 82)))) (.mul (.div (.rd (.arr .presMod 18)) (.rd (.var .T))) (.sub (.add (.mul (.sub (.rd (.arr .fwd 82)) (.rd (.arr .rev 82))) (.add (.num 15 1) (.div (.num 40056277362789348 12) (.rd (.var .T))))) (.mul (.rd (.arr .fwd 82)) (.neg (.num 1 0)))) (.mul (.rd (.arr .rev 82)) (.mul (.neg (.rd (.var .T))) (.sub (.sub (.rd (.arr .dBdT 17)) (.rd (.arr .dBdT 0))) (.rd (.arr .dBdT 14)))))))) (.rd (.var .rhoInv))),
  .set (.arr .jac 1) (.add (.rd (.arr .jac 1)) (.mul (.neg (.rd (.var .jTemp))) (.num 20158800000000001 16))),
  .set (.arr .jac 18) (.add (.rd (.arr .jac 18)) (.mul (.rd (.var .jTemp)) (.num 3002628 5))),
  .set (.arr .jac 15) (.add (.rd (.arr .jac 15)) (.mul (.neg (.rd (.var .jTemp))) (.num 28010399999999997 15)))]

/-- utilities/mechanisms/gri30/lib/src/jacobs/jacob_2.c:548-554 -/
def jacobT83 : List CStmt := [
  .set (.var .jTemp) (.mul (.mul (.div (.num 1 0) (.rd (.var .T))) (.sub (.add (.mul (.sub (.rd (.arr .fwd 83)) (.rd (.arr .rev 83))) (.add (.num 151 2) (.div (.num 17260431074669279 13) (.rd (.var .T))))) (.mul (.rd (.arr .fwd 83)) (.neg (.num 1 0)))) (.mul (.rd (.arr .rev 83)) (.add (.neg (.num 1 0)) (.mul (.neg (.rd (.var .T))) (.sub (.sub (.add (.rd (.arr .dBdT 1)) (.rd (.arr .dBdT 5))) (.rd (.arr .dBdT 0))) (.rd (.arr .dBdT 4)))))))) (.rd (.var .rhoInv))),
  .set (.arr .jac 1) (.add (.rd (.arr .jac 1)) (.mul (.neg (.rd (.var .jTemp))) (.num 20158800000000001 16))),
  .set (.arr .jac 2) (.add (.rd (.arr .jac 2)) (.mul (.rd (.var .jTemp)) (.num 10079400000000001 16))),
  .set (.arr .jac 5) (.add (.rd (.arr .jac 5)) (.mul (.neg (.rd (.var .jTemp))) (.num 17007339999999999 15))),
  .set (.arr .jac 6) (.add (.rd (.arr .jac 6)) (.mul (.rd (.var .jTemp)) (.num 18015280000000001 15)))]

/-- utilities/mechanisms/gri30/lib/src/jacobs/jacob_2.c:775-784 -/
def jacobT84 : List CStmt := [
  .set (.var .Pr) (.mul (.rd (.var .concTemp)) (.exp (.sub (.sub (.num 34365993087130713 16) (.mul (.num 53 2) (.rd (.var .logT)))) (.div (.neg (.num 85547326026057647 14)) (.rd (.var .T)))))),
  .set (.var .Fcent) (.add (.add (.mul (.num 26539999999999997 17) (.exp (.div (.rd (.var .T)) (.neg (.num 94 0))))) (.mul (.num 73460000000000003 17) (.exp (.div (.rd (.var .T)) (.neg (.num 1756 0)))))) (.exp (.div (.neg (.num 5182 0)) (.rd (.var .T))))),
  .set (.var .A) (.sub (.sub (.log10 (.fmax (.rd (.var .Pr)) (.num 1 300))) (.mul (.num 67 2) (.log10 (.fmax (.rd (.var .Fcent)) (.num 1 300))))) (.num 4 1)),
  .set (.var .B) (.sub (.sub (.num 806 3) (.mul (.num 11762 4) (.log10 (.fmax (.rd (.var .Fcent)) (.num 1 300))))) (.mul (.num 14 2) (.log10 (.fmax (.rd (.var .Pr)) (.num 1 300))))),
  .set (.var .lnFAB) (.div (.mul (.mul (.num 2 0) (.log (.fmax (.rd (.var .Fcent)) (.num 1 300)))) (.rd (.var .A))) (.mul (.mul (.mul (.mul (.rd (.var .B)) (.rd (.var .B))) (.rd (.var .B))) (.add (.num 1 0) (.div (.mul (.rd (.var .A)) (.rd (.var .A))) (.mul (.rd (.var .B)) (.rd (.var .B)))))) (.add (.num 1 0) (.div (.mul (.rd (.var .A)) (.rd (.var .A))) (.mul (.rd (.var .B)) (.rd (.var .B))))))),
  .set (.var .jTemp) (.mul (.add (.mul (.mul (.rd (.arr .presMod 19)) (.sub (.add (.div (.sub (.add (.neg (.num 53 2)) (.div (.neg (.num 85547326026057647 14)) (.rd (.var .T)))) (.num 1 0)) (.mul (.rd (.var .T)) (.add (.num 1 0) (.rd (.var .Pr))))) (.mul (.sub (.div (.num 1 0) (.mul (.rd (.var .Fcent)) (.add (.num 1 0) (.div (.mul (.rd (.var .A)) (.rd (.var .A))) (.mul (.rd (.var .B)) (.rd (.var .B))))))) (.div (.mul (.rd (.var .lnFAB)) (.add (.mul (.neg (.num 2909773028751787 16)) (.rd (.var .B))) (.mul (.num 51081716961460466 17) (.rd (.var .A))))) (.rd (.var .Fcent)))) (.add (.sub (.mul (.neg (.num 28234042553191485 19)) (.exp (.div (.rd (.var .T)) (.neg (.num 94 0))))) (.mul (.num 4183371298405467 19) (.exp (.div (.rd (.var .T)) (.neg (.num 1756 0)))))) (.mul (.div (.num 5182 0) (.mul (.rd (.var .T)) (.rd (.var .T)))) (.exp (.div (.neg (.num 5182 0)) (.rd (.var .T)))))))) (.div (.mul (.mul (.rd (.var .lnFAB)) (.add (.mul (.num 43429448190325176 17) (.rd (.var .B))) (.mul (.num 60801227466455256 18) (.rd (.var .A))))) (.sub (.add (.neg (.num 53000000000000003 17)) (.div (.neg (.num 85547326026057647 14)) (.rd (.var .T)))) (.num 1 0))) (.rd (.var .T))))) (.sub (.rd (.arr .fwd 84)) (.rd (.arr .rev 84)))) (.mul (.div (.rd (.arr .presMod 19)) (.rd (.var .T))) (.sub (.add (.mul (.sub (.rd (.arr .fwd 84)) (.rd (.arr .rev 84))) (.neg (.num 37 2))) (.mul (.rd (.arr .fwd 84)) (.neg (.num 1 0)))) (.mul (.rd (.arr .rev 84)) (.mul (.neg (.rd (.var .T))) (.sub (.rd (.arr .dBdT 7)) (.mul (.num 2 0) (.rd (.arr .dBdT 4))))))))) (.rd (.var .rhoInv))),
  .set (.arr .jac 5) (.add (.rd (.arr .jac 5)) (.mul (.mul (.rd (.var .jTemp)) (.neg (.num 2 0))) (.num 17007339999999999 15))),
  .set (.arr .jac 8) (.add (.rd (.arr .jac 8)) (.mul (.rd (.var .jTemp)) (.num 34014679999999998 15)))]

/-- utilities/mechanisms/gri30/lib/src/jacobs/jacob_2.c:903-908 -/
def jacobT85 : List CStmt := [
  .set (.var .jTemp) (.mul (.mul (.div (.num 1 0) (.rd (.var .T))) (.sub (.add (.mul (.sub (.rd (.arr .fwd 85)) (.rd (.arr .rev 85))) (.add (.num 23999999999999999 16) (.div (.neg (.num 10617932818528332 13)) (.rd (.var .T))))) (.mul (.rd (.arr .fwd 85)) (.neg (.num 1 0)))) (.mul (.rd (.arr .rev 85)) (.add (.neg (.num 1 0)) (.mul (.neg (.rd (.var .T))) (.sub (.add (.rd (.arr .dBdT 5)) (.rd (.arr .dBdT 2))) (.mul (.num 2 0) (.rd (.arr .dBdT 4))))))))) (.rd (.var .rhoInv))),
  .set (.arr .jac 3) (.add (.rd (.arr .jac 3)) (.mul (.rd (.var .jTemp)) (.num 159994 4))),
  .set (.arr .jac 5) (.add (.rd (.arr .jac 5)) (.mul (.mul (.rd (.var .jTemp)) (.neg (.num 2 0))) (.num 17007339999999999 15))),
  .set (.arr .jac 6) (.add (.rd (.arr .jac 6)) (.mul (.rd (.var .jTemp)) (.num 18015280000000001 15)))]

/-- utilities/mechanisms/gri30/lib/src/jacobs/jacob_2.c:1077-1083 -/
def jacobT86 : List CStmt := [
  .set (.var .jTemp) (.mul (.mul (.div (.num 1 0) (.rd (.var .T))) (.sub (.add (.mul (.sub (.rd (.arr .fwd 86)) (.rd (.arr .rev 86))) (.div (.neg (.num 25160978242958132 14)) (.rd (.var .T)))) (.mul (.rd (.arr .fwd 86)) (.neg (.num 1 0)))) (.mul (.rd (.arr .rev 86)) (.add (.neg (.num 1 0)) (.mul (.neg (.rd (.var .T))) (.sub (.sub (.add (.rd (.arr .dBdT 5)) (.rd (.arr .dBdT 3))) (.rd (.arr .dBdT 6))) (.rd (.arr .dBdT 4)))))))) (.rd (.var .rhoInv))),
  .set (.arr .jac 4) (.add (.rd (.arr .jac 4)) (.mul (.rd (.var .jTemp)) (.num 31998799999999999 15))),
  .set (.arr .jac 5) (.add (.rd (.arr .jac 5)) (.mul (.neg (.rd (.var .jTemp))) (.num 17007339999999999 15))),
  .set (.arr .jac 6) (.add (.rd (.arr .jac 6)) (.mul (.rd (.var .jTemp)) (.num 18015280000000001 15))),
  .set (.arr .jac 7) (.add (.rd (.arr .jac 7)) (.mul (.neg (.rd (.var .jTemp))) (.num 33006740000000001 15)))]

/-- utilities/mechanisms/gri30/lib/src/jacobs/jacob_2.c:1304-1310 -/
def jacobT87 : List CStmt := [
  .set (.var .jTemp) (.mul (.mul (.div (.num 1 0) (.rd (.var .T))) (.sub (.add (.mul (.sub (.rd (.arr .fwd 87)) (.rd (.arr .rev 87))) (.div (.num 21487475419486245 14) (.rd (.var .T)))) (.mul (.rd (.arr .fwd 87)) (.neg (.num 1 0)))) (.mul (.rd (.arr .rev 87)) (.add (.neg (.num 1 0)) (.mul (.neg (.rd (.var .T))) (.sub (.sub (.add (.rd (.arr .dBdT 5)) (.rd (.arr .dBdT 6))) (.rd (.arr .dBdT 7))) (.rd (.arr .dBdT 4)))))))) (.rd (.var .rhoInv))),
  .set (.arr .jac 5) (.add (.rd (.arr .jac 5)) (.mul (.neg (.rd (.var .jTemp))) (.num 17007339999999999 15))),
  .set (.arr .jac 6) (.add (.rd (.arr .jac 6)) (.mul (.rd (.var .jTemp)) (.num 18015280000000001 15))),
  .set (.arr .jac 7) (.add (.rd (.arr .jac 7)) (.mul (.rd (.var .jTemp)) (.num 33006740000000001 15))),
  .set (.arr .jac 8) (.add (.rd (.arr .jac 8)) (.mul (.neg (.rd (.var .jTemp))) (.num 34014679999999998 15)))]

/-- utilities/mechanisms/gri30/lib/src/jacobs/jacob_2.c:1531-1537 -/
def jacobT88 : List CStmt := [
  .set (.var .jTemp) (.mul (.mul (.div (.num 1 0) (.rd (.var .T))) (.sub (.add (.mul (.sub (.rd (.arr .fwd 88)) (.rd (.arr .rev 88))) (.div (.num 14799687402507972 12) (.rd (.var .T)))) (.mul (.rd (.arr .fwd 88)) (.neg (.num 1 0)))) (.mul (.rd (.arr .rev 88)) (.add (.neg (.num 1 0)) (.mul (.neg (.rd (.var .T))) (.sub (.sub (.add (.rd (.arr .dBdT 5)) (.rd (.arr .dBdT 6))) (.rd (.arr .dBdT 7))) (.rd (.arr .dBdT 4)))))))) (.rd (.var .rhoInv))),
  .set (.arr .jac 5) (.add (.rd (.arr .jac 5)) (.mul (.neg (.rd (.var .jTemp))) (.num 17007339999999999 15))),
  .set (.arr .jac 6) (.add (.rd (.arr .jac 6)) (.mul (.rd (.var .jTemp)) (.num 18015280000000001 15))),
  .set (.arr .jac 7) (.add (.rd (.arr .jac 7)) (.mul (.rd (.var .jTemp)) (.num 33006740000000001 15))),
  .set (.arr .jac 8) (.add (.rd (.arr .jac 8)) (.mul (.neg (.rd (.var .jTemp))) (.num 34014679999999998 15)))]

/-- utilities/mechanisms/gri30/lib/src/jacobs/jacob_2.c:1758-1764 -/
def jacobT89 : List CStmt := [
  .set (.var .jTemp) (.mul (.mul (.div (.num 1 0) (.rd (.var .T))) (.sub (.mul (.rd (.arr .fwd 89)) (.neg (.num 1 0))) (.mul (.rd (.arr .rev 89)) (.add (.neg (.num 1 0)) (.mul (.neg (.rd (.var .T))) (.sub (.sub (.add (.rd (.arr .dBdT 1)) (.rd (.arr .dBdT 14))) (.rd (.arr .dBdT 8))) (.rd (.arr .dBdT 4)))))))) (.rd (.var .rhoInv))),
  .set (.arr .jac 9) (.add (.rd (.arr .jac 9)) (.mul (.neg (.rd (.var .jTemp))) (.num 12010999999999999 15))),
  .set (.arr .jac 2) (.add (.rd (.arr .jac 2)) (.mul (.rd (.var .jTemp)) (.num 10079400000000001 16))),
  .set (.arr .jac 5) (.add (.rd (.arr .jac 5)) (.mul (.neg (.rd (.var .jTemp))) (.num 17007339999999999 15))),
  .set (.arr .jac 15) (.add (.rd (.arr .jac 15)) (.mul (.rd (.var .jTemp)) (.num 28010399999999997 15)))]

/-- utilities/mechanisms/gri30/lib/src/jacobs/jacob_2.c:1985-1991 -/
def jacobT90 : List CStmt := [
  .set (.var .jTemp) (.mul (.mul (.div (.num 1 0) (.rd (.var .T))) (.sub (.mul (.rd (.arr .fwd 90)) (.neg (.num 1 0))) (.mul (.rd (.arr .rev 90)) (.add (.neg (.num 1 0)) (.mul (.neg (.rd (.var .T))) (.sub (.sub (.add (.rd (.arr .dBdT 1)) (.rd (.arr .dBdT 16))) (.rd (.arr .dBdT 9))) (.rd (.arr .dBdT 4)))))))) (.rd (.var .rhoInv))),
  .set (.arr .jac 17) (.add (.rd (.arr .jac 17)) (.mul (.rd (.var .jTemp)) (.num 29018339999999998 15))),
  .set (.arr .jac 10) (.add (.rd (.arr .jac 10)) (.mul (.neg (.rd (.var .jTemp))) (.num 13018939999999999 15))),
  .set (.arr .jac 5) (.add (.rd (.arr .jac 5)) (.mul (.neg (.rd (.var .jTemp))) (.num 17007339999999999 15))),
  .set (.arr .jac 2) (.add (.rd (.arr .jac 2)) (.mul (.rd (.var .jTemp)) (.num 10079400000000001 16)))]

/-- utilities/mechanisms/gri30/lib/src/jacobs/jacob_2.c:2212-2218 -/
def jacobT91 : List CStmt := [
  .set (.var .jTemp) (.mul (.mul (.div (.num 1 0) (.rd (.var .T))) (.sub (.mul (.rd (.arr .fwd 91)) (.neg (.num 1 0))) (.mul (.rd (.arr .rev 91)) (.add (.neg (.num 1 0)) (.mul (.neg (.rd (.var .T))) (.sub (.sub (.add (.rd (.arr .dBdT 17)) (.rd (.arr .dBdT 1))) (.rd (.arr .dBdT 10))) (.rd (.arr .dBdT 4)))))))) (.rd (.var .rhoInv))),
  .set (.arr .jac 18) (.add (.rd (.arr .jac 18)) (.mul (.rd (.var .jTemp)) (.num 3002628 5))),
  .set (.arr .jac 11) (.add (.rd (.arr .jac 11)) (.mul (.neg (.rd (.var .jTemp))) (.num 14026879999999998 15))),
  .set (.arr .jac 5) (.add (.rd (.arr .jac 5)) (.mul (.neg (.rd (.var .jTemp))) (.num 17007339999999999 15))),
  .set (.arr .jac 2) (.add (.rd (.arr .jac 2)) (.mul (.rd (.var .jTemp)) (.num 10079400000000001 16)))]

/-- utilities/mechanisms/gri30/lib/src/jacobs/jacob_2.c:2439-2445 -/
def jacobT92 : List CStmt := [
  .set (.var .jTemp) (.mul (.mul (.div (.num 1 0) (.rd (.var .T))) (.sub (.add (.mul (.sub (.rd (.arr .fwd 92)) (.rd (.arr .rev 92))) (.add (.num 2 0) (.div (.num 15096586945774879 13) (.rd (.var .T))))) (.mul (.rd (.arr .fwd 92)) (.neg (.num 1 0)))) (.mul (.rd (.arr .rev 92)) (.add (.neg (.num 1 0)) (.mul (.neg (.rd (.var .T))) (.sub (.sub (.add (.rd (.arr .dBdT 5)) (.rd (.arr .dBdT 9))) (.rd (.arr .dBdT 10))) (.rd (.arr .dBdT 4)))))))) (.rd (.var .rhoInv))),
  .set (.arr .jac 10) (.add (.rd (.arr .jac 10)) (.mul (.rd (.var .jTemp)) (.num 13018939999999999 15))),
  .set (.arr .jac 11) (.add (.rd (.arr .jac 11)) (.mul (.neg (.rd (.var .jTemp))) (.num 14026879999999998 15))),
  .set (.arr .jac 5) (.add (.rd (.arr .jac 5)) (.mul (.neg (.rd (.var .jTemp))) (.num 17007339999999999 15))),
  .set (.arr .jac 6) (.add (.rd (.arr .jac 6)) (.mul (.rd (.var .jTemp)) (.num 18015280000000001 15)))]

/-- utilities/mechanisms/gri30/lib/src/jacobs/jacob_2.c:2666-2672 -/
def jacobT93 : List CStmt := [
  .set (.var .jTemp) (.mul (.mul (.div (.num 1 0) (.rd (.var .T))) (.sub (.mul (.rd (.arr .fwd 93)) (.neg (.num 1 0))) (.mul (.rd (.arr .rev 93)) (.add (.neg (.num 1 0)) (.mul (.neg (.rd (.var .T))) (.sub (.sub (.add (.rd (.arr .dBdT 17)) (.rd (.arr .dBdT 1))) (.rd (.arr .dBdT 11))) (.rd (.arr .dBdT 4)))))))) (.rd (.var .rhoInv))),
  .set (.arr .jac 18) (.add (.rd (.arr .jac 18)) (.mul (.rd (.var .jTemp)) (.num 3002628 5))),
  .set (.arr .jac 12) (.add (.rd (.arr .jac 12)) (.mul (.neg (.rd (.var .jTemp))) (.num 14026879999999998 15))),
  .set (.arr .jac 5) (.add (.rd (.arr .jac 5)) (.mul (.neg (.rd (.var .jTemp))) (.num 17007339999999999 15))),
  .set (.arr .jac 2) (.add (.rd (.arr .jac 2)) (.mul (.rd (.var .jTemp)) (.num 10079400000000001 16)))]

/-- utilities/mechanisms/gri30/lib/src/jacobs/jacob_2.c:2893-2904 -/
def jacobT94 : List CStmt := [
  .set (.var .concTemp) (.add (.rd (.var .concTemp)) (.mul (.num 3 1) (.rd (.arr .C 47)))),
  .set (.var .Pr) (.mul (.rd (.var .concTemp)) (.exp (.sub (.sub (.num 34899029160197301 15) (.mul (.num 449 2) (.rd (.var .logT)))) (.div (.num 91082741239508448 14) (.rd (.var .T)))))),
  .set (.var .Fcent) (.add (.add (.mul (.num 58800000000000008 17) (.exp (.div (.rd (.var .T)) (.neg (.num 195 0))))) (.mul (.num 41199999999999998 17) (.exp (.div (.rd (.var .T)) (.neg (.num 5900 0)))))) (.exp (.div (.neg (.num 6394 0)) (.rd (.var .T))))),
  .set (.var .A) (.sub (.sub (.log10 (.fmax (.rd (.var .Pr)) (.num 1 300))) (.mul (.num 67 2) (.log10 (.fmax (.rd (.var .Fcent)) (.num 1 300))))) (.num 4 1)),
  .set (.var .B) (.sub (.sub (.num 806 3) (.mul (.num 11762 4) (.log10 (.fmax (.rd (.var .Fcent)) (.num 1 300))))) (.mul (.num 14 2) (.log10 (.fmax (.rd (.var .Pr)) (.num 1 300))))),
  .set (.var .lnFAB) (.div (.mul (.mul (.num 2 0) (.log (.fmax (.rd (.var .Fcent)) (.num 1 300)))) (.rd (.var .A))) (.mul (.mul (.mul (.mul (.rd (.var .B)) (.rd (.var .B))) (.rd (.var .B))) (.add (.num 1 0) (.div (.mul (.rd (.var .A)) (.rd (.var .A))) (.mul (.rd (.var .B)) (.rd (.var .B)))))) (.add (.num 1 0) (.div (.mul (.rd (.var .A)) (.rd (.var .A))) (.mul (.rd (.var .B)) (.rd (.var .B))))))),
  .set (.var .jTemp) (.mul (.add (.mul (.mul (.rd (.arr .presMod 20)) (.sub (.add (.div (.sub (.add (.neg (.num 449 2)) (.div (.num 91082741239508448 14) (.rd (.var .T)))) (.num 1 0)) (.mul (.rd (.var .T)) (.add (.num 1 0) (.rd (.var .Pr))))) (.mul (.sub (.div (.num 1 0) (.mul (.rd (.var .Fcent)) (.add (.num 1 0) (.div (.mul (.rd (.var .A)) (.rd (.var .A))) (.mul (.rd (.var .B)) (.rd (.var .B))))))) (.div (.mul (.rd (.var .lnFAB)) (.add (.mul (.neg (.num 2909773028751787 16)) (.rd (.var .B))) (.mul (.num 51081716961460466 17) (.rd (.var .A))))) (.rd (.var .Fcent)))) (.add (.sub (.mul (.neg (.num 3015384615384616 18)) (.exp (.div (.rd (.var .T)) (.neg (.num 195 0))))) (.mul (.num 69830508474576274 21) (.exp (.div (.rd (.var .T)) (.neg (.num 5900 0)))))) (.mul (.div (.num 6394 0) (.mul (.rd (.var .T)) (.rd (.var .T)))) (.exp (.div (.neg (.num 6394 0)) (.rd (.var .T)))))))) (.div (.mul (.mul (.rd (.var .lnFAB)) (.add (.mul (.num 43429448190325176 17) (.rd (.var .B))) (.mul (.num 60801227466455256 18) (.rd (.var .A))))) (.sub (.add (.neg (.num 44900000000000002 16)) (.div (.num 91082741239508448 14) (.rd (.var .T)))) (.num 1 0))) (.rd (.var .T))))) (.sub (.rd (.arr .fwd 94)) (.rd (.arr .rev 94)))) (.mul (.div (.rd (.arr .presMod 20)) (.rd (.var .T))) (.sub (.add (.mul (.sub (.rd (.arr .fwd 94)) (.rd (.arr .rev 94))) (.add (.neg (.num 14299999999999999 16)) (.div (.num 66928202126268627 14) (.rd (.var .T))))) (.mul (.rd (.arr .fwd 94)) (.neg (.num 1 0)))) (.mul (.rd (.arr .rev 94)) (.mul (.neg (.rd (.var .T))) (.sub (.sub (.rd (.arr .dBdT 20)) (.rd (.arr .dBdT 12))) (.rd (.arr .dBdT 4)))))))) (.rd (.var .rhoInv))),
  .set (.arr .jac 5) (.add (.rd (.arr .jac 5)) (.mul (.neg (.rd (.var .jTemp))) (.num 17007339999999999 15))),
  .set (.arr .jac 13) (.add (.rd (.arr .jac 13)) (.mul (.neg (.rd (.var .jTemp))) (.num 1503482 5))),
  .set (.arr .jac 21) (.add (.rd (.arr .jac 21)) (.mul (.rd (.var .jTemp)) (.num 32042159999999996 15)))]

/-- utilities/mechanisms/gri30/lib/src/jacobs/jacob_2.c:3075-3081 -/
def jacobT95 : List CStmt := [
  .set (.var .jTemp) (.mul (.mul (.div (.num 1 0) (.rd (.var .T))) (.sub (.add (.mul (.sub (.rd (.arr .fwd 95)) (.rd (.arr .rev 95))) (.add (.num 16000000000000001 16) (.div (.num 27274500415366615 13) (.rd (.var .T))))) (.mul (.rd (.arr .fwd 95)) (.neg (.num 1 0)))) (.mul (.rd (.arr .rev 95)) (.add (.neg (.num 1 0)) (.mul (.neg (.rd (.var .T))) (.sub (.sub (.add (.rd (.arr .dBdT 10)) (.rd (.arr .dBdT 5))) (.rd (.arr .dBdT 12))) (.rd (.arr .dBdT 4)))))))) (.rd (.var .rhoInv))),
  .set (.arr .jac 5) (.add (.rd (.arr .jac 5)) (.mul (.neg (.rd (.var .jTemp))) (.num 17007339999999999 15))),
  .set (.arr .jac 11) (.add (.rd (.arr .jac 11)) (.mul (.rd (.var .jTemp)) (.num 14026879999999998 15))),
  .set (.arr .jac 13) (.add (.rd (.arr .jac 13)) (.mul (.neg (.rd (.var .jTemp))) (.num 1503482 5))),
  .set (.arr .jac 6) (.add (.rd (.arr .jac 6)) (.mul (.rd (.var .jTemp)) (.num 18015280000000001 15)))]

/-- utilities/mechanisms/gri30/lib/src/jacobs/jacob_2.c:3302-3308 -/
def jacobT96 : List CStmt := [
  .set (.var .jTemp) (.mul (.mul (.div (.num 1 0) (.rd (.var .T))) (.sub (.add (.mul (.sub (.rd (.arr .fwd 96)) (.rd (.arr .rev 96))) (.add (.neg (.num 13400000000000001 16)) (.div (.num 71306212340543345 14) (.rd (.var .T))))) (.mul (.rd (.arr .fwd 96)) (.neg (.num 1 0)))) (.mul (.rd (.arr .rev 96)) (.add (.neg (.num 1 0)) (.mul (.neg (.rd (.var .T))) (.sub (.sub (.add (.rd (.arr .dBdT 11)) (.rd (.arr .dBdT 5))) (.rd (.arr .dBdT 12))) (.rd (.arr .dBdT 4)))))))) (.rd (.var .rhoInv))),
  .set (.arr .jac 5) (.add (.rd (.arr .jac 5)) (.mul (.neg (.rd (.var .jTemp))) (.num 17007339999999999 15))),
  .set (.arr .jac 12) (.add (.rd (.arr .jac 12)) (.mul (.rd (.var .jTemp)) (.num 14026879999999998 15))),
  .set (.arr .jac 13) (.add (.rd (.arr .jac 13)) (.mul (.neg (.rd (.var .jTemp))) (.num 1503482 5))),
  .set (.arr .jac 6) (.add (.rd (.arr .jac 6)) (.mul (.rd (.var .jTemp)) (.num 18015280000000001 15)))]

/-- utilities/mechanisms/gri30/lib/src/jacobs/jacob_2.c:3529-3535 -/
def jacobT97 : List CStmt := [
  .set (.var .jTemp) (.mul (.mul (.div (.num 1 0) (.rd (.var .T))) (.sub (.add (.mul (.sub (.rd (.arr .fwd 97)) (.rd (.arr .rev 97))) (.add (.num 16000000000000001 16) (.div (.num 15700450423605873 13) (.rd (.var .T))))) (.mul (.rd (.arr .fwd 97)) (.neg (.num 1 0)))) (.mul (.rd (.arr .rev 97)) (.add (.neg (.num 1 0)) (.mul (.neg (.rd (.var .T))) (.sub (.sub (.add (.rd (.arr .dBdT 5)) (.rd (.arr .dBdT 12))) (.rd (.arr .dBdT 13))) (.rd (.arr .dBdT 4)))))))) (.rd (.var .rhoInv))),
  .set (.arr .jac 13) (.add (.rd (.arr .jac 13)) (.mul (.rd (.var .jTemp)) (.num 1503482 5))),
  .set (.arr .jac 5) (.add (.rd (.arr .jac 5)) (.mul (.neg (.rd (.var .jTemp))) (.num 17007339999999999 15))),
  .set (.arr .jac 14) (.add (.rd (.arr .jac 14)) (.mul (.neg (.rd (.var .jTemp))) (.num 16042760000000001 15))),
  .set (.arr .jac 6) (.add (.rd (.arr .jac 6)) (.mul (.rd (.var .jTemp)) (.num 18015280000000001 15)))]

/-- utilities/mechanisms/gri30/lib/src/jacobs/jacob_2.c:3756-3762 -/
def jacobT98 : List CStmt := [
  .set (.var .jTemp) (.mul (.mul (.div (.num 1 0) (.rd (.var .T))) (.sub (.add (.mul (.sub (.rd (.arr .fwd 98)) (.rd (.arr .rev 98))) (.add (.num 1228 3) (.div (.num 35225369540141386 15) (.rd (.var .T))))) (.mul (.rd (.arr .fwd 98)) (.neg (.num 1 0)))) (.mul (.rd (.arr .rev 98)) (.add (.neg (.num 1 0)) (.mul (.neg (.rd (.var .T))) (.sub (.sub (.add (.rd (.arr .dBdT 1)) (.rd (.arr .dBdT 15))) (.rd (.arr .dBdT 14))) (.rd (.arr .dBdT 4)))))))) (.rd (.var .rhoInv))),
  .set (.arr .jac 2) (.add (.rd (.arr .jac 2)) (.mul (.rd (.var .jTemp)) (.num 10079400000000001 16))),
  .set (.arr .jac 5) (.add (.rd (.arr .jac 5)) (.mul (.neg (.rd (.var .jTemp))) (.num 17007339999999999 15))),
  .set (.arr .jac 15) (.add (.rd (.arr .jac 15)) (.mul (.neg (.rd (.var .jTemp))) (.num 28010399999999997 15))),
  .set (.arr .jac 16) (.add (.rd (.arr .jac 16)) (.mul (.rd (.var .jTemp)) (.num 44009799999999998 15)))]

/-- utilities/mechanisms/gri30/lib/src/jacobs/jacob_2.c:3983-3989 -/
def jacobT99 : List CStmt := [
  .set (.var .jTemp) (.mul (.mul (.div (.num 1 0) (.rd (.var .T))) (.sub (.mul (.rd (.arr .fwd 99)) (.neg (.num 1 0))) (.mul (.rd (.arr .rev 99)) (.add (.neg (.num 1 0)) (.mul (.neg (.rd (.var .T))) (.sub (.sub (.add (.rd (.arr .dBdT 5)) (.rd (.arr .dBdT 14))) (.rd (.arr .dBdT 16))) (.rd (.arr .dBdT 4)))))))) (.rd (.var .rhoInv))),
  .set (.arr .jac 17) (.add (.rd (.arr .jac 17)) (.mul (.neg (.rd (.var .jTemp))) (.num 29018339999999998 15))),
  .set (.arr .jac 5) (.add (.rd (.arr .jac 5)) (.mul (.neg (.rd (.var .jTemp))) (.num 17007339999999999 15))),
  .set (.arr .jac 6) (.add (.rd (.arr .jac 6)) (.mul (.rd (.var .jTemp)) (.num 18015280000000001 15))),
  .set (.arr .jac 15) (.add (.rd (.arr .jac 15)) (.mul (.rd (.var .jTemp)) (.num 28010399999999997 15)))]

/-- utilities/mechanisms/gri30/lib/src/jacobs/jacob_2.c:4210-4216 -/
def jacobT100 : List CStmt := [
  .set (.var .jTemp) (.mul (.mul (.div (.num 1 0) (.rd (.var .T))) (.sub (.add (.mul (.sub (.rd (.arr .fwd 100)) (.rd (.arr .rev 100))) (.add (.num 11799999999999999 16) (.div (.neg (.num 2249391454920457 13)) (.rd (.var .T))))) (.mul (.rd (.arr .fwd 100)) (.neg (.num 1 0)))) (.mul (.rd (.arr .rev 100)) (.add (.neg (.num 1 0)) (.mul (.neg (.rd (.var .T))) (.sub (.sub (.add (.rd (.arr .dBdT 5)) (.rd (.arr .dBdT 16))) (.rd (.arr .dBdT 17))) (.rd (.arr .dBdT 4)))))))) (.rd (.var .rhoInv))),
  .set (.arr .jac 17) (.add (.rd (.arr .jac 17)) (.mul (.rd (.var .jTemp)) (.num 29018339999999998 15))),
  .set (.arr .jac 18) (.add (.rd (.arr .jac 18)) (.mul (.neg (.rd (.var .jTemp))) (.num 3002628 5))),
  .set (.arr .jac 5) (.add (.rd (.arr .jac 5)) (.mul (.neg (.rd (.var .jTemp))) (.num 17007339999999999 15))),
  .set (.arr .jac 6) (.add (.rd (.arr .jac 6)) (.mul (.rd (.var .jTemp)) (.num 18015280000000001 15)))]

/-- utilities/mechanisms/gri30/lib/src/jacobs/jacob_2.c:4437-4443 -/
def jacobT101 : List CStmt := [
  .set (.var .jTemp) (.mul (.mul (.div (.num 1 0) (.rd (.var .T))) (.sub (.mul (.rd (.arr .fwd 101)) (.neg (.num 1 0))) (.mul (.rd (.arr .rev 101)) (.add (.neg (.num 1 0)) (.mul (.neg (.rd (.var .T))) (.sub (.sub (.add (.rd (.arr .dBdT 17)) (.rd (.arr .dBdT 5))) (.rd (.arr .dBdT 18))) (.rd (.arr .dBdT 4)))))))) (.rd (.var .rhoInv))),
  .set (.arr .jac 18) (.add (.rd (.arr .jac 18)) (.mul (.rd (.var .jTemp)) (.num 3002628 5))),
  .set (.arr .jac 19) (.add (.rd (.arr .jac 19)) (.mul (.neg (.rd (.var .jTemp))) (.num 31034219999999998 15))),
  .set (.arr .jac 5) (.add (.rd (.arr .jac 5)) (.mul (.neg (.rd (.var .jTemp))) (.num 17007339999999999 15))),
  .set (.arr .jac 6) (.add (.rd (.arr .jac 6)) (.mul (.rd (.var .jTemp)) (.num 18015280000000001 15)))]

/-- utilities/mechanisms/gri30/lib/src/jacobs/jacob_2.c:4664-4670 -/
def jacobT102 : List CStmt := [
  .set (.var .jTemp) (.mul (.mul (.div (.num 1 0) (.rd (.var .T))) (.sub (.mul (.rd (.arr .fwd 102)) (.neg (.num 1 0))) (.mul (.rd (.arr .rev 102)) (.add (.neg (.num 1 0)) (.mul (.neg (.rd (.var .T))) (.sub (.sub (.add (.rd (.arr .dBdT 17)) (.rd (.arr .dBdT 5))) (.rd (.arr .dBdT 19))) (.rd (.arr .dBdT 4)))))))) (.rd (.var .rhoInv))),
  .set (.arr .jac 18) (.add (.rd (.arr .jac 18)) (.mul (.rd (.var .jTemp)) (.num 3002628 5))),
  .set (.arr .jac 20) (.add (.rd (.arr .jac 20)) (.mul (.neg (.rd (.var .jTemp))) (.num 31034219999999998 15))),
  .set (.arr .jac 5) (.add (.rd (.arr .jac 5)) (.mul (.neg (.rd (.var .jTemp))) (.num 17007339999999999 15))),
  .set (.arr .jac 6) (.add (.rd (.arr .jac 6)) (.mul (.rd (.var .jTemp)) (.num 18015280000000001 15)))]

/-- utilities/mechanisms/gri30/lib/src/jacobs/jacob_2.c:4891-4897 -/
def jacobT103 : List CStmt := [
  .set (.var .jTemp) (.mul (.mul (.div (.num 1 0) (.rd (.var .T))) (.sub (.add (.mul (.sub (.rd (.arr .fwd 103)) (.rd (.arr .rev 103))) (.add (.num 2 0) (.div (.neg (.num 42270443448169664 14)) (.rd (.var .T))))) (.mul (.rd (.arr .fwd 103)) (.neg (.num 1 0)))) (.mul (.rd (.arr .rev 103)) (.add (.neg (.num 1 0)) (.mul (.neg (.rd (.var .T))) (.sub (.sub (.add (.rd (.arr .dBdT 18)) (.rd (.arr .dBdT 5))) (.rd (.arr .dBdT 20))) (.rd (.arr .dBdT 4)))))))) (.rd (.var .rhoInv))),
  .set (.arr .jac 5) (.add (.rd (.arr .jac 5)) (.mul (.neg (.rd (.var .jTemp))) (.num 17007339999999999 15))),
  .set (.arr .jac 19) (.add (.rd (.arr .jac 19)) (.mul (.rd (.var .jTemp)) (.num 31034219999999998 15))),
  .set (.arr .jac 21) (.add (.rd (.arr .jac 21)) (.mul (.neg (.rd (.var .jTemp))) (.num 32042159999999996 15))),
  .set (.arr .jac 6) (.add (.rd (.arr .jac 6)) (.mul (.rd (.var .jTemp)) (.num 18015280000000001 15)))]

/-- utilities/mechanisms/gri30/lib/src/jacobs/jacob_2.c:5118-5124 -/
def jacobT104 : List CStmt := [
  .set (.var .jTemp) (.mul (.mul (.div (.num 1 0) (.rd (.var .T))) (.sub (.add (.mul (.sub (.rd (.arr .fwd 104)) (.rd (.arr .rev 104))) (.add (.num 2 0) (.div (.num 75482934728874397 14) (.rd (.var .T))))) (.mul (.rd (.arr .fwd 104)) (.neg (.num 1 0)))) (.mul (.rd (.arr .rev 104)) (.add (.neg (.num 1 0)) (.mul (.neg (.rd (.var .T))) (.sub (.sub (.add (.rd (.arr .dBdT 5)) (.rd (.arr .dBdT 19))) (.rd (.arr .dBdT 20))) (.rd (.arr .dBdT 4)))))))) (.rd (.var .rhoInv))),
  .set (.arr .jac 5) (.add (.rd (.arr .jac 5)) (.mul (.neg (.rd (.var .jTemp))) (.num 17007339999999999 15))),
  .set (.arr .jac 20) (.add (.rd (.arr .jac 20)) (.mul (.rd (.var .jTemp)) (.num 31034219999999998 15))),
  .set (.arr .jac 21) (.add (.rd (.arr .jac 21)) (.mul (.neg (.rd (.var .jTemp))) (.num 32042159999999996 15))),
  .set (.arr .jac 6) (.add (.rd (.arr .jac 6)) (.mul (.rd (.var .jTemp)) (.num 18015280000000001 15)))]

/-- utilities/mechanisms/gri30/lib/src/jacobs/jacob_2.c:5345-5351 -/
def jacobT105 : List CStmt := [
  .set (.var .jTemp) (.mul (.mul (.div (.num 1 0) (.rd (.var .T))) (.sub (.mul (.rd (.arr .fwd 105)) (.neg (.num 1 0))) (.mul (.rd (.arr .rev 105)) (.add (.neg (.num 1 0)) (.mul (.neg (.rd (.var .T))) (.sub (.sub (.add (.rd (.arr .dBdT 1)) (.rd (.arr .dBdT 27))) (.rd (.arr .dBdT 21))) (.rd (.arr .dBdT 4)))))))) (.rd (.var .rhoInv))),
  .set (.arr .jac 2) (.add (.rd (.arr .jac 2)) (.mul (.rd (.var .jTemp)) (.num 10079400000000001 16))),
  .set (.arr .jac 28) (.add (.rd (.arr .jac 28)) (.mul (.rd (.var .jTemp)) (.num 41029339999999998 15))),
  .set (.arr .jac 5) (.add (.rd (.arr .jac 5)) (.mul (.neg (.rd (.var .jTemp))) (.num 17007339999999999 15))),
  .set (.arr .jac 22) (.add (.rd (.arr .jac 22)) (.mul (.neg (.rd (.var .jTemp))) (.num 2502994 5)))]

/-- utilities/mechanisms/gri30/lib/src/jacobs/jacob_2.c:5572-5578 -/
def jacobT106 : List CStmt := [
  .set (.var .jTemp) (.mul (.mul (.div (.num 1 0) (.rd (.var .T))) (.sub (.add (.mul (.sub (.rd (.arr .fwd 106)) (.rd (.arr .rev 106))) (.add (.num 45 1) (.div (.neg (.num 50321956485916263 14)) (.rd (.var .T))))) (.mul (.rd (.arr .fwd 106)) (.neg (.num 1 0)))) (.mul (.rd (.arr .rev 106)) (.add (.neg (.num 1 0)) (.mul (.neg (.rd (.var .T))) (.sub (.sub (.add (.rd (.arr .dBdT 1)) (.rd (.arr .dBdT 28))) (.rd (.arr .dBdT 22))) (.rd (.arr .dBdT 4)))))))) (.rd (.var .rhoInv))),
  .set (.arr .jac 2) (.add (.rd (.arr .jac 2)) (.mul (.rd (.var .jTemp)) (.num 10079400000000001 16))),
  .set (.arr .jac 5) (.add (.rd (.arr .jac 5)) (.mul (.neg (.rd (.var .jTemp))) (.num 17007339999999999 15))),
  .set (.arr .jac 23) (.add (.rd (.arr .jac 23)) (.mul (.neg (.rd (.var .jTemp))) (.num 26037879999999998 15))),
  .set (.arr .jac 29) (.add (.rd (.arr .jac 29)) (.mul (.rd (.var .jTemp)) (.num 42037279999999996 15)))]

/-- utilities/mechanisms/gri30/lib/src/jacobs/jacob_2.c:5799-5805 -/
def jacobT107 : List CStmt := [
  .set (.var .jTemp) (.mul (.mul (.div (.num 1 0) (.rd (.var .T))) (.sub (.add (.mul (.sub (.rd (.arr .fwd 107)) (.rd (.arr .rev 107))) (.add (.num 22999999999999998 16) (.div (.num 67934641255986953 13) (.rd (.var .T))))) (.mul (.rd (.arr .fwd 107)) (.neg (.num 1 0)))) (.mul (.rd (.arr .rev 107)) (.add (.neg (.num 1 0)) (.mul (.neg (.rd (.var .T))) (.sub (.sub (.add (.rd (.arr .dBdT 1)) (.rd (.arr .dBdT 29))) (.rd (.arr .dBdT 22))) (.rd (.arr .dBdT 4)))))))) (.rd (.var .rhoInv))),
  .set (.arr .jac 2) (.add (.rd (.arr .jac 2)) (.mul (.rd (.var .jTemp)) (.num 10079400000000001 16))),
  .set (.arr .jac 5) (.add (.rd (.arr .jac 5)) (.mul (.neg (.rd (.var .jTemp))) (.num 17007339999999999 15))),
  .set (.arr .jac 30) (.add (.rd (.arr .jac 30)) (.mul (.rd (.var .jTemp)) (.num 42037279999999996 15))),
  .set (.arr .jac 23) (.add (.rd (.arr .jac 23)) (.mul (.neg (.rd (.var .jTemp))) (.num 26037879999999998 15)))]

/-- utilities/mechanisms/gri30/lib/src/jacobs/jacob_2.c:6026-6032 -/
def jacobT108 : List CStmt := [
  .set (.var .jTemp) (.mul (.mul (.div (.num 1 0) (.rd (.var .T))) (.sub (.add (.mul (.sub (.rd (.arr .fwd 108)) (.rd (.arr .rev 108))) (.add (.num 2 0) (.div (.num 70450739080282765 13) (.rd (.var .T))))) (.mul (.rd (.arr .fwd 108)) (.neg (.num 1 0)))) (.mul (.rd (.arr .rev 108)) (.add (.neg (.num 1 0)) (.mul (.neg (.rd (.var .T))) (.sub (.sub (.add (.rd (.arr .dBdT 21)) (.rd (.arr .dBdT 5))) (.rd (.arr .dBdT 22))) (.rd (.arr .dBdT 4)))))))) (.rd (.var .rhoInv))),
  .set (.arr .jac 5) (.add (.rd (.arr .jac 5)) (.mul (.neg (.rd (.var .jTemp))) (.num 17007339999999999 15))),
  .set (.arr .jac 22) (.add (.rd (.arr .jac 22)) (.mul (.rd (.var .jTemp)) (.num 2502994 5))),
  .set (.arr .jac 23) (.add (.rd (.arr .jac 23)) (.mul (.neg (.rd (.var .jTemp))) (.num 26037879999999998 15))),
  .set (.arr .jac 6) (.add (.rd (.arr .jac 6)) (.mul (.rd (.var .jTemp)) (.num 18015280000000001 15)))]

/-- utilities/mechanisms/gri30/lib/src/jacobs/jacob_2.c:6253-6259 -/
def jacobT109 : List CStmt := [
  .set (.var .jTemp) (.mul (.mul (.div (.num 1 0) (.rd (.var .T))) (.sub (.add (.mul (.sub (.rd (.arr .fwd 109)) (.rd (.arr .rev 109))) (.add (.num 4 0) (.div (.neg (.num 10064391297183253 13)) (.rd (.var .T))))) (.mul (.rd (.arr .fwd 109)) (.neg (.num 1 0)))) (.mul (.rd (.arr .rev 109)) (.add (.neg (.num 1 0)) (.mul (.neg (.rd (.var .T))) (.sub (.sub (.add (.rd (.arr .dBdT 12)) (.rd (.arr .dBdT 14))) (.rd (.arr .dBdT 22))) (.rd (.arr .dBdT 4)))))))) (.rd (.var .rhoInv))),
  .set (.arr .jac 13) (.add (.rd (.arr .jac 13)) (.mul (.rd (.var .jTemp)) (.num 1503482 5))),
  .set (.arr .jac 5) (.add (.rd (.arr .jac 5)) (.mul (.neg (.rd (.var .jTemp))) (.num 17007339999999999 15))),
  .set (.arr .jac 15) (.add (.rd (.arr .jac 15)) (.mul (.rd (.var .jTemp)) (.num 28010399999999997 15))),
  .set (.arr .jac 23) (.add (.rd (.arr .jac 23)) (.mul (.neg (.rd (.var .jTemp))) (.num 26037879999999998 15)))]

/-- utilities/mechanisms/gri30/lib/src/jacobs/jacob_2.c:6480-6486 -/
def jacobT110 : List CStmt := [
  .set (.var .jTemp) (.mul (.mul (.div (.num 1 0) (.rd (.var .T))) (.sub (.mul (.rd (.arr .fwd 110)) (.neg (.num 1 0))) (.mul (.rd (.arr .rev 110)) (.add (.neg (.num 1 0)) (.mul (.neg (.rd (.var .T))) (.sub (.sub (.add (.rd (.arr .dBdT 5)) (.rd (.arr .dBdT 22))) (.rd (.arr .dBdT 23))) (.rd (.arr .dBdT 4)))))))) (.rd (.var .rhoInv))),
  .set (.arr .jac 5) (.add (.rd (.arr .jac 5)) (.mul (.neg (.rd (.var .jTemp))) (.num 17007339999999999 15))),
  .set (.arr .jac 6) (.add (.rd (.arr .jac 6)) (.mul (.rd (.var .jTemp)) (.num 18015280000000001 15))),
  .set (.arr .jac 23) (.add (.rd (.arr .jac 23)) (.mul (.rd (.var .jTemp)) (.num 26037879999999998 15))),
  .set (.arr .jac 24) (.add (.rd (.arr .jac 24)) (.mul (.neg (.rd (.var .jTemp))) (.num 27045819999999999 15)))]

/-- utilities/mechanisms/gri30/lib/src/jacobs/jacob_2.c:6707-6713 -/
def jacobT111 : List CStmt := [
  .set (.var .jTemp) (.mul (.mul (.div (.num 1 0) (.rd (.var .T))) (.sub (.add (.mul (.sub (.rd (.arr .fwd 111)) (.rd (.arr .rev 111))) (.add (.num 2 0) (.div (.num 12580489121479065 13) (.rd (.var .T))))) (.mul (.rd (.arr .fwd 111)) (.neg (.num 1 0)))) (.mul (.rd (.arr .rev 111)) (.add (.neg (.num 1 0)) (.mul (.neg (.rd (.var .T))) (.sub (.sub (.add (.rd (.arr .dBdT 5)) (.rd (.arr .dBdT 23))) (.rd (.arr .dBdT 24))) (.rd (.arr .dBdT 4)))))))) (.rd (.var .rhoInv))),
  .set (.arr .jac 25) (.add (.rd (.arr .jac 25)) (.mul (.neg (.rd (.var .jTemp))) (.num 28053759999999997 15))),
  .set (.arr .jac 5) (.add (.rd (.arr .jac 5)) (.mul (.neg (.rd (.var .jTemp))) (.num 17007339999999999 15))),
  .set (.arr .jac 6) (.add (.rd (.arr .jac 6)) (.mul (.rd (.var .jTemp)) (.num 18015280000000001 15))),
  .set (.arr .jac 24) (.add (.rd (.arr .jac 24)) (.mul (.rd (.var .jTemp)) (.num 27045819999999999 15)))]

/-- utilities/mechanisms/gri30/lib/src/jacobs/jacob_2.c:6934-6940 -/
def jacobT112 : List CStmt := [
  .set (.var .jTemp) (.mul (.mul (.div (.num 1 0) (.rd (.var .T))) (.sub (.add (.mul (.sub (.rd (.arr .fwd 112)) (.rd (.arr .rev 112))) (.add (.num 21200000000000001 16) (.div (.num 43780102142747148 14) (.rd (.var .T))))) (.mul (.rd (.arr .fwd 112)) (.neg (.num 1 0)))) (.mul (.rd (.arr .rev 112)) (.add (.neg (.num 1 0)) (.mul (.neg (.rd (.var .T))) (.sub (.sub (.add (.rd (.arr .dBdT 25)) (.rd (.arr .dBdT 5))) (.rd (.arr .dBdT 26))) (.rd (.arr .dBdT 4)))))))) (.rd (.var .rhoInv))),
  .set (.arr .jac 26) (.add (.rd (.arr .jac 26)) (.mul (.rd (.var .jTemp)) (.num 29061699999999998 15))),
  .set (.arr .jac 27) (.add (.rd (.arr .jac 27)) (.mul (.neg (.rd (.var .jTemp))) (.num 3006964 5))),
  .set (.arr .jac 5) (.add (.rd (.arr .jac 5)) (.mul (.neg (.rd (.var .jTemp))) (.num 17007339999999999 15))),
  .set (.arr .jac 6) (.add (.rd (.arr .jac 6)) (.mul (.rd (.var .jTemp)) (.num 18015280000000001 15)))]

/-- utilities/mechanisms/gri30/lib/src/jacobs/jacob_2.c:7161-7167 -/
def jacobT113 : List CStmt := [
  .set (.var .jTemp) (.mul (.mul (.div (.num 1 0) (.rd (.var .T))) (.sub (.add (.mul (.sub (.rd (.arr .fwd 113)) (.rd (.arr .rev 113))) (.div (.num 10064391297183253 13) (.rd (.var .T)))) (.mul (.rd (.arr .fwd 113)) (.neg (.num 1 0)))) (.mul (.rd (.arr .rev 113)) (.add (.neg (.num 1 0)) (.mul (.neg (.rd (.var .T))) (.sub (.sub (.add (.rd (.arr .dBdT 5)) (.rd (.arr .dBdT 27))) (.rd (.arr .dBdT 28))) (.rd (.arr .dBdT 4)))))))) (.rd (.var .rhoInv))),
  .set (.arr .jac 5) (.add (.rd (.arr .jac 5)) (.mul (.neg (.rd (.var .jTemp))) (.num 17007339999999999 15))),
  .set (.arr .jac 28) (.add (.rd (.arr .jac 28)) (.mul (.rd (.var .jTemp)) (.num 41029339999999998 15))),
  .set (.arr .jac 29) (.add (.rd (.arr .jac 29)) (.mul (.neg (.rd (.var .jTemp))) (.num 42037279999999996 15))),
  .set (.arr .jac 6) (.add (.rd (.arr .jac 6)) (.mul (.rd (.var .jTemp)) (.num 18015280000000001 15)))]

/-- utilities/mechanisms/gri30/lib/src/jacobs/jacob_2.c:7388-7393 -/
def jacobT114 : List CStmt := [
  .set (.var .jTemp) (.mul (.mul (.div (.num 1 0) (.rd (.var .T))) (.sub (.add (.mul (.sub (.rd (.arr .fwd 114)) (.rd (.arr .rev 114))) (.div (.neg (.num 82024789072043507 14)) (.rd (.var .T)))) (.mul (.rd (.arr .fwd 114)) (.neg (.num 1 0)))) (.mul (.rd (.arr .rev 114)) (.add (.neg (.num 1 0)) (.mul (.neg (.rd (.var .T))) (.sub (.add (.rd (.arr .dBdT 7)) (.rd (.arr .dBdT 3))) (.mul (.num 2 0) (.rd (.arr .dBdT 6))))))))) (.rd (.var .rhoInv))),
  .set (.arr .jac 4) (.add (.rd (.arr .jac 4)) (.mul (.rd (.var .jTemp)) (.num 31998799999999999 15))),
  .set (.arr .jac 7) (.add (.rd (.arr .jac 7)) (.mul (.mul (.rd (.var .jTemp)) (.neg (.num 2 0))) (.num 33006740000000001 15))),
  .set (.arr .jac 8) (.add (.rd (.arr .jac 8)) (.mul (.rd (.var .jTemp)) (.num 34014679999999998 15)))]

/-- utilities/mechanisms/gri30/lib/src/jacobs/jacob_2.c:7562-7567 -/
def jacobT115 : List CStmt := [
  .set (.var .jTemp) (.mul (.mul (.div (.num 1 0) (.rd (.var .T))) (.sub (.add (.mul (.sub (.rd (.arr .fwd 115)) (.rd (.arr .rev 115))) (.div (.num 60386347783099518 13) (.rd (.var .T)))) (.mul (.rd (.arr .fwd 115)) (.neg (.num 1 0)))) (.mul (.rd (.arr .rev 115)) (.add (.neg (.num 1 0)) (.mul (.neg (.rd (.var .T))) (.sub (.add (.rd (.arr .dBdT 7)) (.rd (.arr .dBdT 3))) (.mul (.num 2 0) (.rd (.arr .dBdT 6))))))))) (.rd (.var .rhoInv))),
  .set (.arr .jac 4) (.add (.rd (.arr .jac 4)) (.mul (.rd (.var .jTemp)) (.num 31998799999999999 15))),
  .set (.arr .jac 7) (.add (.rd (.arr .jac 7)) (.mul (.mul (.rd (.var .jTemp)) (.neg (.num 2 0))) (.num 33006740000000001 15))),
  .set (.arr .jac 8) (.add (.rd (.arr .jac 8)) (.mul (.rd (.var .jTemp)) (.num 34014679999999998 15)))]

/-- utilities/mechanisms/gri30/lib/src/jacobs/jacob_2.c:7736-7742 -/
def jacobT116 : List CStmt := [
  .set (.var .jTemp) (.mul (.mul (.div (.num 1 0) (.rd (.var .T))) (.sub (.mul (.rd (.arr .fwd 116)) (.neg (.num 1 0))) (.mul (.rd (.arr .rev 116)) (.add (.neg (.num 1 0)) (.mul (.neg (.rd (.var .T))) (.sub (.sub (.add (.rd (.arr .dBdT 17)) (.rd (.arr .dBdT 4))) (.rd (.arr .dBdT 10))) (.rd (.arr .dBdT 6)))))))) (.rd (.var .rhoInv))),
  .set (.arr .jac 18) (.add (.rd (.arr .jac 18)) (.mul (.rd (.var .jTemp)) (.num 3002628 5))),
  .set (.arr .jac 11) (.add (.rd (.arr .jac 11)) (.mul (.neg (.rd (.var .jTemp))) (.num 14026879999999998 15))),
  .set (.arr .jac 5) (.add (.rd (.arr .jac 5)) (.mul (.rd (.var .jTemp)) (.num 17007339999999999 15))),
  .set (.arr .jac 7) (.add (.rd (.arr .jac 7)) (.mul (.neg (.rd (.var .jTemp))) (.num 33006740000000001 15)))]

/-- utilities/mechanisms/gri30/lib/src/jacobs/jacob_2.c:7963-7969 -/
def jacobT117 : List CStmt := [
  .set (.var .jTemp) (.mul (.mul (.div (.num 1 0) (.rd (.var .T))) (.sub (.mul (.rd (.arr .fwd 117)) (.neg (.num 1 0))) (.mul (.rd (.arr .rev 117)) (.add (.neg (.num 1 0)) (.mul (.neg (.rd (.var .T))) (.sub (.sub (.add (.rd (.arr .dBdT 13)) (.rd (.arr .dBdT 3))) (.rd (.arr .dBdT 12))) (.rd (.arr .dBdT 6)))))))) (.rd (.var .rhoInv))),
  .set (.arr .jac 4) (.add (.rd (.arr .jac 4)) (.mul (.rd (.var .jTemp)) (.num 31998799999999999 15))),
  .set (.arr .jac 13) (.add (.rd (.arr .jac 13)) (.mul (.neg (.rd (.var .jTemp))) (.num 1503482 5))),
  .set (.arr .jac 14) (.add (.rd (.arr .jac 14)) (.mul (.rd (.var .jTemp)) (.num 16042760000000001 15))),
  .set (.arr .jac 7) (.add (.rd (.arr .jac 7)) (.mul (.neg (.rd (.var .jTemp))) (.num 33006740000000001 15)))]

/-- utilities/mechanisms/gri30/lib/src/jacobs/jacob_2.c:8190-8196 -/
def jacobT118 : List CStmt := [
  .set (.var .jTemp) (.mul (.mul (.div (.num 1 0) (.rd (.var .T))) (.sub (.mul (.rd (.arr .fwd 118)) (.neg (.num 1 0))) (.mul (.rd (.arr .rev 118)) (.add (.neg (.num 1 0)) (.mul (.neg (.rd (.var .T))) (.sub (.sub (.add (.rd (.arr .dBdT 19)) (.rd (.arr .dBdT 4))) (.rd (.arr .dBdT 12))) (.rd (.arr .dBdT 6)))))))) (.rd (.var .rhoInv))),
  .set (.arr .jac 5) (.add (.rd (.arr .jac 5)) (.mul (.rd (.var .jTemp)) (.num 17007339999999999 15))),
  .set (.arr .jac 20) (.add (.rd (.arr .jac 20)) (.mul (.rd (.var .jTemp)) (.num 31034219999999998 15))),
  .set (.arr .jac 13) (.add (.rd (.arr .jac 13)) (.mul (.neg (.rd (.var .jTemp))) (.num 1503482 5))),
  .set (.arr .jac 7) (.add (.rd (.arr .jac 7)) (.mul (.neg (.rd (.var .jTemp))) (.num 33006740000000001 15)))]

/-- utilities/mechanisms/gri30/lib/src/jacobs/jacob_2.c:8417-8423 -/
def jacobT119 : List CStmt := [
  .set (.var .jTemp) (.mul (.mul (.div (.num 1 0) (.rd (.var .T))) (.sub (.add (.mul (.sub (.rd (.arr .fwd 119)) (.rd (.arr .rev 119))) (.div (.num 11875981730676238 12) (.rd (.var .T)))) (.mul (.rd (.arr .fwd 119)) (.neg (.num 1 0)))) (.mul (.rd (.arr .rev 119)) (.add (.neg (.num 1 0)) (.mul (.neg (.rd (.var .T))) (.sub (.sub (.add (.rd (.arr .dBdT 15)) (.rd (.arr .dBdT 4))) (.rd (.arr .dBdT 14))) (.rd (.arr .dBdT 6)))))))) (.rd (.var .rhoInv))),
  .set (.arr .jac 5) (.add (.rd (.arr .jac 5)) (.mul (.rd (.var .jTemp)) (.num 17007339999999999 15))),
  .set (.arr .jac 7) (.add (.rd (.arr .jac 7)) (.mul (.neg (.rd (.var .jTemp))) (.num 33006740000000001 15))),
  .set (.arr .jac 15) (.add (.rd (.arr .jac 15)) (.mul (.neg (.rd (.var .jTemp))) (.num 28010399999999997 15))),
  .set (.arr .jac 16) (.add (.rd (.arr .jac 16)) (.mul (.rd (.var .jTemp)) (.num 44009799999999998 15)))]

/-- The derivatives with respect to the temperature in `eval_jacob_2`, one block per reaction, utilities/mechanisms/gri30/lib/src/jacobs/jacob_2.c:5-8643. -/
def jacob2Blocks : List (List CStmt × List CStmt) := [
  (jacobT80, []), (jacobT81, []), (jacobT82, []), (jacobT83, []), (jacobT84, []), (jacobT85, []), (jacobT86, []), (jacobT87, []), (jacobT88, []), (jacobT89, []), (jacobT90, []), (jacobT91, []), (jacobT92, []), (jacobT93, []), (jacobT94, []), (jacobT95, []), (jacobT96, []), (jacobT97, []), (jacobT98, []), (jacobT99, []), (jacobT100, []), (jacobT101, []), (jacobT102, []), (jacobT103, []), (jacobT104, []), (jacobT105, []), (jacobT106, []), (jacobT107, []), (jacobT108, []), (jacobT109, []), (jacobT110, []), (jacobT111, []), (jacobT112, []), (jacobT113, []), (jacobT114, []), (jacobT115, []), (jacobT116, []), (jacobT117, []), (jacobT118, []), (jacobT119, [])]

end DLB.Mech.Gri30
