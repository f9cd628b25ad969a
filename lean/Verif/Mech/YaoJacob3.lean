/- Generated by tools/gen_mechanisms.py from utilities/mechanisms/yao/lib/src/jacobs/jacob_3.c. Do not edit. -/
import Verif.Model.CLang
set_option autoImplicit false
set_option maxRecDepth 1000000

namespace DLB.Mech.Yao
open DLB

/-- utilities/mechanisms/yao/lib/src/jacobs/jacob_3.c:5-17 -/
def jacob3Start : List CStmt := [
  .set (.var .logT) (.log (.rd (.var .T))),
  .set (.var .kf) (.num 0 0),
  .set (.var .jTemp) (.num 0 0),
  .set (.var .presModTemp) (.num 0 0),
  .set (.var .Kc) (.num 0 0),
  .set (.var .kr) (.num 0 0),
  .set (.var .Pr) (.num 0 0),
  .set (.var .Fcent) (.num 0 0),
  .set (.var .A) (.num 0 0),
  .set (.var .B) (.num 0 0),
  .set (.var .lnFAB) (.num 0 0),
  .set (.var .rhoInv) (.div (.num 1 0) (.rd (.var .rho)))]

/-- utilities/mechanisms/yao/lib/src/jacobs/jacob_3.c:18-24 -/
def jacobT120 : List CStmt := [
  .set (.var .jTemp) (.mul (.mul (.div (.num 1 0) (.rd (.var .T))) (.sub (.add (.mul (.sub (.rd (.arr .fwd 120)) (.rd (.arr .rev 120))) (.add (.num 2 0) (.div (.num 4025756518873301 12) (.rd (.var .T))))) (.mul (.rd (.arr .fwd 120)) (.neg (.num 1 0)))) (.mul (.rd (.arr .rev 120)) (.add (.neg (.num 1 0)) (.mul (.neg (.rd (.var .T))) (.sub (.sub (.add (.rd (.arr .dBdT 21)) (.rd (.arr .dBdT 16))) (.rd (.arr .dBdT 20))) (.rd (.arr .dBdT 13)))))))) (.rd (.var .rhoInv))),
  .set (.arr .jac 17) (.add (.rd (.arr .jac 17)) (.mul (.rd (.var .jTemp)) (.num 28010399999999997 15))),
  .set (.arr .jac 21) (.add (.rd (.arr .jac 21)) (.mul (.neg (.rd (.var .jTemp))) (.num 28053759999999997 15))),
  .set (.arr .jac 14) (.add (.rd (.arr .jac 14)) (.mul (.neg (.rd (.var .jTemp))) (.num 29018339999999998 15))),
  .set (.arr .jac 22) (.add (.rd (.arr .jac 22)) (.mul (.rd (.var .jTemp)) (.num 29061699999999998 15)))]

/-- utilities/mechanisms/yao/lib/src/jacobs/jacob_3.c:249-255 -/
def jacobT121 : List CStmt := [
  .set (.var .jTemp) (.mul (.mul (.div (.num 1 0) (.rd (.var .T))) (.sub (.add (.mul (.sub (.rd (.arr .fwd 121)) (.rd (.arr .rev 121))) (.div (.num 30193173891549759 13) (.rd (.var .T)))) (.mul (.rd (.arr .fwd 121)) (.neg (.num 1 0)))) (.mul (.rd (.arr .rev 121)) (.add (.neg (.num 1 0)) (.mul (.neg (.rd (.var .T))) (.sub (.sub (.add (.rd (.arr .dBdT 1)) (.rd (.arr .dBdT 24))) (.rd (.arr .dBdT 9))) (.rd (.arr .dBdT 20)))))))) (.rd (.var .rhoInv))),
  .set (.arr .jac 25) (.add (.rd (.arr .jac 25)) (.mul (.rd (.var .jTemp)) (.num 41072699999999998 15))),
  .set (.arr .jac 10) (.add (.rd (.arr .jac 10)) (.mul (.neg (.rd (.var .jTemp))) (.num 14026879999999998 15))),
  .set (.arr .jac 21) (.add (.rd (.arr .jac 21)) (.mul (.neg (.rd (.var .jTemp))) (.num 28053759999999997 15))),
  .set (.arr .jac 2) (.add (.rd (.arr .jac 2)) (.mul (.rd (.var .jTemp)) (.num 10079400000000001 16)))]

/-- utilities/mechanisms/yao/lib/src/jacobs/jacob_3.c:480-486 -/
def jacobT122 : List CStmt := [
  .set (.var .jTemp) (.mul (.mul (.div (.num 1 0) (.rd (.var .T))) (.sub (.mul (.rd (.arr .fwd 122)) (.neg (.num 1 0))) (.mul (.rd (.arr .rev 122)) (.add (.neg (.num 1 0)) (.mul (.neg (.rd (.var .T))) (.sub (.sub (.add (.rd (.arr .dBdT 1)) (.rd (.arr .dBdT 24))) (.rd (.arr .dBdT 20))) (.rd (.arr .dBdT 10)))))))) (.rd (.var .rhoInv))),
  .set (.arr .jac 25) (.add (.rd (.arr .jac 25)) (.mul (.rd (.var .jTemp)) (.num 41072699999999998 15))),
  .set (.arr .jac 2) (.add (.rd (.arr .jac 2)) (.mul (.rd (.var .jTemp)) (.num 10079400000000001 16))),
  .set (.arr .jac 11) (.add (.rd (.arr .jac 11)) (.mul (.neg (.rd (.var .jTemp))) (.num 14026879999999998 15))),
  .set (.arr .jac 21) (.add (.rd (.arr .jac 21)) (.mul (.neg (.rd (.var .jTemp))) (.num 28053759999999997 15)))]

/-- utilities/mechanisms/yao/lib/src/jacobs/jacob_3.c:711-717 -/
def jacobT123 : List CStmt := [
  .set (.var .jTemp) (.mul (.mul (.div (.num 1 0) (.rd (.var .T))) (.sub (.add (.mul (.sub (.rd (.arr .fwd 123)) (.rd (.arr .rev 123))) (.add (.num 2 0) (.div (.num 46296199967042967 13) (.rd (.var .T))))) (.mul (.rd (.arr .fwd 123)) (.neg (.num 1 0)))) (.mul (.rd (.arr .rev 123)) (.add (.neg (.num 1 0)) (.mul (.neg (.rd (.var .T))) (.sub (.sub (.add (.rd (.arr .dBdT 19)) (.rd (.arr .dBdT 12))) (.rd (.arr .dBdT 11))) (.rd (.arr .dBdT 20)))))))) (.rd (.var .rhoInv))),
  .set (.arr .jac 20) (.add (.rd (.arr .jac 20)) (.mul (.rd (.var .jTemp)) (.num 27045819999999999 15))),
  .set (.arr .jac 13) (.add (.rd (.arr .jac 13)) (.mul (.rd (.var .jTemp)) (.num 16042760000000001 15))),
  .set (.arr .jac 12) (.add (.rd (.arr .jac 12)) (.mul (.neg (.rd (.var .jTemp))) (.num 1503482 5))),
  .set (.arr .jac 21) (.add (.rd (.arr .jac 21)) (.mul (.neg (.rd (.var .jTemp))) (.num 28053759999999997 15)))]

/-- utilities/mechanisms/yao/lib/src/jacobs/jacob_3.c:942-947 -/
def jacobT124 : List CStmt := [
  .set (.var .jTemp) (.mul (.mul (.div (.num 1 0) (.rd (.var .T))) (.sub (.mul (.sub (.rd (.arr .fwd 124)) (.rd (.arr .rev 124))) (.div (.num 15611350367451911 12) (.rd (.var .T)))) (.mul (.rd (.arr .rev 124)) (.add (.neg (.num 1 0)) (.mul (.neg (.rd (.var .T))) (.sub (.add (.rd (.arr .dBdT 11)) (.rd (.arr .dBdT 20))) (.rd (.arr .dBdT 26)))))))) (.rd (.var .rhoInv))),
  .set (.arr .jac 27) (.mul (.neg (.rd (.var .jTemp))) (.num 4308858 5)),
  .set (.arr .jac 12) (.add (.rd (.arr .jac 12)) (.mul (.rd (.var .jTemp)) (.num 1503482 5))),
  .set (.arr .jac 21) (.add (.rd (.arr .jac 21)) (.mul (.rd (.var .jTemp)) (.num 28053759999999997 15)))]

/-- utilities/mechanisms/yao/lib/src/jacobs/jacob_3.c:1119-1125 -/
def jacobT125 : List CStmt := [
  .set (.var .jTemp) (.mul (.mul (.div (.num 1 0) (.rd (.var .T))) (.sub (.add (.mul (.sub (.rd (.arr .fwd 125)) (.rd (.arr .rev 125))) (.div (.num 30595749543437087 12) (.rd (.var .T)))) (.mul (.rd (.arr .fwd 125)) (.neg (.num 1 0)))) (.mul (.rd (.arr .rev 125)) (.add (.neg (.num 1 0)) (.mul (.neg (.rd (.var .T))) (.sub (.sub (.add (.rd (.arr .dBdT 19)) (.rd (.arr .dBdT 4))) (.rd (.arr .dBdT 20))) (.rd (.arr .dBdT 8)))))))) (.rd (.var .rhoInv))),
  .set (.arr .jac 9) (.add (.rd (.arr .jac 9)) (.mul (.neg (.rd (.var .jTemp))) (.num 31998799999999999 15))),
  .set (.arr .jac 5) (.add (.rd (.arr .jac 5)) (.mul (.rd (.var .jTemp)) (.num 33006740000000001 15))),
  .set (.arr .jac 20) (.add (.rd (.arr .jac 20)) (.mul (.rd (.var .jTemp)) (.num 27045819999999999 15))),
  .set (.arr .jac 21) (.add (.rd (.arr .jac 21)) (.mul (.neg (.rd (.var .jTemp))) (.num 28053759999999997 15)))]

/-- utilities/mechanisms/yao/lib/src/jacobs/jacob_3.c:1350-1355 -/
def jacobT126 : List CStmt := [
  .set (.var .jTemp) (.mul (.mul (.div (.num 1 0) (.rd (.var .T))) (.sub (.add (.mul (.sub (.rd (.arr .fwd 126)) (.rd (.arr .rev 126))) (.add (.neg (.num 84700000000000006 16)) (.div (.num 7155782212297293 12) (.rd (.var .T))))) (.mul (.rd (.arr .fwd 126)) (.neg (.num 1 0)))) (.mul (.rd (.arr .rev 126)) (.mul (.neg (.rd (.var .T))) (.sub (.sub (.rd (.arr .dBdT 28)) (.rd (.arr .dBdT 20))) (.rd (.arr .dBdT 19))))))) (.rd (.var .rhoInv))),
  .set (.arr .jac 29) (.mul (.rd (.var .jTemp)) (.num 55099579999999996 15)),
  .set (.arr .jac 20) (.add (.rd (.arr .jac 20)) (.mul (.neg (.rd (.var .jTemp))) (.num 27045819999999999 15))),
  .set (.arr .jac 21) (.add (.rd (.arr .jac 21)) (.mul (.neg (.rd (.var .jTemp))) (.num 28053759999999997 15)))]

/-- utilities/mechanisms/yao/lib/src/jacobs/jacob_3.c:1527-1538 -/
def jacobT127 : List CStmt := [
  .set (.var .concTemp) (.add (.add (.add (.add (.add (.add (.sub (.rd (.var .m)) (.mul (.num 3 1) (.rd (.arr .C 0)))) (.mul (.num 1 0) (.rd (.arr .C 5)))) (.mul (.num 5 0) (.rd (.arr .C 6)))) (.mul (.num 1 0) (.rd (.arr .C 12)))) (.mul (.num 5 1) (.rd (.arr .C 16)))) (.mul (.num 1 0) (.rd (.arr .C 17)))) (.mul (.num 2 0) (.rd (.arr .C 22)))),
  .set (.var .Pr) (.mul (.rd (.var .concTemp)) (.exp (.sub (.sub (.num 47391841735846086 15) (.mul (.num 609 2) (.rd (.var .logT)))) (.div (.num 25689358786060257 13) (.rd (.var .T)))))),
  .set (.var .Fcent) (.add (.add (.mul (.num 15780000000000005 17) (.exp (.div (.rd (.var .T)) (.neg (.num 125 0))))) (.mul (.num 84219999999999995 17) (.exp (.div (.rd (.var .T)) (.neg (.num 2219 0)))))) (.exp (.div (.neg (.num 6882 0)) (.rd (.var .T))))),
  .set (.var .A) (.sub (.sub (.log10 (.fmax (.rd (.var .Pr)) (.num 1 300))) (.mul (.num 67 2) (.log10 (.fmax (.rd (.var .Fcent)) (.num 1 300))))) (.num 4 1)),
  .set (.var .B) (.sub (.sub (.num 806 3) (.mul (.num 11762 4) (.log10 (.fmax (.rd (.var .Fcent)) (.num 1 300))))) (.mul (.num 14 2) (.log10 (.fmax (.rd (.var .Pr)) (.num 1 300))))),
  .set (.var .lnFAB) (.div (.mul (.mul (.num 2 0) (.log (.fmax (.rd (.var .Fcent)) (.num 1 300)))) (.rd (.var .A))) (.mul (.mul (.mul (.mul (.rd (.var .B)) (.rd (.var .B))) (.rd (.var .B))) (.add (.num 1 0) (.div (.mul (.rd (.var .A)) (.rd (.var .A))) (.mul (.rd (.var .B)) (.rd (.var .B)))))) (.add (.num 1 0) (.div (.mul (.rd (.var .A)) (.rd (.var .A))) (.mul (.rd (.var .B)) (.rd (.var .B))))))),
  .set (.var .jTemp) (.mul (.add (.mul (.mul (.rd (.arr .presMod 18)) (.sub (.add (.div (.sub (.add (.neg (.num 609 2)) (.div (.num 25689358786060257 13) (.rd (.var .T)))) (.num 1 0)) (.mul (.rd (.var .T)) (.add (.num 1 0) (.rd (.var .Pr))))) (.mul (.sub (.div (.num 1 0) (.mul (.rd (.var .Fcent)) (.add (.num 1 0) (.div (.mul (.rd (.var .A)) (.rd (.var .A))) (.mul (.rd (.var .B)) (.rd (.var .B))))))) (.div (.mul (.rd (.var .lnFAB)) (.add (.mul (.neg (.num 2909773028751787 16)) (.rd (.var .B))) (.mul (.num 51081716961460466 17) (.rd (.var .A))))) (.rd (.var .Fcent)))) (.add (.sub (.mul (.neg (.num 12624000000000003 19)) (.exp (.div (.rd (.var .T)) (.neg (.num 125 0))))) (.mul (.num 37954033348355115 20) (.exp (.div (.rd (.var .T)) (.neg (.num 2219 0)))))) (.mul (.div (.num 6882 0) (.mul (.rd (.var .T)) (.rd (.var .T)))) (.exp (.div (.neg (.num 6882 0)) (.rd (.var .T)))))))) (.div (.mul (.mul (.rd (.var .lnFAB)) (.add (.mul (.num 43429448190325176 17) (.rd (.var .B))) (.mul (.num 60801227466455256 18) (.rd (.var .A))))) (.sub (.add (.neg (.num 60899999999999999 16)) (.div (.num 25689358786060257 13) (.rd (.var .T)))) (.num 1 0))) (.rd (.var .T))))) (.sub (.rd (.arr .fwd 127)) (.rd (.arr .rev 127)))) (.mul (.div (.rd (.arr .presMod 18)) (.rd (.var .T))) (.sub (.add (.mul (.sub (.rd (.arr .fwd 127)) (.rd (.arr .rev 127))) (.add (.neg (.num 98999999999999999 17)) (.div (.num 79508691247747697 14) (.rd (.var .T))))) (.mul (.rd (.arr .fwd 127)) (.neg (.num 1 0)))) (.mul (.rd (.arr .rev 127)) (.mul (.neg (.rd (.var .T))) (.sub (.sub (.rd (.arr .dBdT 22)) (.rd (.arr .dBdT 1))) (.rd (.arr .dBdT 21)))))))) (.rd (.var .rhoInv))),
  .set (.arr .jac 2) (.add (.rd (.arr .jac 2)) (.mul (.neg (.rd (.var .jTemp))) (.num 10079400000000001 16))),
  .set (.arr .jac 22) (.add (.rd (.arr .jac 22)) (.mul (.neg (.rd (.var .jTemp))) (.num 29061699999999998 15))),
  .set (.arr .jac 23) (.add (.rd (.arr .jac 23)) (.mul (.rd (.var .jTemp)) (.num 3006964 5)))]

/-- utilities/mechanisms/yao/lib/src/jacobs/jacob_3.c:1712-1718 -/
def jacobT128 : List CStmt := [
  .set (.var .jTemp) (.mul (.mul (.div (.num 1 0) (.rd (.var .T))) (.sub (.mul (.rd (.arr .fwd 128)) (.neg (.num 1 0))) (.mul (.rd (.arr .rev 128)) (.add (.neg (.num 1 0)) (.mul (.neg (.rd (.var .T))) (.sub (.sub (.add (.rd (.arr .dBdT 5)) (.rd (.arr .dBdT 20))) (.rd (.arr .dBdT 1))) (.rd (.arr .dBdT 21)))))))) (.rd (.var .rhoInv))),
  .set (.arr .jac 2) (.add (.rd (.arr .jac 2)) (.mul (.neg (.rd (.var .jTemp))) (.num 10079400000000001 16))),
  .set (.arr .jac 21) (.add (.rd (.arr .jac 21)) (.mul (.rd (.var .jTemp)) (.num 28053759999999997 15))),
  .set (.arr .jac 22) (.add (.rd (.arr .jac 22)) (.mul (.neg (.rd (.var .jTemp))) (.num 29061699999999998 15))),
  .set (.arr .jac 6) (.add (.rd (.arr .jac 6)) (.mul (.rd (.var .jTemp)) (.num 20158800000000001 16)))]

/-- utilities/mechanisms/yao/lib/src/jacobs/jacob_3.c:1943-1949 -/
def jacobT129 : List CStmt := [
  .set (.var .jTemp) (.mul (.mul (.div (.num 1 0) (.rd (.var .T))) (.sub (.mul (.rd (.arr .fwd 129)) (.neg (.num 1 0))) (.mul (.rd (.arr .rev 129)) (.add (.neg (.num 1 0)) (.mul (.neg (.rd (.var .T))) (.sub (.sub (.add (.rd (.arr .dBdT 14)) (.rd (.arr .dBdT 11))) (.rd (.arr .dBdT 21))) (.rd (.arr .dBdT 2)))))))) (.rd (.var .rhoInv))),
  .set (.arr .jac 3) (.add (.rd (.arr .jac 3)) (.mul (.neg (.rd (.var .jTemp))) (.num 159994 4))),
  .set (.arr .jac 12) (.add (.rd (.arr .jac 12)) (.mul (.rd (.var .jTemp)) (.num 1503482 5))),
  .set (.arr .jac 22) (.add (.rd (.arr .jac 22)) (.mul (.neg (.rd (.var .jTemp))) (.num 29061699999999998 15))),
  .set (.arr .jac 15) (.add (.rd (.arr .jac 15)) (.mul (.rd (.var .jTemp)) (.num 3002628 5)))]

/-- utilities/mechanisms/yao/lib/src/jacobs/jacob_3.c:2174-2180 -/
def jacobT130 : List CStmt := [
  .set (.var .jTemp) (.mul (.mul (.div (.num 1 0) (.rd (.var .T))) (.sub (.mul (.rd (.arr .fwd 130)) (.neg (.num 1 0))) (.mul (.rd (.arr .rev 130)) (.add (.neg (.num 1 0)) (.mul (.neg (.rd (.var .T))) (.sub (.sub (.add (.rd (.arr .dBdT 20)) (.rd (.arr .dBdT 4))) (.rd (.arr .dBdT 21))) (.rd (.arr .dBdT 8)))))))) (.rd (.var .rhoInv))),
  .set (.arr .jac 9) (.add (.rd (.arr .jac 9)) (.mul (.neg (.rd (.var .jTemp))) (.num 31998799999999999 15))),
  .set (.arr .jac 5) (.add (.rd (.arr .jac 5)) (.mul (.rd (.var .jTemp)) (.num 33006740000000001 15))),
  .set (.arr .jac 21) (.add (.rd (.arr .jac 21)) (.mul (.rd (.var .jTemp)) (.num 28053759999999997 15))),
  .set (.arr .jac 22) (.add (.rd (.arr .jac 22)) (.mul (.neg (.rd (.var .jTemp))) (.num 29061699999999998 15)))]

/-- utilities/mechanisms/yao/lib/src/jacobs/jacob_3.c:2405-2411 -/
def jacobT131 : List CStmt := [
  .set (.var .jTemp) (.mul (.mul (.div (.num 1 0) (.rd (.var .T))) (.sub (.mul (.rd (.arr .fwd 131)) (.neg (.num 1 0))) (.mul (.rd (.arr .rev 131)) (.add (.neg (.num 1 0)) (.mul (.neg (.rd (.var .T))) (.sub (.sub (.add (.rd (.arr .dBdT 22)) (.rd (.arr .dBdT 8))) (.rd (.arr .dBdT 21))) (.rd (.arr .dBdT 4)))))))) (.rd (.var .rhoInv))),
  .set (.arr .jac 9) (.add (.rd (.arr .jac 9)) (.mul (.rd (.var .jTemp)) (.num 31998799999999999 15))),
  .set (.arr .jac 5) (.add (.rd (.arr .jac 5)) (.mul (.neg (.rd (.var .jTemp))) (.num 33006740000000001 15))),
  .set (.arr .jac 22) (.add (.rd (.arr .jac 22)) (.mul (.neg (.rd (.var .jTemp))) (.num 29061699999999998 15))),
  .set (.arr .jac 23) (.add (.rd (.arr .jac 23)) (.mul (.rd (.var .jTemp)) (.num 3006964 5)))]

/-- utilities/mechanisms/yao/lib/src/jacobs/jacob_3.c:2636-2642 -/
def jacobT132 : List CStmt := [
  .set (.var .jTemp) (.mul (.mul (.div (.num 1 0) (.rd (.var .T))) (.sub (.mul (.rd (.arr .fwd 132)) (.neg (.num 1 0))) (.mul (.rd (.arr .rev 132)) (.add (.neg (.num 1 0)) (.mul (.neg (.rd (.var .T))) (.sub (.sub (.add (.rd (.arr .dBdT 20)) (.rd (.arr .dBdT 7))) (.rd (.arr .dBdT 21))) (.rd (.arr .dBdT 4)))))))) (.rd (.var .rhoInv))),
  .set (.arr .jac 21) (.add (.rd (.arr .jac 21)) (.mul (.rd (.var .jTemp)) (.num 28053759999999997 15))),
  .set (.arr .jac 5) (.add (.rd (.arr .jac 5)) (.mul (.neg (.rd (.var .jTemp))) (.num 33006740000000001 15))),
  .set (.arr .jac 22) (.add (.rd (.arr .jac 22)) (.mul (.neg (.rd (.var .jTemp))) (.num 29061699999999998 15))),
  .set (.arr .jac 8) (.add (.rd (.arr .jac 8)) (.mul (.rd (.var .jTemp)) (.num 34014679999999998 15)))]

/-- utilities/mechanisms/yao/lib/src/jacobs/jacob_3.c:2867-2874 -/
def jacobT133 : List CStmt := [
  .set (.var .jTemp) (.mul (.mul (.div (.num 1 0) (.rd (.var .T))) (.sub (.mul (.rd (.arr .fwd 133)) (.neg (.num 1 0))) (.mul (.rd (.arr .rev 133)) (.add (.neg (.num 2 0)) (.mul (.neg (.rd (.var .T))) (.sub (.sub (.add (.add (.rd (.arr .dBdT 14)) (.rd (.arr .dBdT 11))) (.rd (.arr .dBdT 3))) (.rd (.arr .dBdT 21))) (.rd (.arr .dBdT 4)))))))) (.rd (.var .rhoInv))),
  .set (.arr .jac 4) (.add (.rd (.arr .jac 4)) (.mul (.rd (.var .jTemp)) (.num 17007339999999999 15))),
  .set (.arr .jac 12) (.add (.rd (.arr .jac 12)) (.mul (.rd (.var .jTemp)) (.num 1503482 5))),
  .set (.arr .jac 5) (.add (.rd (.arr .jac 5)) (.mul (.neg (.rd (.var .jTemp))) (.num 33006740000000001 15))),
  .set (.arr .jac 22) (.add (.rd (.arr .jac 22)) (.mul (.neg (.rd (.var .jTemp))) (.num 29061699999999998 15))),
  .set (.arr .jac 15) (.add (.rd (.arr .jac 15)) (.mul (.rd (.var .jTemp)) (.num 3002628 5)))]

/-- utilities/mechanisms/yao/lib/src/jacobs/jacob_3.c:3152-3158 -/
def jacobT134 : List CStmt := [
  .set (.var .jTemp) (.mul (.mul (.div (.num 1 0) (.rd (.var .T))) (.sub (.add (.mul (.sub (.rd (.arr .fwd 134)) (.rd (.arr .rev 134))) (.div (.num 49013585617282439 14) (.rd (.var .T)))) (.mul (.rd (.arr .fwd 134)) (.neg (.num 1 0)))) (.mul (.rd (.arr .rev 134)) (.add (.neg (.num 1 0)) (.mul (.neg (.rd (.var .T))) (.sub (.sub (.add (.rd (.arr .dBdT 22)) (.rd (.arr .dBdT 4))) (.rd (.arr .dBdT 21))) (.rd (.arr .dBdT 7)))))))) (.rd (.var .rhoInv))),
  .set (.arr .jac 5) (.add (.rd (.arr .jac 5)) (.mul (.rd (.var .jTemp)) (.num 33006740000000001 15))),
  .set (.arr .jac 22) (.add (.rd (.arr .jac 22)) (.mul (.neg (.rd (.var .jTemp))) (.num 29061699999999998 15))),
  .set (.arr .jac 23) (.add (.rd (.arr .jac 23)) (.mul (.rd (.var .jTemp)) (.num 3006964 5))),
  .set (.arr .jac 8) (.add (.rd (.arr .jac 8)) (.mul (.neg (.rd (.var .jTemp))) (.num 34014679999999998 15)))]

/-- utilities/mechanisms/yao/lib/src/jacobs/jacob_3.c:3383-3393 -/
def jacobT135 : List CStmt := [
  .set (.var .Pr) (.mul (.rd (.var .concTemp)) (.exp (.sub (.sub (.num 9213619354258482 14) (.mul (.num 1179 2) (.rd (.var .logT)))) (.div (.num 45211761804771468 13) (.rd (.var .T)))))),
  .set (.var .Fcent) (.add (.add (.mul (.num 80200000000000005 17) (.exp (.div (.rd (.var .T)) (.neg (.num 22779000000000001 13))))) (.mul (.num 19800000000000001 17) (.exp (.div (.rd (.var .T)) (.neg (.num 60000 0)))))) (.exp (.div (.neg (.num 57231999999999998 13)) (.rd (.var .T))))),
  .set (.var .A) (.sub (.sub (.log10 (.fmax (.rd (.var .Pr)) (.num 1 300))) (.mul (.num 67 2) (.log10 (.fmax (.rd (.var .Fcent)) (.num 1 300))))) (.num 4 1)),
  .set (.var .B) (.sub (.sub (.num 806 3) (.mul (.num 11762 4) (.log10 (.fmax (.rd (.var .Fcent)) (.num 1 300))))) (.mul (.num 14 2) (.log10 (.fmax (.rd (.var .Pr)) (.num 1 300))))),
  .set (.var .lnFAB) (.div (.mul (.mul (.num 2 0) (.log (.fmax (.rd (.var .Fcent)) (.num 1 300)))) (.rd (.var .A))) (.mul (.mul (.mul (.mul (.rd (.var .B)) (.rd (.var .B))) (.rd (.var .B))) (.add (.num 1 0) (.div (.mul (.rd (.var .A)) (.rd (.var .A))) (.mul (.rd (.var .B)) (.rd (.var .B)))))) (.add (.num 1 0) (.div (.mul (.rd (.var .A)) (.rd (.var .A))) (.mul (.rd (.var .B)) (.rd (.var .B))))))),
  .set (.var .jTemp) (.mul (.add (.mul (.mul (.rd (.arr .presMod 19)) (.sub (.add (.div (.sub (.add (.neg (.num 1179 2)) (.div (.num 45211761804771468 13) (.rd (.var .T)))) (.num 1 0)) (.mul (.rd (.var .T)) (.add (.num 1 0) (.rd (.var .Pr))))) (.mul (.sub (.div (.num 1 0) (.mul (.rd (.var .Fcent)) (.add (.num 1 0) (.div (.mul (.rd (.var .A)) (.rd (.var .A))) (.mul (.rd (.var .B)) (.rd (.var .B))))))) (.div (.mul (.rd (.var .lnFAB)) (.add (.mul (.neg (.num 2909773028751787 16)) (.rd (.var .B))) (.mul (.num 51081716961460466 17) (.rd (.var .A))))) (.rd (.var .Fcent)))) (.add (.sub (.mul (.neg (.num 35207866894947098 20)) (.exp (.div (.rd (.var .T)) (.neg (.num 22779000000000001 13))))) (.mul (.num 33000000000000002 22) (.exp (.div (.rd (.var .T)) (.neg (.num 60000 0)))))) (.mul (.div (.num 57231999999999998 13) (.mul (.rd (.var .T)) (.rd (.var .T)))) (.exp (.div (.neg (.num 57231999999999998 13)) (.rd (.var .T)))))))) (.div (.mul (.mul (.rd (.var .lnFAB)) (.add (.mul (.num 43429448190325176 17) (.rd (.var .B))) (.mul (.num 60801227466455256 18) (.rd (.var .A))))) (.sub (.add (.neg (.num 11789999999999999 15)) (.div (.num 45211761804771468 13) (.rd (.var .T)))) (.num 1 0))) (.rd (.var .T))))) (.sub (.rd (.arr .fwd 135)) (.rd (.arr .rev 135)))) (.mul (.div (.rd (.arr .presMod 19)) (.rd (.var .T))) (.sub (.mul (.rd (.arr .fwd 135)) (.neg (.num 1 0))) (.mul (.rd (.arr .rev 135)) (.mul (.neg (.rd (.var .T))) (.sub (.sub (.rd (.arr .dBdT 29)) (.rd (.arr .dBdT 21))) (.rd (.arr .dBdT 19)))))))) (.rd (.var .rhoInv))),
  .set (.arr .jac 20) (.add (.rd (.arr .jac 20)) (.mul (.neg (.rd (.var .jTemp))) (.num 27045819999999999 15))),
  .set (.arr .jac 22) (.add (.rd (.arr .jac 22)) (.mul (.neg (.rd (.var .jTemp))) (.num 29061699999999998 15))),
  .set (.arr .jac 30) (.mul (.rd (.var .jTemp)) (.num 56107519999999994 15))]

/-- utilities/mechanisms/yao/lib/src/jacobs/jacob_3.c:3567-3573 -/
def jacobT136 : List CStmt := [
  .set (.var .jTemp) (.mul (.mul (.div (.num 1 0) (.rd (.var .T))) (.sub (.add (.mul (.sub (.rd (.arr .fwd 136)) (.rd (.arr .rev 136))) (.add (.neg (.num 52199999999999998 16)) (.div (.num 99370767472738844 13) (.rd (.var .T))))) (.mul (.rd (.arr .fwd 136)) (.neg (.num 1 0)))) (.mul (.rd (.arr .rev 136)) (.add (.neg (.num 1 0)) (.mul (.neg (.rd (.var .T))) (.sub (.sub (.add (.rd (.arr .dBdT 11)) (.rd (.arr .dBdT 24))) (.rd (.arr .dBdT 21))) (.rd (.arr .dBdT 19)))))))) (.rd (.var .rhoInv))),
  .set (.arr .jac 12) (.add (.rd (.arr .jac 12)) (.mul (.rd (.var .jTemp)) (.num 1503482 5))),
  .set (.arr .jac 25) (.add (.rd (.arr .jac 25)) (.mul (.rd (.var .jTemp)) (.num 41072699999999998 15))),
  .set (.arr .jac 20) (.add (.rd (.arr .jac 20)) (.mul (.neg (.rd (.var .jTemp))) (.num 27045819999999999 15))),
  .set (.arr .jac 22) (.add (.rd (.arr .jac 22)) (.mul (.neg (.rd (.var .jTemp))) (.num 29061699999999998 15)))]

/-- utilities/mechanisms/yao/lib/src/jacobs/jacob_3.c:3798-3804 -/
def jacobT137 : List CStmt := [
  .set (.var .jTemp) (.mul (.mul (.div (.num 1 0) (.rd (.var .T))) (.sub (.add (.mul (.sub (.rd (.arr .fwd 137)) (.rd (.arr .rev 137))) (.add (.num 18999999999999999 16) (.div (.num 37892433233894944 13) (.rd (.var .T))))) (.mul (.rd (.arr .fwd 137)) (.neg (.num 1 0)))) (.mul (.rd (.arr .rev 137)) (.add (.neg (.num 1 0)) (.mul (.neg (.rd (.var .T))) (.sub (.sub (.add (.rd (.arr .dBdT 5)) (.rd (.arr .dBdT 21))) (.rd (.arr .dBdT 22))) (.rd (.arr .dBdT 1)))))))) (.rd (.var .rhoInv))),
  .set (.arr .jac 2) (.add (.rd (.arr .jac 2)) (.mul (.neg (.rd (.var .jTemp))) (.num 10079400000000001 16))),
  .set (.arr .jac 6) (.add (.rd (.arr .jac 6)) (.mul (.rd (.var .jTemp)) (.num 20158800000000001 16))),
  .set (.arr .jac 23) (.add (.rd (.arr .jac 23)) (.mul (.neg (.rd (.var .jTemp))) (.num 3006964 5))),
  .set (.arr .jac 22) (.add (.rd (.arr .jac 22)) (.mul (.rd (.var .jTemp)) (.num 29061699999999998 15)))]

/-- utilities/mechanisms/yao/lib/src/jacobs/jacob_3.c:4029-4035 -/
def jacobT138 : List CStmt := [
  .set (.var .jTemp) (.mul (.mul (.div (.num 1 0) (.rd (.var .T))) (.sub (.add (.mul (.sub (.rd (.arr .fwd 138)) (.rd (.arr .rev 138))) (.add (.num 19199999999999999 16) (.div (.num 28633193240486353 13) (.rd (.var .T))))) (.mul (.rd (.arr .fwd 138)) (.neg (.num 1 0)))) (.mul (.rd (.arr .rev 138)) (.add (.neg (.num 1 0)) (.mul (.neg (.rd (.var .T))) (.sub (.sub (.add (.rd (.arr .dBdT 21)) (.rd (.arr .dBdT 3))) (.rd (.arr .dBdT 22))) (.rd (.arr .dBdT 2)))))))) (.rd (.var .rhoInv))),
  .set (.arr .jac 3) (.add (.rd (.arr .jac 3)) (.mul (.neg (.rd (.var .jTemp))) (.num 159994 4))),
  .set (.arr .jac 4) (.add (.rd (.arr .jac 4)) (.mul (.rd (.var .jTemp)) (.num 17007339999999999 15))),
  .set (.arr .jac 22) (.add (.rd (.arr .jac 22)) (.mul (.rd (.var .jTemp)) (.num 29061699999999998 15))),
  .set (.arr .jac 23) (.add (.rd (.arr .jac 23)) (.mul (.neg (.rd (.var .jTemp))) (.num 3006964 5)))]

/-- utilities/mechanisms/yao/lib/src/jacobs/jacob_3.c:4260-4266 -/
def jacobT139 : List CStmt := [
  .set (.var .jTemp) (.mul (.mul (.div (.num 1 0) (.rd (.var .T))) (.sub (.add (.mul (.sub (.rd (.arr .fwd 139)) (.rd (.arr .rev 139))) (.add (.num 21200000000000001 16) (.div (.num 43780102142747148 14) (.rd (.var .T))))) (.mul (.rd (.arr .fwd 139)) (.neg (.num 1 0)))) (.mul (.rd (.arr .rev 139)) (.add (.neg (.num 1 0)) (.mul (.neg (.rd (.var .T))) (.sub (.sub (.add (.rd (.arr .dBdT 21)) (.rd (.arr .dBdT 6))) (.rd (.arr .dBdT 22))) (.rd (.arr .dBdT 3)))))))) (.rd (.var .rhoInv))),
  .set (.arr .jac 7) (.add (.rd (.arr .jac 7)) (.mul (.rd (.var .jTemp)) (.num 18015280000000001 15))),
  .set (.arr .jac 4) (.add (.rd (.arr .jac 4)) (.mul (.neg (.rd (.var .jTemp))) (.num 17007339999999999 15))),
  .set (.arr .jac 22) (.add (.rd (.arr .jac 22)) (.mul (.rd (.var .jTemp)) (.num 29061699999999998 15))),
  .set (.arr .jac 23) (.add (.rd (.arr .jac 23)) (.mul (.neg (.rd (.var .jTemp))) (.num 3006964 5)))]

/-- utilities/mechanisms/yao/lib/src/jacobs/jacob_3.c:4491-4497 -/
def jacobT140 : List CStmt := [
  .set (.var .jTemp) (.mul (.mul (.div (.num 1 0) (.rd (.var .T))) (.sub (.add (.mul (.sub (.rd (.arr .fwd 140)) (.rd (.arr .rev 140))) (.div (.neg (.num 27677076067253944 14)) (.rd (.var .T)))) (.mul (.rd (.arr .fwd 140)) (.neg (.num 1 0)))) (.mul (.rd (.arr .rev 140)) (.add (.neg (.num 1 0)) (.mul (.neg (.rd (.var .T))) (.sub (.sub (.add (.rd (.arr .dBdT 21)) (.rd (.arr .dBdT 11))) (.rd (.arr .dBdT 22))) (.rd (.arr .dBdT 10)))))))) (.rd (.var .rhoInv))),
  .set (.arr .jac 11) (.add (.rd (.arr .jac 11)) (.mul (.neg (.rd (.var .jTemp))) (.num 14026879999999998 15))),
  .set (.arr .jac 12) (.add (.rd (.arr .jac 12)) (.mul (.rd (.var .jTemp)) (.num 1503482 5))),
  .set (.arr .jac 22) (.add (.rd (.arr .jac 22)) (.mul (.rd (.var .jTemp)) (.num 29061699999999998 15))),
  .set (.arr .jac 23) (.add (.rd (.arr .jac 23)) (.mul (.neg (.rd (.var .jTemp))) (.num 3006964 5)))]

/-- utilities/mechanisms/yao/lib/src/jacobs/jacob_3.c:4722-4728 -/
def jacobT141 : List CStmt := [
  .set (.var .jTemp) (.mul (.mul (.div (.num 1 0) (.rd (.var .T))) (.sub (.add (.mul (.sub (.rd (.arr .fwd 141)) (.rd (.arr .rev 141))) (.add (.num 174 2) (.div (.num 52586444527782496 13) (.rd (.var .T))))) (.mul (.rd (.arr .fwd 141)) (.neg (.num 1 0)))) (.mul (.rd (.arr .rev 141)) (.add (.neg (.num 1 0)) (.mul (.neg (.rd (.var .T))) (.sub (.sub (.add (.rd (.arr .dBdT 21)) (.rd (.arr .dBdT 12))) (.rd (.arr .dBdT 22))) (.rd (.arr .dBdT 11)))))))) (.rd (.var .rhoInv))),
  .set (.arr .jac 12) (.add (.rd (.arr .jac 12)) (.mul (.neg (.rd (.var .jTemp))) (.num 1503482 5))),
  .set (.arr .jac 13) (.add (.rd (.arr .jac 13)) (.mul (.rd (.var .jTemp)) (.num 16042760000000001 15))),
  .set (.arr .jac 22) (.add (.rd (.arr .jac 22)) (.mul (.rd (.var .jTemp)) (.num 29061699999999998 15))),
  .set (.arr .jac 23) (.add (.rd (.arr .jac 23)) (.mul (.neg (.rd (.var .jTemp))) (.num 3006964 5)))]

/-- utilities/mechanisms/yao/lib/src/jacobs/jacob_3.c:4953-4963 -/
def jacobT142 : List CStmt := [
  .set (.var .Pr) (.mul (.rd (.var .concTemp)) (.exp (.sub (.sub (.num 98603190760417675 15) (.mul (.num 12 0) (.rd (.var .logT)))) (.div (.num 30031137191665107 13) (.rd (.var .T)))))),
  .set (.var .Fcent) (.add (.add (.mul (.num 97999999999999998 17) (.exp (.div (.rd (.var .T)) (.neg (.num 10965999999999999 13))))) (.mul (.num 2 2) (.exp (.div (.rd (.var .T)) (.neg (.num 10965999999999999 13)))))) (.exp (.div (.neg (.num 68595 1)) (.rd (.var .T))))),
  .set (.var .A) (.sub (.sub (.log10 (.fmax (.rd (.var .Pr)) (.num 1 300))) (.mul (.num 67 2) (.log10 (.fmax (.rd (.var .Fcent)) (.num 1 300))))) (.num 4 1)),
  .set (.var .B) (.sub (.sub (.num 806 3) (.mul (.num 11762 4) (.log10 (.fmax (.rd (.var .Fcent)) (.num 1 300))))) (.mul (.num 14 2) (.log10 (.fmax (.rd (.var .Pr)) (.num 1 300))))),
  .set (.var .lnFAB) (.div (.mul (.mul (.num 2 0) (.log (.fmax (.rd (.var .Fcent)) (.num 1 300)))) (.rd (.var .A))) (.mul (.mul (.mul (.mul (.rd (.var .B)) (.rd (.var .B))) (.rd (.var .B))) (.add (.num 1 0) (.div (.mul (.rd (.var .A)) (.rd (.var .A))) (.mul (.rd (.var .B)) (.rd (.var .B)))))) (.add (.num 1 0) (.div (.mul (.rd (.var .A)) (.rd (.var .A))) (.mul (.rd (.var .B)) (.rd (.var .B))))))),
  .set (.var .jTemp) (.mul (.add (.mul (.mul (.rd (.arr .presMod 20)) (.sub (.add (.div (.sub (.add (.neg (.num 12 0)) (.div (.num 30031137191665107 13) (.rd (.var .T)))) (.num 1 0)) (.mul (.rd (.var .T)) (.add (.num 1 0) (.rd (.var .Pr))))) (.mul (.sub (.div (.num 1 0) (.mul (.rd (.var .Fcent)) (.add (.num 1 0) (.div (.mul (.rd (.var .A)) (.rd (.var .A))) (.mul (.rd (.var .B)) (.rd (.var .B))))))) (.div (.mul (.rd (.var .lnFAB)) (.add (.mul (.neg (.num 2909773028751787 16)) (.rd (.var .B))) (.mul (.num 51081716961460466 17) (.rd (.var .A))))) (.rd (.var .Fcent)))) (.add (.sub (.mul (.neg (.num 8936713478022981 19)) (.exp (.div (.rd (.var .T)) (.neg (.num 10965999999999999 13))))) (.mul (.num 18238190771475471 21) (.exp (.div (.rd (.var .T)) (.neg (.num 10965999999999999 13)))))) (.mul (.div (.num 68595 1) (.mul (.rd (.var .T)) (.rd (.var .T)))) (.exp (.div (.neg (.num 68595 1)) (.rd (.var .T)))))))) (.div (.mul (.mul (.rd (.var .lnFAB)) (.add (.mul (.num 43429448190325176 17) (.rd (.var .B))) (.mul (.num 60801227466455256 18) (.rd (.var .A))))) (.sub (.add (.neg (.num 12 0)) (.div (.num 30031137191665107 13) (.rd (.var .T)))) (.num 1 0))) (.rd (.var .T))))) (.sub (.rd (.arr .fwd 142)) (.rd (.arr .rev 142)))) (.mul (.div (.rd (.arr .presMod 20)) (.rd (.var .T))) (.sub (.mul (.rd (.arr .fwd 142)) (.neg (.num 1 0))) (.mul (.rd (.arr .rev 142)) (.mul (.neg (.rd (.var .T))) (.sub (.sub (.rd (.arr .dBdT 25)) (.rd (.arr .dBdT 1))) (.rd (.arr .dBdT 24)))))))) (.rd (.var .rhoInv))),
  .set (.arr .jac 25) (.add (.rd (.arr .jac 25)) (.mul (.neg (.rd (.var .jTemp))) (.num 41072699999999998 15))),
  .set (.arr .jac 2) (.add (.rd (.arr .jac 2)) (.mul (.neg (.rd (.var .jTemp))) (.num 10079400000000001 16))),
  .set (.arr .jac 26) (.add (.rd (.arr .jac 26)) (.mul (.rd (.var .jTemp)) (.num 42080640000000002 15)))]

/-- utilities/mechanisms/yao/lib/src/jacobs/jacob_3.c:5137-5143 -/
def jacobT143 : List CStmt := [
  .set (.var .jTemp) (.mul (.mul (.div (.num 1 0) (.rd (.var .T))) (.sub (.mul (.rd (.arr .fwd 143)) (.neg (.num 1 0))) (.mul (.rd (.arr .rev 143)) (.add (.neg (.num 1 0)) (.mul (.neg (.rd (.var .T))) (.sub (.sub (.add (.rd (.arr .dBdT 1)) (.rd (.arr .dBdT 27))) (.rd (.arr .dBdT 24))) (.rd (.arr .dBdT 2)))))))) (.rd (.var .rhoInv))),
  .set (.arr .jac 25) (.add (.rd (.arr .jac 25)) (.mul (.neg (.rd (.var .jTemp))) (.num 41072699999999998 15))),
  .set (.arr .jac 2) (.add (.rd (.arr .jac 2)) (.mul (.rd (.var .jTemp)) (.num 10079400000000001 16))),
  .set (.arr .jac 3) (.add (.rd (.arr .jac 3)) (.mul (.neg (.rd (.var .jTemp))) (.num 159994 4))),
  .set (.arr .jac 28) (.add (.rd (.arr .jac 28)) (.mul (.rd (.var .jTemp)) (.num 56064160000000001 15)))]

/-- utilities/mechanisms/yao/lib/src/jacobs/jacob_3.c:5368-5374 -/
def jacobT144 : List CStmt := [
  .set (.var .jTemp) (.mul (.mul (.div (.num 1 0) (.rd (.var .T))) (.sub (.add (.mul (.sub (.rd (.arr .fwd 144)) (.rd (.arr .rev 144))) (.add (.neg (.num 51600000000000001 16)) (.div (.num 15159992610947134 12) (.rd (.var .T))))) (.mul (.rd (.arr .fwd 144)) (.neg (.num 1 0)))) (.mul (.rd (.arr .rev 144)) (.add (.neg (.num 2 0)) (.mul (.neg (.rd (.var .T))) (.sub (.sub (.add (.mul (.num 2 0) (.rd (.arr .dBdT 1))) (.rd (.arr .dBdT 27))) (.rd (.arr .dBdT 24))) (.rd (.arr .dBdT 3)))))))) (.rd (.var .rhoInv))),
  .set (.arr .jac 25) (.add (.rd (.arr .jac 25)) (.mul (.neg (.rd (.var .jTemp))) (.num 41072699999999998 15))),
  .set (.arr .jac 2) (.add (.rd (.arr .jac 2)) (.mul (.mul (.rd (.var .jTemp)) (.num 2 0)) (.num 10079400000000001 16))),
  .set (.arr .jac 4) (.add (.rd (.arr .jac 4)) (.mul (.neg (.rd (.var .jTemp))) (.num 17007339999999999 15))),
  .set (.arr .jac 28) (.add (.rd (.arr .jac 28)) (.mul (.rd (.var .jTemp)) (.num 56064160000000001 15)))]

/-- utilities/mechanisms/yao/lib/src/jacobs/jacob_3.c:5599-5605 -/
def jacobT145 : List CStmt := [
  .set (.var .jTemp) (.mul (.mul (.div (.num 1 0) (.rd (.var .T))) (.sub (.add (.mul (.sub (.rd (.arr .fwd 145)) (.rd (.arr .rev 145))) (.add (.neg (.num 40999999999999998 17)) (.div (.num 11503096033115598 12) (.rd (.var .T))))) (.mul (.rd (.arr .fwd 145)) (.neg (.num 1 0)))) (.mul (.rd (.arr .rev 145)) (.add (.neg (.num 1 0)) (.mul (.neg (.rd (.var .T))) (.sub (.sub (.add (.rd (.arr .dBdT 27)) (.rd (.arr .dBdT 3))) (.rd (.arr .dBdT 24))) (.rd (.arr .dBdT 8)))))))) (.rd (.var .rhoInv))),
  .set (.arr .jac 25) (.add (.rd (.arr .jac 25)) (.mul (.neg (.rd (.var .jTemp))) (.num 41072699999999998 15))),
  .set (.arr .jac 9) (.add (.rd (.arr .jac 9)) (.mul (.neg (.rd (.var .jTemp))) (.num 31998799999999999 15))),
  .set (.arr .jac 28) (.add (.rd (.arr .jac 28)) (.mul (.rd (.var .jTemp)) (.num 56064160000000001 15))),
  .set (.arr .jac 4) (.add (.rd (.arr .jac 4)) (.mul (.rd (.var .jTemp)) (.num 17007339999999999 15)))]

/-- utilities/mechanisms/yao/lib/src/jacobs/jacob_3.c:5830-5836 -/
def jacobT146 : List CStmt := [
  .set (.var .jTemp) (.mul (.mul (.div (.num 1 0) (.rd (.var .T))) (.sub (.mul (.rd (.arr .fwd 146)) (.neg (.num 1 0))) (.mul (.rd (.arr .rev 146)) (.add (.neg (.num 1 0)) (.mul (.neg (.rd (.var .T))) (.sub (.sub (.add (.rd (.arr .dBdT 25)) (.rd (.arr .dBdT 8))) (.rd (.arr .dBdT 24))) (.rd (.arr .dBdT 4)))))))) (.rd (.var .rhoInv))),
  .set (.arr .jac 25) (.add (.rd (.arr .jac 25)) (.mul (.neg (.rd (.var .jTemp))) (.num 41072699999999998 15))),
  .set (.arr .jac 26) (.add (.rd (.arr .jac 26)) (.mul (.rd (.var .jTemp)) (.num 42080640000000002 15))),
  .set (.arr .jac 5) (.add (.rd (.arr .jac 5)) (.mul (.neg (.rd (.var .jTemp))) (.num 33006740000000001 15))),
  .set (.arr .jac 9) (.add (.rd (.arr .jac 9)) (.mul (.rd (.var .jTemp)) (.num 31998799999999999 15)))]

/-- utilities/mechanisms/yao/lib/src/jacobs/jacob_3.c:6061-6068 -/
def jacobT147 : List CStmt := [
  .set (.var .jTemp) (.mul (.mul (.div (.num 1 0) (.rd (.var .T))) (.sub (.mul (.rd (.arr .fwd 147)) (.neg (.num 1 0))) (.mul (.rd (.arr .rev 147)) (.add (.neg (.num 2 0)) (.mul (.neg (.rd (.var .T))) (.sub (.sub (.add (.add (.rd (.arr .dBdT 14)) (.rd (.arr .dBdT 19))) (.rd (.arr .dBdT 3))) (.rd (.arr .dBdT 24))) (.rd (.arr .dBdT 4)))))))) (.rd (.var .rhoInv))),
  .set (.arr .jac 25) (.add (.rd (.arr .jac 25)) (.mul (.neg (.rd (.var .jTemp))) (.num 41072699999999998 15))),
  .set (.arr .jac 4) (.add (.rd (.arr .jac 4)) (.mul (.rd (.var .jTemp)) (.num 17007339999999999 15))),
  .set (.arr .jac 20) (.add (.rd (.arr .jac 20)) (.mul (.rd (.var .jTemp)) (.num 27045819999999999 15))),
  .set (.arr .jac 5) (.add (.rd (.arr .jac 5)) (.mul (.neg (.rd (.var .jTemp))) (.num 33006740000000001 15))),
  .set (.arr .jac 15) (.add (.rd (.arr .jac 15)) (.mul (.rd (.var .jTemp)) (.num 3002628 5)))]

/-- utilities/mechanisms/yao/lib/src/jacobs/jacob_3.c:6346-6352 -/
def jacobT148 : List CStmt := [
  .set (.var .jTemp) (.mul (.mul (.div (.num 1 0) (.rd (.var .T))) (.sub (.mul (.rd (.arr .fwd 148)) (.neg (.num 1 0))) (.mul (.rd (.arr .rev 148)) (.add (.neg (.num 1 0)) (.mul (.neg (.rd (.var .T))) (.sub (.sub (.add (.rd (.arr .dBdT 25)) (.rd (.arr .dBdT 16))) (.rd (.arr .dBdT 24))) (.rd (.arr .dBdT 13)))))))) (.rd (.var .rhoInv))),
  .set (.arr .jac 25) (.add (.rd (.arr .jac 25)) (.mul (.neg (.rd (.var .jTemp))) (.num 41072699999999998 15))),
  .set (.arr .jac 26) (.add (.rd (.arr .jac 26)) (.mul (.rd (.var .jTemp)) (.num 42080640000000002 15))),
  .set (.arr .jac 14) (.add (.rd (.arr .jac 14)) (.mul (.neg (.rd (.var .jTemp))) (.num 29018339999999998 15))),
  .set (.arr .jac 17) (.add (.rd (.arr .jac 17)) (.mul (.rd (.var .jTemp)) (.num 28010399999999997 15)))]

/-- utilities/mechanisms/yao/lib/src/jacobs/jacob_3.c:6577-6587 -/
def jacobT149 : List CStmt := [
  .set (.var .Pr) (.mul (.rd (.var .concTemp)) (.exp (.sub (.sub (.num 10037469637274124 14) (.mul (.num 1249 2) (.rd (.var .logT)))) (.div (.num 32771167722323248 13) (.rd (.var .T)))))),
  .set (.var .Fcent) (.add (.add (.mul (.num 89600000000000002 17) (.exp (.div (.rd (.var .T)) (.neg (.num 1606 0))))) (.mul (.num 104 3) (.exp (.div (.rd (.var .T)) (.neg (.num 60000 0)))))) (.exp (.div (.neg (.num 61183999999999996 13)) (.rd (.var .T))))),
  .set (.var .A) (.sub (.sub (.log10 (.fmax (.rd (.var .Pr)) (.num 1 300))) (.mul (.num 67 2) (.log10 (.fmax (.rd (.var .Fcent)) (.num 1 300))))) (.num 4 1)),
  .set (.var .B) (.sub (.sub (.num 806 3) (.mul (.num 11762 4) (.log10 (.fmax (.rd (.var .Fcent)) (.num 1 300))))) (.mul (.num 14 2) (.log10 (.fmax (.rd (.var .Pr)) (.num 1 300))))),
  .set (.var .lnFAB) (.div (.mul (.mul (.num 2 0) (.log (.fmax (.rd (.var .Fcent)) (.num 1 300)))) (.rd (.var .A))) (.mul (.mul (.mul (.mul (.rd (.var .B)) (.rd (.var .B))) (.rd (.var .B))) (.add (.num 1 0) (.div (.mul (.rd (.var .A)) (.rd (.var .A))) (.mul (.rd (.var .B)) (.rd (.var .B)))))) (.add (.num 1 0) (.div (.mul (.rd (.var .A)) (.rd (.var .A))) (.mul (.rd (.var .B)) (.rd (.var .B))))))),
  .set (.var .jTemp) (.mul (.add (.mul (.mul (.rd (.arr .presMod 21)) (.sub (.add (.div (.sub (.add (.neg (.num 1249 2)) (.div (.num 32771167722323248 13) (.rd (.var .T)))) (.num 1 0)) (.mul (.rd (.var .T)) (.add (.num 1 0) (.rd (.var .Pr))))) (.mul (.sub (.div (.num 1 0) (.mul (.rd (.var .Fcent)) (.add (.num 1 0) (.div (.mul (.rd (.var .A)) (.rd (.var .A))) (.mul (.rd (.var .B)) (.rd (.var .B))))))) (.div (.mul (.rd (.var .lnFAB)) (.add (.mul (.neg (.num 2909773028751787 16)) (.rd (.var .B))) (.mul (.num 51081716961460466 17) (.rd (.var .A))))) (.rd (.var .Fcent)))) (.add (.sub (.mul (.neg (.num 5579078455790785 19)) (.exp (.div (.rd (.var .T)) (.neg (.num 1606 0))))) (.mul (.num 17333333333333332 22) (.exp (.div (.rd (.var .T)) (.neg (.num 60000 0)))))) (.mul (.div (.num 61183999999999996 13) (.mul (.rd (.var .T)) (.rd (.var .T)))) (.exp (.div (.neg (.num 61183999999999996 13)) (.rd (.var .T)))))))) (.div (.mul (.mul (.rd (.var .lnFAB)) (.add (.mul (.num 43429448190325176 17) (.rd (.var .B))) (.mul (.num 60801227466455256 18) (.rd (.var .A))))) (.sub (.add (.neg (.num 1249 2)) (.div (.num 32771167722323248 13) (.rd (.var .T)))) (.num 1 0))) (.rd (.var .T))))) (.sub (.rd (.arr .fwd 149)) (.rd (.arr .rev 149)))) (.mul (.div (.rd (.arr .presMod 21)) (.rd (.var .T))) (.sub (.add (.mul (.sub (.rd (.arr .fwd 149)) (.rd (.arr .rev 149))) (.add (.neg (.num 32000000000000001 17)) (.div (.neg (.num 13199449186255836 14)) (.rd (.var .T))))) (.mul (.rd (.arr .fwd 149)) (.neg (.num 1 0)))) (.mul (.rd (.arr .rev 149)) (.mul (.neg (.rd (.var .T))) (.sub (.sub (.rd (.arr .dBdT 29)) (.rd (.arr .dBdT 11))) (.rd (.arr .dBdT 24)))))))) (.rd (.var .rhoInv))),
  .set (.arr .jac 25) (.add (.rd (.arr .jac 25)) (.mul (.neg (.rd (.var .jTemp))) (.num 41072699999999998 15))),
  .set (.arr .jac 12) (.add (.rd (.arr .jac 12)) (.mul (.neg (.rd (.var .jTemp))) (.num 1503482 5))),
  .set (.arr .jac 30) (.add (.rd (.arr .jac 30)) (.mul (.rd (.var .jTemp)) (.num 56107519999999994 15)))]

/-- utilities/mechanisms/yao/lib/src/jacobs/jacob_3.c:6761-6771 -/
def jacobT150 : List CStmt := [
  .set (.var .Pr) (.mul (.rd (.var .concTemp)) (.exp (.sub (.sub (.num 52205873288747348 15) (.mul (.num 666 2) (.rd (.var .logT)))) (.div (.num 18816889188778669 13) (.rd (.var .T)))))),
  .set (.var .Fcent) (.add (.add (.mul (.num 0 0) (.exp (.div (.rd (.var .T)) (.neg (.num 1000 0))))) (.mul (.num 1 0) (.exp (.div (.rd (.var .T)) (.neg (.num 1310 0)))))) (.exp (.div (.neg (.num 48097 0)) (.rd (.var .T))))),
  .set (.var .A) (.sub (.sub (.log10 (.fmax (.rd (.var .Pr)) (.num 1 300))) (.mul (.num 67 2) (.log10 (.fmax (.rd (.var .Fcent)) (.num 1 300))))) (.num 4 1)),
  .set (.var .B) (.sub (.sub (.num 806 3) (.mul (.num 11762 4) (.log10 (.fmax (.rd (.var .Fcent)) (.num 1 300))))) (.mul (.num 14 2) (.log10 (.fmax (.rd (.var .Pr)) (.num 1 300))))),
  .set (.var .lnFAB) (.div (.mul (.mul (.num 2 0) (.log (.fmax (.rd (.var .Fcent)) (.num 1 300)))) (.rd (.var .A))) (.mul (.mul (.mul (.mul (.rd (.var .B)) (.rd (.var .B))) (.rd (.var .B))) (.add (.num 1 0) (.div (.mul (.rd (.var .A)) (.rd (.var .A))) (.mul (.rd (.var .B)) (.rd (.var .B)))))) (.add (.num 1 0) (.div (.mul (.rd (.var .A)) (.rd (.var .A))) (.mul (.rd (.var .B)) (.rd (.var .B))))))),
  .set (.var .jTemp) (.mul (.add (.mul (.mul (.rd (.arr .presMod 22)) (.sub (.add (.div (.sub (.add (.neg (.num 666 2)) (.div (.num 18816889188778669 13) (.rd (.var .T)))) (.num 1 0)) (.mul (.rd (.var .T)) (.add (.num 1 0) (.rd (.var .Pr))))) (.mul (.sub (.div (.num 1 0) (.mul (.rd (.var .Fcent)) (.add (.num 1 0) (.div (.mul (.rd (.var .A)) (.rd (.var .A))) (.mul (.rd (.var .B)) (.rd (.var .B))))))) (.div (.mul (.rd (.var .lnFAB)) (.add (.mul (.neg (.num 2909773028751787 16)) (.rd (.var .B))) (.mul (.num 51081716961460466 17) (.rd (.var .A))))) (.rd (.var .Fcent)))) (.add (.sub (.mul (.neg (.num 0 0)) (.exp (.div (.rd (.var .T)) (.neg (.num 1000 0))))) (.mul (.num 76335877862595419 20) (.exp (.div (.rd (.var .T)) (.neg (.num 1310 0)))))) (.mul (.div (.num 48097 0) (.mul (.rd (.var .T)) (.rd (.var .T)))) (.exp (.div (.neg (.num 48097 0)) (.rd (.var .T)))))))) (.div (.mul (.mul (.rd (.var .lnFAB)) (.add (.mul (.num 43429448190325176 17) (.rd (.var .B))) (.mul (.num 60801227466455256 18) (.rd (.var .A))))) (.sub (.add (.neg (.num 66600000000000001 16)) (.div (.num 18816889188778669 13) (.rd (.var .T)))) (.num 1 0))) (.rd (.var .T))))) (.sub (.rd (.arr .fwd 150)) (.rd (.arr .rev 150)))) (.mul (.div (.rd (.arr .presMod 22)) (.rd (.var .T))) (.sub (.add (.mul (.sub (.rd (.arr .fwd 150)) (.rd (.arr .rev 150))) (.div (.num 16408480351362714 13) (.rd (.var .T)))) (.mul (.rd (.arr .fwd 150)) (.neg (.num 1 0)))) (.mul (.rd (.arr .rev 150)) (.mul (.neg (.rd (.var .T))) (.sub (.sub (.rd (.arr .dBdT 26)) (.rd (.arr .dBdT 25))) (.rd (.arr .dBdT 1)))))))) (.rd (.var .rhoInv))),
  .set (.arr .jac 26) (.add (.rd (.arr .jac 26)) (.mul (.neg (.rd (.var .jTemp))) (.num 42080640000000002 15))),
  .set (.arr .jac 27) (.add (.rd (.arr .jac 27)) (.mul (.rd (.var .jTemp)) (.num 4308858 5))),
  .set (.arr .jac 2) (.add (.rd (.arr .jac 2)) (.mul (.neg (.rd (.var .jTemp))) (.num 10079400000000001 16)))]

/-- utilities/mechanisms/yao/lib/src/jacobs/jacob_3.c:6945-6951 -/
def jacobT151 : List CStmt := [
  .set (.var .jTemp) (.mul (.mul (.div (.num 1 0) (.rd (.var .T))) (.sub (.add (.mul (.sub (.rd (.arr .fwd 151)) (.rd (.arr .rev 151))) (.add (.neg (.num 23900000000000001 16)) (.div (.num 56259947351254386 13) (.rd (.var .T))))) (.mul (.rd (.arr .fwd 151)) (.neg (.num 1 0)))) (.mul (.rd (.arr .rev 151)) (.add (.neg (.num 1 0)) (.mul (.neg (.rd (.var .T))) (.sub (.sub (.add (.rd (.arr .dBdT 11)) (.rd (.arr .dBdT 20))) (.rd (.arr .dBdT 25))) (.rd (.arr .dBdT 1)))))))) (.rd (.var .rhoInv))),
  .set (.arr .jac 26) (.add (.rd (.arr .jac 26)) (.mul (.neg (.rd (.var .jTemp))) (.num 42080640000000002 15))),
  .set (.arr .jac 12) (.add (.rd (.arr .jac 12)) (.mul (.rd (.var .jTemp)) (.num 1503482 5))),
  .set (.arr .jac 21) (.add (.rd (.arr .jac 21)) (.mul (.rd (.var .jTemp)) (.num 28053759999999997 15))),
  .set (.arr .jac 2) (.add (.rd (.arr .jac 2)) (.mul (.neg (.rd (.var .jTemp))) (.num 10079400000000001 16)))]

/-- utilities/mechanisms/yao/lib/src/jacobs/jacob_3.c:7176-7182 -/
def jacobT152 : List CStmt := [
  .set (.var .jTemp) (.mul (.mul (.div (.num 1 0) (.rd (.var .T))) (.sub (.add (.mul (.sub (.rd (.arr .fwd 152)) (.rd (.arr .rev 152))) (.add (.num 25 1) (.div (.num 1253016716499315 12) (.rd (.var .T))))) (.mul (.rd (.arr .fwd 152)) (.neg (.num 1 0)))) (.mul (.rd (.arr .rev 152)) (.add (.neg (.num 1 0)) (.mul (.neg (.rd (.var .T))) (.sub (.sub (.add (.rd (.arr .dBdT 5)) (.rd (.arr .dBdT 24))) (.rd (.arr .dBdT 25))) (.rd (.arr .dBdT 1)))))))) (.rd (.var .rhoInv))),
  .set (.arr .jac 25) (.add (.rd (.arr .jac 25)) (.mul (.rd (.var .jTemp)) (.num 41072699999999998 15))),
  .set (.arr .jac 26) (.add (.rd (.arr .jac 26)) (.mul (.neg (.rd (.var .jTemp))) (.num 42080640000000002 15))),
  .set (.arr .jac 6) (.add (.rd (.arr .jac 6)) (.mul (.rd (.var .jTemp)) (.num 20158800000000001 16))),
  .set (.arr .jac 2) (.add (.rd (.arr .jac 2)) (.mul (.neg (.rd (.var .jTemp))) (.num 10079400000000001 16)))]

/-- utilities/mechanisms/yao/lib/src/jacobs/jacob_3.c:7407-7413 -/
def jacobT153 : List CStmt := [
  .set (.var .jTemp) (.mul (.mul (.div (.num 1 0) (.rd (.var .T))) (.sub (.add (.mul (.sub (.rd (.arr .fwd 153)) (.rd (.arr .rev 153))) (.add (.num 16499999999999999 16) (.div (.num 16455279770894617 14) (.rd (.var .T))))) (.mul (.rd (.arr .fwd 153)) (.neg (.num 1 0)))) (.mul (.rd (.arr .rev 153)) (.add (.neg (.num 2 0)) (.mul (.neg (.rd (.var .T))) (.sub (.sub (.add (.mul (.num 2 0) (.rd (.arr .dBdT 1))) (.rd (.arr .dBdT 27))) (.rd (.arr .dBdT 25))) (.rd (.arr .dBdT 2)))))))) (.rd (.var .rhoInv))),
  .set (.arr .jac 26) (.add (.rd (.arr .jac 26)) (.mul (.neg (.rd (.var .jTemp))) (.num 42080640000000002 15))),
  .set (.arr .jac 3) (.add (.rd (.arr .jac 3)) (.mul (.neg (.rd (.var .jTemp))) (.num 159994 4))),
  .set (.arr .jac 28) (.add (.rd (.arr .jac 28)) (.mul (.rd (.var .jTemp)) (.num 56064160000000001 15))),
  .set (.arr .jac 2) (.add (.rd (.arr .jac 2)) (.mul (.mul (.rd (.var .jTemp)) (.num 2 0)) (.num 10079400000000001 16)))]

/-- utilities/mechanisms/yao/lib/src/jacobs/jacob_3.c:7638-7644 -/
def jacobT154 : List CStmt := [
  .set (.var .jTemp) (.mul (.mul (.div (.num 1 0) (.rd (.var .T))) (.sub (.add (.mul (.sub (.rd (.arr .fwd 154)) (.rd (.arr .rev 154))) (.add (.num 16499999999999999 16) (.div (.neg (.num 48912941704310606 14)) (.rd (.var .T))))) (.mul (.rd (.arr .fwd 154)) (.neg (.num 1 0)))) (.mul (.rd (.arr .rev 154)) (.add (.neg (.num 1 0)) (.mul (.neg (.rd (.var .T))) (.sub (.sub (.add (.rd (.arr .dBdT 21)) (.rd (.arr .dBdT 13))) (.rd (.arr .dBdT 25))) (.rd (.arr .dBdT 2)))))))) (.rd (.var .rhoInv))),
  .set (.arr .jac 26) (.add (.rd (.arr .jac 26)) (.mul (.neg (.rd (.var .jTemp))) (.num 42080640000000002 15))),
  .set (.arr .jac 3) (.add (.rd (.arr .jac 3)) (.mul (.neg (.rd (.var .jTemp))) (.num 159994 4))),
  .set (.arr .jac 22) (.add (.rd (.arr .jac 22)) (.mul (.rd (.var .jTemp)) (.num 29061699999999998 15))),
  .set (.arr .jac 14) (.add (.rd (.arr .jac 14)) (.mul (.rd (.var .jTemp)) (.num 29018339999999998 15)))]

/-- utilities/mechanisms/yao/lib/src/jacobs/jacob_3.c:7869-7875 -/
def jacobT155 : List CStmt := [
  .set (.var .jTemp) (.mul (.mul (.div (.num 1 0) (.rd (.var .T))) (.sub (.add (.mul (.sub (.rd (.arr .fwd 155)) (.rd (.arr .rev 155))) (.add (.num 69999999999999996 17) (.div (.num 29589310413718763 13) (.rd (.var .T))))) (.mul (.rd (.arr .fwd 155)) (.neg (.num 1 0)))) (.mul (.rd (.arr .rev 155)) (.add (.neg (.num 1 0)) (.mul (.neg (.rd (.var .T))) (.sub (.sub (.add (.rd (.arr .dBdT 24)) (.rd (.arr .dBdT 3))) (.rd (.arr .dBdT 25))) (.rd (.arr .dBdT 2)))))))) (.rd (.var .rhoInv))),
  .set (.arr .jac 25) (.add (.rd (.arr .jac 25)) (.mul (.rd (.var .jTemp)) (.num 41072699999999998 15))),
  .set (.arr .jac 26) (.add (.rd (.arr .jac 26)) (.mul (.neg (.rd (.var .jTemp))) (.num 42080640000000002 15))),
  .set (.arr .jac 3) (.add (.rd (.arr .jac 3)) (.mul (.neg (.rd (.var .jTemp))) (.num 159994 4))),
  .set (.arr .jac 4) (.add (.rd (.arr .jac 4)) (.mul (.rd (.var .jTemp)) (.num 17007339999999999 15)))]

/-- utilities/mechanisms/yao/lib/src/jacobs/jacob_3.c:8100-8106 -/
def jacobT156 : List CStmt := [
  .set (.var .jTemp) (.mul (.mul (.div (.num 1 0) (.rd (.var .T))) (.sub (.add (.mul (.sub (.rd (.arr .fwd 156)) (.rd (.arr .rev 156))) (.add (.num 2 0) (.div (.neg (.num 14995943032803046 14)) (.rd (.var .T))))) (.mul (.rd (.arr .fwd 156)) (.neg (.num 1 0)))) (.mul (.rd (.arr .rev 156)) (.add (.neg (.num 1 0)) (.mul (.neg (.rd (.var .T))) (.sub (.sub (.add (.rd (.arr .dBdT 6)) (.rd (.arr .dBdT 24))) (.rd (.arr .dBdT 25))) (.rd (.arr .dBdT 3)))))))) (.rd (.var .rhoInv))),
  .set (.arr .jac 25) (.add (.rd (.arr .jac 25)) (.mul (.rd (.var .jTemp)) (.num 41072699999999998 15))),
  .set (.arr .jac 26) (.add (.rd (.arr .jac 26)) (.mul (.neg (.rd (.var .jTemp))) (.num 42080640000000002 15))),
  .set (.arr .jac 4) (.add (.rd (.arr .jac 4)) (.mul (.neg (.rd (.var .jTemp))) (.num 17007339999999999 15))),
  .set (.arr .jac 7) (.add (.rd (.arr .jac 7)) (.mul (.rd (.var .jTemp)) (.num 18015280000000001 15)))]

/-- utilities/mechanisms/yao/lib/src/jacobs/jacob_3.c:8331-8337 -/
def jacobT157 : List CStmt := [
  .set (.var .jTemp) (.mul (.mul (.div (.num 1 0) (.rd (.var .T))) (.sub (.add (.mul (.sub (.rd (.arr .fwd 157)) (.rd (.arr .rev 157))) (.add (.num 26000000000000001 16) (.div (.num 69997841471909524 13) (.rd (.var .T))))) (.mul (.rd (.arr .fwd 157)) (.neg (.num 1 0)))) (.mul (.rd (.arr .rev 157)) (.add (.neg (.num 1 0)) (.mul (.neg (.rd (.var .T))) (.sub (.sub (.add (.rd (.arr .dBdT 24)) (.rd (.arr .dBdT 7))) (.rd (.arr .dBdT 25))) (.rd (.arr .dBdT 4)))))))) (.rd (.var .rhoInv))),
  .set (.arr .jac 25) (.add (.rd (.arr .jac 25)) (.mul (.rd (.var .jTemp)) (.num 41072699999999998 15))),
  .set (.arr .jac 26) (.add (.rd (.arr .jac 26)) (.mul (.neg (.rd (.var .jTemp))) (.num 42080640000000002 15))),
  .set (.arr .jac 5) (.add (.rd (.arr .jac 5)) (.mul (.neg (.rd (.var .jTemp))) (.num 33006740000000001 15))),
  .set (.arr .jac 8) (.add (.rd (.arr .jac 8)) (.mul (.rd (.var .jTemp)) (.num 34014679999999998 15)))]

/-- utilities/mechanisms/yao/lib/src/jacobs/jacob_3.c:8562-8568 -/
def jacobT158 : List CStmt := [
  .set (.var .jTemp) (.mul (.mul (.div (.num 1 0) (.rd (.var .T))) (.sub (.add (.mul (.sub (.rd (.arr .fwd 158)) (.rd (.arr .rev 158))) (.add (.num 35 1) (.div (.num 28557710305757478 13) (.rd (.var .T))))) (.mul (.rd (.arr .fwd 158)) (.neg (.num 1 0)))) (.mul (.rd (.arr .rev 158)) (.add (.neg (.num 1 0)) (.mul (.neg (.rd (.var .T))) (.sub (.sub (.add (.rd (.arr .dBdT 24)) (.rd (.arr .dBdT 12))) (.rd (.arr .dBdT 25))) (.rd (.arr .dBdT 11)))))))) (.rd (.var .rhoInv))),
  .set (.arr .jac 25) (.add (.rd (.arr .jac 25)) (.mul (.rd (.var .jTemp)) (.num 41072699999999998 15))),
  .set (.arr .jac 26) (.add (.rd (.arr .jac 26)) (.mul (.neg (.rd (.var .jTemp))) (.num 42080640000000002 15))),
  .set (.arr .jac 12) (.add (.rd (.arr .jac 12)) (.mul (.neg (.rd (.var .jTemp))) (.num 1503482 5))),
  .set (.arr .jac 13) (.add (.rd (.arr .jac 13)) (.mul (.rd (.var .jTemp)) (.num 16042760000000001 15)))]

/-- utilities/mechanisms/yao/lib/src/jacobs/jacob_3.c:8793-8799 -/
def jacobT159 : List CStmt := [
  .set (.var .jTemp) (.mul (.mul (.div (.num 1 0) (.rd (.var .T))) (.sub (.add (.mul (.sub (.rd (.arr .fwd 159)) (.rd (.arr .rev 159))) (.add (.num 45400000000000001 17) (.div (.num 29287378674803267 13) (.rd (.var .T))))) (.mul (.rd (.arr .fwd 159)) (.neg (.num 1 0)))) (.mul (.rd (.arr .rev 159)) (.add (.neg (.num 1 0)) (.mul (.neg (.rd (.var .T))) (.sub (.sub (.add (.rd (.arr .dBdT 20)) (.rd (.arr .dBdT 13))) (.rd (.arr .dBdT 1))) (.rd (.arr .dBdT 27)))))))) (.rd (.var .rhoInv))),
  .set (.arr .jac 2) (.add (.rd (.arr .jac 2)) (.mul (.neg (.rd (.var .jTemp))) (.num 10079400000000001 16))),
  .set (.arr .jac 28) (.add (.rd (.arr .jac 28)) (.mul (.neg (.rd (.var .jTemp))) (.num 56064160000000001 15))),
  .set (.arr .jac 21) (.add (.rd (.arr .jac 21)) (.mul (.rd (.var .jTemp)) (.num 28053759999999997 15))),
  .set (.arr .jac 14) (.add (.rd (.arr .jac 14)) (.mul (.rd (.var .jTemp)) (.num 29018339999999998 15)))]

/-- The derivatives with respect to the temperature in `eval_jacob_3`, one block per reaction, utilities/mechanisms/yao/lib/src/jacobs/jacob_3.c:5-9023. -/
def jacob3Blocks : List (List CStmt × List CStmt) := [
  (jacobT120, []), (jacobT121, []), (jacobT122, []), (jacobT123, []), (jacobT124, []), (jacobT125, []), (jacobT126, []), (jacobT127, []), (jacobT128, []), (jacobT129, []), (jacobT130, []), (jacobT131, []), (jacobT132, []), (jacobT133, []), (jacobT134, []), (jacobT135, []), (jacobT136, []), (jacobT137, []), (jacobT138, []), (jacobT139, []), (jacobT140, []), (jacobT141, []), (jacobT142, []), (jacobT143, []), (jacobT144, []), (jacobT145, []), (jacobT146, []), (jacobT147, []), (jacobT148, []), (jacobT149, []), (jacobT150, []), (jacobT151, []), (jacobT152, []), (jacobT153, []), (jacobT154, []), (jacobT155, []), (jacobT156, []), (jacobT157, []), (jacobT158, []), (jacobT159, [])]

end DLB.Mech.Yao
