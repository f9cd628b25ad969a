/- Generated by tools/gen_mechanisms.py from utilities/mechanisms/gri30/lib/src/rxn_rates_pres_mod.c. Do not edit. -/
import Verif.Model.CLang
set_option autoImplicit false

namespace DLB.Mech.Gri30
open DLB

/-- utilities/mechanisms/gri30/lib/src/rxn_rates_pres_mod.c:6-21 -/
def presModStart : List CStmt := [
  .set (.var .logT) (.log (.rd (.var .T))),
  .set (.var .m) (.div (.rd (.var .pres)) (.mul (.num 83144621 4) (.rd (.var .T))))]

/-- utilities/mechanisms/gri30/lib/src/rxn_rates_pres_mod.c:22-24 -/
def presMod0 : List CStmt := [
  .set (.arr .presMod 0) (.sub (.add (.add (.add (.add (.add (.add (.rd (.var .m)) (.mul (.num 14 1) (.rd (.arr .C 0)))) (.mul (.num 144 1) (.rd (.arr .C 5)))) (.mul (.num 1 0) (.rd (.arr .C 13)))) (.mul (.num 75 2) (.rd (.arr .C 14)))) (.mul (.num 26 1) (.rd (.arr .C 15)))) (.mul (.num 2 0) (.rd (.arr .C 26)))) (.mul (.num 17 2) (.rd (.arr .C 47))))]

/-- utilities/mechanisms/gri30/lib/src/rxn_rates_pres_mod.c:25-27 -/
def presMod1 : List CStmt := [
  .set (.arr .presMod 1) (.sub (.add (.add (.add (.add (.add (.add (.rd (.var .m)) (.mul (.num 1 0) (.rd (.arr .C 0)))) (.mul (.num 5 0) (.rd (.arr .C 5)))) (.mul (.num 1 0) (.rd (.arr .C 13)))) (.mul (.num 5 1) (.rd (.arr .C 14)))) (.mul (.num 1 0) (.rd (.arr .C 15)))) (.mul (.num 2 0) (.rd (.arr .C 26)))) (.mul (.num 3 1) (.rd (.arr .C 47))))]

/-- utilities/mechanisms/gri30/lib/src/rxn_rates_pres_mod.c:28-34 -/
def presMod2 : List CStmt := [
  .set (.var .thd) (.sub (.add (.add (.add (.add (.add (.add (.add (.rd (.var .m)) (.mul (.num 1 0) (.rd (.arr .C 0)))) (.mul (.num 5 0) (.rd (.arr .C 3)))) (.mul (.num 5 0) (.rd (.arr .C 5)))) (.mul (.num 1 0) (.rd (.arr .C 13)))) (.mul (.num 5 1) (.rd (.arr .C 14)))) (.mul (.num 25 1) (.rd (.arr .C 15)))) (.mul (.num 2 0) (.rd (.arr .C 26)))) (.mul (.num 5 1) (.rd (.arr .C 47)))),
  .set (.var .k0) (.exp (.sub (.num 20215768003273094 15) (.div (.num 15096586945774879 13) (.rd (.var .T))))),
  .set (.var .kinf) (.exp (.sub (.num 16705882315860439 15) (.div (.num 12001786621891029 13) (.rd (.var .T))))),
  .set (.var .Pr) (.div (.mul (.rd (.var .k0)) (.rd (.var .thd))) (.rd (.var .kinf))),
  .set (.arr .presMod 2) (.div (.rd (.var .Pr)) (.add (.num 1 0) (.rd (.var .Pr))))]

/-- utilities/mechanisms/gri30/lib/src/rxn_rates_pres_mod.c:35-37 -/
def presMod3 : List CStmt := [
  .set (.arr .presMod 3) (.sub (.sub (.add (.add (.sub (.sub (.sub (.rd (.var .m)) (.mul (.num 1 0) (.rd (.arr .C 3)))) (.mul (.num 1 0) (.rd (.arr .C 5)))) (.mul (.num 25 2) (.rd (.arr .C 14)))) (.mul (.num 5 1) (.rd (.arr .C 15)))) (.mul (.num 5 1) (.rd (.arr .C 26)))) (.mul (.num 1 0) (.rd (.arr .C 52)))) (.mul (.num 1 0) (.rd (.arr .C 47))))]

/-- utilities/mechanisms/gri30/lib/src/rxn_rates_pres_mod.c:38-40 -/
def presMod4 : List CStmt := [
  .set (.arr .presMod 4) (.sub (.add (.sub (.add (.sub (.sub (.rd (.var .m)) (.mul (.num 1 0) (.rd (.arr .C 0)))) (.mul (.num 1 0) (.rd (.arr .C 5)))) (.mul (.num 1 0) (.rd (.arr .C 13)))) (.mul (.num 1 0) (.rd (.arr .C 15)))) (.mul (.num 2 0) (.rd (.arr .C 26)))) (.mul (.num 37 2) (.rd (.arr .C 47))))]

/-- utilities/mechanisms/gri30/lib/src/rxn_rates_pres_mod.c:41-43 -/
def presMod5 : List CStmt := [
  .set (.arr .presMod 5) (.sub (.add (.add (.add (.sub (.rd (.var .m)) (.mul (.num 27 2) (.rd (.arr .C 0)))) (.mul (.num 265 2) (.rd (.arr .C 5)))) (.mul (.num 1 0) (.rd (.arr .C 13)))) (.mul (.num 2 0) (.rd (.arr .C 26)))) (.mul (.num 62 2) (.rd (.arr .C 47))))]

/-- utilities/mechanisms/gri30/lib/src/rxn_rates_pres_mod.c:44-53 -/
def presMod6 : List CStmt := [
  .set (.var .thd) (.sub (.add (.add (.add (.add (.add (.add (.rd (.var .m)) (.mul (.num 1 0) (.rd (.arr .C 0)))) (.mul (.num 5 0) (.rd (.arr .C 5)))) (.mul (.num 1 0) (.rd (.arr .C 13)))) (.mul (.num 5 1) (.rd (.arr .C 14)))) (.mul (.num 1 0) (.rd (.arr .C 15)))) (.mul (.num 2 0) (.rd (.arr .C 26)))) (.mul (.num 3 1) (.rd (.arr .C 47)))),
  .set (.var .k0) (.exp (.sub (.sub (.num 46090922573034192 15) (.mul (.num 276 2) (.rd (.var .logT)))) (.div (.num 80515130377466016 14) (.rd (.var .T))))),
  .set (.var .kinf) (.num 600000000000 0),
  .set (.var .Pr) (.div (.mul (.rd (.var .k0)) (.rd (.var .thd))) (.rd (.var .kinf))),
  .set (.var .logFcent) (.log10 (.fmax (.add (.add (.mul (.num 438 3) (.exp (.div (.neg (.rd (.var .T))) (.num 91 0)))) (.mul (.num 562 3) (.exp (.div (.neg (.rd (.var .T))) (.num 5836 0))))) (.exp (.div (.neg (.num 8552 0)) (.rd (.var .T))))) (.num 1 300))),
  .set (.var .A) (.sub (.sub (.log10 (.fmax (.rd (.var .Pr)) (.num 1 300))) (.mul (.num 67 2) (.rd (.var .logFcent)))) (.num 4 1)),
  .set (.var .B) (.sub (.sub (.num 806 3) (.mul (.num 11762 4) (.rd (.var .logFcent)))) (.mul (.num 14 2) (.log10 (.fmax (.rd (.var .Pr)) (.num 1 300))))),
  .set (.arr .presMod 6) (.div (.mul (.pow (.num 10 0) (.div (.rd (.var .logFcent)) (.add (.num 1 0) (.div (.mul (.rd (.var .A)) (.rd (.var .A))) (.mul (.rd (.var .B)) (.rd (.var .B))))))) (.rd (.var .Pr))) (.add (.num 1 0) (.rd (.var .Pr))))]

/-- utilities/mechanisms/gri30/lib/src/rxn_rates_pres_mod.c:54-63 -/
def presMod7 : List CStmt := [
  .set (.var .thd) (.sub (.add (.add (.add (.add (.add (.add (.rd (.var .m)) (.mul (.num 1 0) (.rd (.arr .C 0)))) (.mul (.num 5 0) (.rd (.arr .C 5)))) (.mul (.num 2 0) (.rd (.arr .C 13)))) (.mul (.num 5 1) (.rd (.arr .C 14)))) (.mul (.num 1 0) (.rd (.arr .C 15)))) (.mul (.num 2 0) (.rd (.arr .C 26)))) (.mul (.num 3 1) (.rd (.arr .C 47)))),
  .set (.var .k0) (.exp (.sub (.sub (.num 63132971828612241 15) (.mul (.num 476 2) (.rd (.var .logT)))) (.div (.num 12278557382563567 13) (.rd (.var .T))))),
  .set (.var .kinf) (.exp (.sub (.sub (.num 30262909956065194 15) (.mul (.num 534 3) (.rd (.var .logT)))) (.div (.num 26972568676451118 14) (.rd (.var .T))))),
  .set (.var .Pr) (.div (.mul (.rd (.var .k0)) (.rd (.var .thd))) (.rd (.var .kinf))),
  .set (.var .logFcent) (.log10 (.fmax (.add (.add (.mul (.num 217 3) (.exp (.div (.neg (.rd (.var .T))) (.num 74 0)))) (.mul (.num 783 3) (.exp (.div (.neg (.rd (.var .T))) (.num 2941 0))))) (.exp (.div (.neg (.num 6964 0)) (.rd (.var .T))))) (.num 1 300))),
  .set (.var .A) (.sub (.sub (.log10 (.fmax (.rd (.var .Pr)) (.num 1 300))) (.mul (.num 67 2) (.rd (.var .logFcent)))) (.num 4 1)),
  .set (.var .B) (.sub (.sub (.num 806 3) (.mul (.num 11762 4) (.rd (.var .logFcent)))) (.mul (.num 14 2) (.log10 (.fmax (.rd (.var .Pr)) (.num 1 300))))),
  .set (.arr .presMod 7) (.div (.mul (.pow (.num 10 0) (.div (.rd (.var .logFcent)) (.add (.num 1 0) (.div (.mul (.rd (.var .A)) (.rd (.var .A))) (.mul (.rd (.var .B)) (.rd (.var .B))))))) (.rd (.var .Pr))) (.add (.num 1 0) (.rd (.var .Pr))))]

/-- utilities/mechanisms/gri30/lib/src/rxn_rates_pres_mod.c:64-73 -/
def presMod8 : List CStmt := [
  .set (.var .thd) (.sub (.add (.add (.add (.add (.add (.add (.rd (.var .m)) (.mul (.num 1 0) (.rd (.arr .C 0)))) (.mul (.num 5 0) (.rd (.arr .C 5)))) (.mul (.num 1 0) (.rd (.arr .C 13)))) (.mul (.num 5 1) (.rd (.arr .C 14)))) (.mul (.num 1 0) (.rd (.arr .C 15)))) (.mul (.num 2 0) (.rd (.arr .C 26)))) (.mul (.num 3 1) (.rd (.arr .C 47)))),
  .set (.var .k0) (.exp (.sub (.sub (.num 42350749824532706 15) (.mul (.num 257 2) (.rd (.var .logT)))) (.div (.num 21386831506514412 14) (.rd (.var .T))))),
  .set (.var .kinf) (.exp (.sub (.add (.num 20809443533187462 15) (.mul (.num 48 2) (.rd (.var .logT)))) (.div (.neg (.num 1308370868633823 13)) (.rd (.var .T))))),
  .set (.var .Pr) (.div (.mul (.rd (.var .k0)) (.rd (.var .thd))) (.rd (.var .kinf))),
  .set (.var .logFcent) (.log10 (.fmax (.add (.add (.mul (.num 2176 4) (.exp (.div (.neg (.rd (.var .T))) (.num 271 0)))) (.mul (.num 7824 4) (.exp (.div (.neg (.rd (.var .T))) (.num 2755 0))))) (.exp (.div (.neg (.num 6570 0)) (.rd (.var .T))))) (.num 1 300))),
  .set (.var .A) (.sub (.sub (.log10 (.fmax (.rd (.var .Pr)) (.num 1 300))) (.mul (.num 67 2) (.rd (.var .logFcent)))) (.num 4 1)),
  .set (.var .B) (.sub (.sub (.num 806 3) (.mul (.num 11762 4) (.rd (.var .logFcent)))) (.mul (.num 14 2) (.log10 (.fmax (.rd (.var .Pr)) (.num 1 300))))),
  .set (.arr .presMod 8) (.div (.mul (.pow (.num 10 0) (.div (.rd (.var .logFcent)) (.add (.num 1 0) (.div (.mul (.rd (.var .A)) (.rd (.var .A))) (.mul (.rd (.var .B)) (.rd (.var .B))))))) (.rd (.var .Pr))) (.add (.num 1 0) (.rd (.var .Pr))))]

/-- utilities/mechanisms/gri30/lib/src/rxn_rates_pres_mod.c:74-83 -/
def presMod9 : List CStmt := [
  .set (.var .thd) (.add (.add (.add (.add (.add (.add (.rd (.var .m)) (.mul (.num 1 0) (.rd (.arr .C 0)))) (.mul (.num 5 0) (.rd (.arr .C 5)))) (.mul (.num 1 0) (.rd (.arr .C 13)))) (.mul (.num 5 1) (.rd (.arr .C 14)))) (.mul (.num 1 0) (.rd (.arr .C 15)))) (.mul (.num 2 0) (.rd (.arr .C 26)))),
  .set (.var .k0) (.exp (.sub (.sub (.num 60106229318315691 15) (.mul (.num 482 2) (.rd (.var .logT)))) (.div (.num 32860237585303321 13) (.rd (.var .T))))),
  .set (.var .kinf) (.exp (.sub (.add (.num 20107079697522593 15) (.mul (.num 454 3) (.rd (.var .logT)))) (.div (.num 18115904334929855 13) (.rd (.var .T))))),
  .set (.var .Pr) (.div (.mul (.rd (.var .k0)) (.rd (.var .thd))) (.rd (.var .kinf))),
  .set (.var .logFcent) (.log10 (.fmax (.add (.add (.mul (.num 2813 4) (.exp (.div (.neg (.rd (.var .T))) (.num 103 0)))) (.mul (.num 7187 4) (.exp (.div (.neg (.rd (.var .T))) (.num 1291 0))))) (.exp (.div (.neg (.num 4160 0)) (.rd (.var .T))))) (.num 1 300))),
  .set (.var .A) (.sub (.sub (.log10 (.fmax (.rd (.var .Pr)) (.num 1 300))) (.mul (.num 67 2) (.rd (.var .logFcent)))) (.num 4 1)),
  .set (.var .B) (.sub (.sub (.num 806 3) (.mul (.num 11762 4) (.rd (.var .logFcent)))) (.mul (.num 14 2) (.log10 (.fmax (.rd (.var .Pr)) (.num 1 300))))),
  .set (.arr .presMod 9) (.div (.mul (.pow (.num 10 0) (.div (.rd (.var .logFcent)) (.add (.num 1 0) (.div (.mul (.rd (.var .A)) (.rd (.var .A))) (.mul (.rd (.var .B)) (.rd (.var .B))))))) (.rd (.var .Pr))) (.add (.num 1 0) (.rd (.var .Pr))))]

/-- utilities/mechanisms/gri30/lib/src/rxn_rates_pres_mod.c:84-93 -/
def presMod10 : List CStmt := [
  .set (.var .thd) (.add (.add (.add (.add (.add (.add (.rd (.var .m)) (.mul (.num 1 0) (.rd (.arr .C 0)))) (.mul (.num 5 0) (.rd (.arr .C 5)))) (.mul (.num 1 0) (.rd (.arr .C 13)))) (.mul (.num 5 1) (.rd (.arr .C 14)))) (.mul (.num 1 0) (.rd (.arr .C 15)))) (.mul (.num 2 0) (.rd (.arr .C 26)))),
  .set (.var .k0) (.exp (.sub (.sub (.num 56050499592221364 15) (.mul (.num 48 1) (.rd (.var .logT)))) (.div (.num 27979007806169443 13) (.rd (.var .T))))),
  .set (.var .kinf) (.exp (.sub (.add (.num 20107079697522593 15) (.mul (.num 454 3) (.rd (.var .logT)))) (.div (.num 1308370868633823 12) (.rd (.var .T))))),
  .set (.var .Pr) (.div (.mul (.rd (.var .k0)) (.rd (.var .thd))) (.rd (.var .kinf))),
  .set (.var .logFcent) (.log10 (.fmax (.add (.add (.mul (.num 242 3) (.exp (.div (.neg (.rd (.var .T))) (.num 94 0)))) (.mul (.num 758 3) (.exp (.div (.neg (.rd (.var .T))) (.num 1555 0))))) (.exp (.div (.neg (.num 4200 0)) (.rd (.var .T))))) (.num 1 300))),
  .set (.var .A) (.sub (.sub (.log10 (.fmax (.rd (.var .Pr)) (.num 1 300))) (.mul (.num 67 2) (.rd (.var .logFcent)))) (.num 4 1)),
  .set (.var .B) (.sub (.sub (.num 806 3) (.mul (.num 11762 4) (.rd (.var .logFcent)))) (.mul (.num 14 2) (.log10 (.fmax (.rd (.var .Pr)) (.num 1 300))))),
  .set (.arr .presMod 10) (.div (.mul (.pow (.num 10 0) (.div (.rd (.var .logFcent)) (.add (.num 1 0) (.div (.mul (.rd (.var .A)) (.rd (.var .A))) (.mul (.rd (.var .B)) (.rd (.var .B))))))) (.rd (.var .Pr))) (.add (.num 1 0) (.rd (.var .Pr))))]

/-- utilities/mechanisms/gri30/lib/src/rxn_rates_pres_mod.c:94-103 -/
def presMod11 : List CStmt := [
  .set (.var .thd) (.add (.add (.add (.add (.add (.add (.rd (.var .m)) (.mul (.num 1 0) (.rd (.arr .C 0)))) (.mul (.num 5 0) (.rd (.arr .C 5)))) (.mul (.num 1 0) (.rd (.arr .C 13)))) (.mul (.num 5 1) (.rd (.arr .C 14)))) (.mul (.num 1 0) (.rd (.arr .C 15)))) (.mul (.num 2 0) (.rd (.arr .C 26)))),
  .set (.var .k0) (.exp (.sub (.sub (.num 59037099382212084 15) (.mul (.num 465 2) (.rd (.var .logT)))) (.div (.num 25563553894845463 13) (.rd (.var .T))))),
  .set (.var .kinf) (.exp (.sub (.add (.num 20776806603874441 15) (.mul (.num 5 1) (.rd (.var .logT)))) (.div (.num 43276882577887989 15) (.rd (.var .T))))),
  .set (.var .Pr) (.div (.mul (.rd (.var .k0)) (.rd (.var .thd))) (.rd (.var .kinf))),
  .set (.var .logFcent) (.log10 (.fmax (.add (.add (.mul (.num 4 1) (.exp (.div (.neg (.rd (.var .T))) (.num 100 0)))) (.mul (.num 6 1) (.exp (.div (.neg (.rd (.var .T))) (.num 90000 0))))) (.exp (.div (.neg (.num 10000 0)) (.rd (.var .T))))) (.num 1 300))),
  .set (.var .A) (.sub (.sub (.log10 (.fmax (.rd (.var .Pr)) (.num 1 300))) (.mul (.num 67 2) (.rd (.var .logFcent)))) (.num 4 1)),
  .set (.var .B) (.sub (.sub (.num 806 3) (.mul (.num 11762 4) (.rd (.var .logFcent)))) (.mul (.num 14 2) (.log10 (.fmax (.rd (.var .Pr)) (.num 1 300))))),
  .set (.arr .presMod 11) (.div (.mul (.pow (.num 10 0) (.div (.rd (.var .logFcent)) (.add (.num 1 0) (.div (.mul (.rd (.var .A)) (.rd (.var .A))) (.mul (.rd (.var .B)) (.rd (.var .B))))))) (.rd (.var .Pr))) (.add (.num 1 0) (.rd (.var .Pr))))]

/-- utilities/mechanisms/gri30/lib/src/rxn_rates_pres_mod.c:104-113 -/
def presMod12 : List CStmt := [
  .set (.var .thd) (.add (.add (.add (.add (.add (.add (.rd (.var .m)) (.mul (.num 1 0) (.rd (.arr .C 0)))) (.mul (.num 5 0) (.rd (.arr .C 5)))) (.mul (.num 1 0) (.rd (.arr .C 13)))) (.mul (.num 5 1) (.rd (.arr .C 14)))) (.mul (.num 1 0) (.rd (.arr .C 15)))) (.mul (.num 2 0) (.rd (.arr .C 26)))),
  .set (.var .k0) (.exp (.sub (.sub (.num 82129493702929153 15) (.mul (.num 744 2) (.rd (.var .logT)))) (.div (.num 70853314732170102 13) (.rd (.var .T))))),
  .set (.var .kinf) (.exp (.sub (.add (.num 21611157094298868 15) (.mul (.num 515 3) (.rd (.var .logT)))) (.div (.num 2516097824295813 14) (.rd (.var .T))))),
  .set (.var .Pr) (.div (.mul (.rd (.var .k0)) (.rd (.var .thd))) (.rd (.var .kinf))),
  .set (.var .logFcent) (.log10 (.fmax (.add (.add (.mul (.num 3 1) (.exp (.div (.neg (.rd (.var .T))) (.num 100 0)))) (.mul (.num 7 1) (.exp (.div (.neg (.rd (.var .T))) (.num 90000 0))))) (.exp (.div (.neg (.num 10000 0)) (.rd (.var .T))))) (.num 1 300))),
  .set (.var .A) (.sub (.sub (.log10 (.fmax (.rd (.var .Pr)) (.num 1 300))) (.mul (.num 67 2) (.rd (.var .logFcent)))) (.num 4 1)),
  .set (.var .B) (.sub (.sub (.num 806 3) (.mul (.num 11762 4) (.rd (.var .logFcent)))) (.mul (.num 14 2) (.log10 (.fmax (.rd (.var .Pr)) (.num 1 300))))),
  .set (.arr .presMod 12) (.div (.mul (.pow (.num 10 0) (.div (.rd (.var .logFcent)) (.add (.num 1 0) (.div (.mul (.rd (.var .A)) (.rd (.var .A))) (.mul (.rd (.var .B)) (.rd (.var .B))))))) (.rd (.var .Pr))) (.add (.num 1 0) (.rd (.var .Pr))))]

/-- utilities/mechanisms/gri30/lib/src/rxn_rates_pres_mod.c:114-123 -/
def presMod13 : List CStmt := [
  .set (.var .thd) (.sub (.add (.add (.add (.add (.add (.add (.rd (.var .m)) (.mul (.num 1 0) (.rd (.arr .C 0)))) (.mul (.num 5 0) (.rd (.arr .C 5)))) (.mul (.num 1 0) (.rd (.arr .C 13)))) (.mul (.num 5 1) (.rd (.arr .C 14)))) (.mul (.num 1 0) (.rd (.arr .C 15)))) (.mul (.num 2 0) (.rd (.arr .C 26)))) (.mul (.num 3 1) (.rd (.arr .C 47)))),
  .set (.var .k0) (.exp (.sub (.sub (.num 63491553350821555 15) (.mul (.num 48 1) (.rd (.var .logT)))) (.div (.num 95611717323240896 14) (.rd (.var .T))))),
  .set (.var .kinf) (.exp (.sub (.num 32236191301916641 15) (.mul (.num 1 0) (.rd (.var .logT))))),
  .set (.var .Pr) (.div (.mul (.rd (.var .k0)) (.rd (.var .thd))) (.rd (.var .kinf))),
  .set (.var .logFcent) (.log10 (.fmax (.add (.add (.mul (.num 3536 4) (.exp (.div (.neg (.rd (.var .T))) (.num 132 0)))) (.mul (.num 6464 4) (.exp (.div (.neg (.rd (.var .T))) (.num 1315 0))))) (.exp (.div (.neg (.num 5566 0)) (.rd (.var .T))))) (.num 1 300))),
  .set (.var .A) (.sub (.sub (.log10 (.fmax (.rd (.var .Pr)) (.num 1 300))) (.mul (.num 67 2) (.rd (.var .logFcent)))) (.num 4 1)),
  .set (.var .B) (.sub (.sub (.num 806 3) (.mul (.num 11762 4) (.rd (.var .logFcent)))) (.mul (.num 14 2) (.log10 (.fmax (.rd (.var .Pr)) (.num 1 300))))),
  .set (.arr .presMod 13) (.div (.mul (.pow (.num 10 0) (.div (.rd (.var .logFcent)) (.add (.num 1 0) (.div (.mul (.rd (.var .A)) (.rd (.var .A))) (.mul (.rd (.var .B)) (.rd (.var .B))))))) (.rd (.var .Pr))) (.add (.num 1 0) (.rd (.var .Pr))))]

/-- utilities/mechanisms/gri30/lib/src/rxn_rates_pres_mod.c:124-133 -/
def presMod14 : List CStmt := [
  .set (.var .thd) (.sub (.add (.add (.add (.add (.add (.add (.rd (.var .m)) (.mul (.num 1 0) (.rd (.arr .C 0)))) (.mul (.num 5 0) (.rd (.arr .C 5)))) (.mul (.num 1 0) (.rd (.arr .C 13)))) (.mul (.num 5 1) (.rd (.arr .C 14)))) (.mul (.num 1 0) (.rd (.arr .C 15)))) (.mul (.num 2 0) (.rd (.arr .C 26)))) (.mul (.num 3 1) (.rd (.arr .C 47)))),
  .set (.var .k0) (.exp (.sub (.sub (.num 79622894228529887 15) (.mul (.num 727 2) (.rd (.var .logT)))) (.div (.num 36332452582831543 13) (.rd (.var .T))))),
  .set (.var .kinf) (.exp (.sub (.num 22446032434687513 15) (.div (.num 12077269556619904 13) (.rd (.var .T))))),
  .set (.var .Pr) (.div (.mul (.rd (.var .k0)) (.rd (.var .thd))) (.rd (.var .kinf))),
  .set (.var .logFcent) (.log10 (.fmax (.add (.add (.mul (.num 2493 4) (.exp (.div (.neg (.rd (.var .T))) (.num 985 1)))) (.mul (.num 7507 4) (.exp (.div (.neg (.rd (.var .T))) (.num 1302 0))))) (.exp (.div (.neg (.num 4167 0)) (.rd (.var .T))))) (.num 1 300))),
  .set (.var .A) (.sub (.sub (.log10 (.fmax (.rd (.var .Pr)) (.num 1 300))) (.mul (.num 67 2) (.rd (.var .logFcent)))) (.num 4 1)),
  .set (.var .B) (.sub (.sub (.num 806 3) (.mul (.num 11762 4) (.rd (.var .logFcent)))) (.mul (.num 14 2) (.log10 (.fmax (.rd (.var .Pr)) (.num 1 300))))),
  .set (.arr .presMod 14) (.div (.mul (.pow (.num 10 0) (.div (.rd (.var .logFcent)) (.add (.num 1 0) (.div (.mul (.rd (.var .A)) (.rd (.var .A))) (.mul (.rd (.var .B)) (.rd (.var .B))))))) (.rd (.var .Pr))) (.add (.num 1 0) (.rd (.var .Pr))))]

/-- utilities/mechanisms/gri30/lib/src/rxn_rates_pres_mod.c:134-143 -/
def presMod15 : List CStmt := [
  .set (.var .thd) (.sub (.add (.add (.add (.add (.add (.add (.rd (.var .m)) (.mul (.num 1 0) (.rd (.arr .C 0)))) (.mul (.num 5 0) (.rd (.arr .C 5)))) (.mul (.num 1 0) (.rd (.arr .C 13)))) (.mul (.num 5 1) (.rd (.arr .C 14)))) (.mul (.num 1 0) (.rd (.arr .C 15)))) (.mul (.num 2 0) (.rd (.arr .C 26)))) (.mul (.num 3 1) (.rd (.arr .C 47)))),
  .set (.var .k0) (.exp (.sub (.sub (.num 55598514468478307 15) (.mul (.num 386 2) (.rd (.var .logT)))) (.div (.num 16706889553324199 13) (.rd (.var .T))))),
  .set (.var .kinf) (.exp (.sub (.add (.num 22528270532924488 15) (.mul (.num 27 2) (.rd (.var .logT)))) (.div (.num 14090147816056555 14) (.rd (.var .T))))),
  .set (.var .Pr) (.div (.mul (.rd (.var .k0)) (.rd (.var .thd))) (.rd (.var .kinf))),
  .set (.var .logFcent) (.log10 (.fmax (.add (.add (.mul (.num 218 3) (.exp (.div (.neg (.rd (.var .T))) (.num 2075 1)))) (.mul (.num 782 3) (.exp (.div (.neg (.rd (.var .T))) (.num 2663 0))))) (.exp (.div (.neg (.num 6095 0)) (.rd (.var .T))))) (.num 1 300))),
  .set (.var .A) (.sub (.sub (.log10 (.fmax (.rd (.var .Pr)) (.num 1 300))) (.mul (.num 67 2) (.rd (.var .logFcent)))) (.num 4 1)),
  .set (.var .B) (.sub (.sub (.num 806 3) (.mul (.num 11762 4) (.rd (.var .logFcent)))) (.mul (.num 14 2) (.log10 (.fmax (.rd (.var .Pr)) (.num 1 300))))),
  .set (.arr .presMod 15) (.div (.mul (.pow (.num 10 0) (.div (.rd (.var .logFcent)) (.add (.num 1 0) (.div (.mul (.rd (.var .A)) (.rd (.var .A))) (.mul (.rd (.var .B)) (.rd (.var .B))))))) (.rd (.var .Pr))) (.add (.num 1 0) (.rd (.var .Pr))))]

/-- utilities/mechanisms/gri30/lib/src/rxn_rates_pres_mod.c:144-153 -/
def presMod16 : List CStmt := [
  .set (.var .thd) (.sub (.add (.add (.add (.add (.add (.add (.rd (.var .m)) (.mul (.num 1 0) (.rd (.arr .C 0)))) (.mul (.num 5 0) (.rd (.arr .C 5)))) (.mul (.num 1 0) (.rd (.arr .C 13)))) (.mul (.num 5 1) (.rd (.arr .C 14)))) (.mul (.num 1 0) (.rd (.arr .C 15)))) (.mul (.num 2 0) (.rd (.arr .C 26)))) (.mul (.num 3 1) (.rd (.arr .C 47)))),
  .set (.var .k0) (.exp (.sub (.sub (.num 8238223772401966 14) (.mul (.num 762 2) (.rd (.var .logT)))) (.div (.num 35074403670683637 13) (.rd (.var .T))))),
  .set (.var .kinf) (.exp (.sub (.add (.num 20107079697522593 15) (.mul (.num 454 3) (.rd (.var .logT)))) (.div (.num 91585960804367608 14) (.rd (.var .T))))),
  .set (.var .Pr) (.div (.mul (.rd (.var .k0)) (.rd (.var .thd))) (.rd (.var .kinf))),
  .set (.var .logFcent) (.log10 (.fmax (.add (.add (.mul (.num 247 4) (.exp (.div (.neg (.rd (.var .T))) (.num 210 0)))) (.mul (.num 9753 4) (.exp (.div (.neg (.rd (.var .T))) (.num 984 0))))) (.exp (.div (.neg (.num 4374 0)) (.rd (.var .T))))) (.num 1 300))),
  .set (.var .A) (.sub (.sub (.log10 (.fmax (.rd (.var .Pr)) (.num 1 300))) (.mul (.num 67 2) (.rd (.var .logFcent)))) (.num 4 1)),
  .set (.var .B) (.sub (.sub (.num 806 3) (.mul (.num 11762 4) (.rd (.var .logFcent)))) (.mul (.num 14 2) (.log10 (.fmax (.rd (.var .Pr)) (.num 1 300))))),
  .set (.arr .presMod 16) (.div (.mul (.pow (.num 10 0) (.div (.rd (.var .logFcent)) (.add (.num 1 0) (.div (.mul (.rd (.var .A)) (.rd (.var .A))) (.mul (.rd (.var .B)) (.rd (.var .B))))))) (.rd (.var .Pr))) (.add (.num 1 0) (.rd (.var .Pr))))]

/-- utilities/mechanisms/gri30/lib/src/rxn_rates_pres_mod.c:154-163 -/
def presMod17 : List CStmt := [
  .set (.var .thd) (.sub (.add (.add (.add (.add (.add (.add (.rd (.var .m)) (.mul (.num 1 0) (.rd (.arr .C 0)))) (.mul (.num 5 0) (.rd (.arr .C 5)))) (.mul (.num 1 0) (.rd (.arr .C 13)))) (.mul (.num 5 1) (.rd (.arr .C 14)))) (.mul (.num 1 0) (.rd (.arr .C 15)))) (.mul (.num 2 0) (.rd (.arr .C 26)))) (.mul (.num 3 1) (.rd (.arr .C 47)))),
  .set (.var .k0) (.exp (.sub (.sub (.num 81278612893528006 15) (.mul (.num 708 2) (.rd (.var .logT)))) (.div (.num 33640227910835024 13) (.rd (.var .T))))),
  .set (.var .kinf) (.exp (.sub (.sub (.num 33886771157681913 15) (.mul (.num 99 2) (.rd (.var .logT)))) (.div (.num 79508691247747697 14) (.rd (.var .T))))),
  .set (.var .Pr) (.div (.mul (.rd (.var .k0)) (.rd (.var .thd))) (.rd (.var .kinf))),
  .set (.var .logFcent) (.log10 (.fmax (.add (.add (.mul (.num 1578 4) (.exp (.div (.neg (.rd (.var .T))) (.num 125 0)))) (.mul (.num 8422 4) (.exp (.div (.neg (.rd (.var .T))) (.num 2219 0))))) (.exp (.div (.neg (.num 6882 0)) (.rd (.var .T))))) (.num 1 300))),
  .set (.var .A) (.sub (.sub (.log10 (.fmax (.rd (.var .Pr)) (.num 1 300))) (.mul (.num 67 2) (.rd (.var .logFcent)))) (.num 4 1)),
  .set (.var .B) (.sub (.sub (.num 806 3) (.mul (.num 11762 4) (.rd (.var .logFcent)))) (.mul (.num 14 2) (.log10 (.fmax (.rd (.var .Pr)) (.num 1 300))))),
  .set (.arr .presMod 17) (.div (.mul (.pow (.num 10 0) (.div (.rd (.var .logFcent)) (.add (.num 1 0) (.div (.mul (.rd (.var .A)) (.rd (.var .A))) (.mul (.rd (.var .B)) (.rd (.var .B))))))) (.rd (.var .Pr))) (.add (.num 1 0) (.rd (.var .Pr))))]

/-- utilities/mechanisms/gri30/lib/src/rxn_rates_pres_mod.c:164-173 -/
def presMod18 : List CStmt := [
  .set (.var .thd) (.sub (.add (.add (.add (.add (.add (.add (.rd (.var .m)) (.mul (.num 1 0) (.rd (.arr .C 0)))) (.mul (.num 5 0) (.rd (.arr .C 5)))) (.mul (.num 1 0) (.rd (.arr .C 13)))) (.mul (.num 5 1) (.rd (.arr .C 14)))) (.mul (.num 1 0) (.rd (.arr .C 15)))) (.mul (.num 2 0) (.rd (.arr .C 26)))) (.mul (.num 3 1) (.rd (.arr .C 47)))),
  .set (.var .k0) (.exp (.sub (.sub (.num 49977627770478051 15) (.mul (.num 342 2) (.rd (.var .logT)))) (.div (.num 4244657029587037 11) (.rd (.var .T))))),
  .set (.var .kinf) (.exp (.sub (.add (.num 10668955394675699 15) (.mul (.num 15 1) (.rd (.var .logT)))) (.div (.num 40056277362789348 12) (.rd (.var .T))))),
  .set (.var .Pr) (.div (.mul (.rd (.var .k0)) (.rd (.var .thd))) (.rd (.var .kinf))),
  .set (.var .logFcent) (.log10 (.fmax (.add (.add (.mul (.num 68 3) (.exp (.div (.neg (.rd (.var .T))) (.num 197 0)))) (.mul (.num 932 3) (.exp (.div (.neg (.rd (.var .T))) (.num 1540 0))))) (.exp (.div (.neg (.num 10300 0)) (.rd (.var .T))))) (.num 1 300))),
  .set (.var .A) (.sub (.sub (.log10 (.fmax (.rd (.var .Pr)) (.num 1 300))) (.mul (.num 67 2) (.rd (.var .logFcent)))) (.num 4 1)),
  .set (.var .B) (.sub (.sub (.num 806 3) (.mul (.num 11762 4) (.rd (.var .logFcent)))) (.mul (.num 14 2) (.log10 (.fmax (.rd (.var .Pr)) (.num 1 300))))),
  .set (.arr .presMod 18) (.div (.mul (.pow (.num 10 0) (.div (.rd (.var .logFcent)) (.add (.num 1 0) (.div (.mul (.rd (.var .A)) (.rd (.var .A))) (.mul (.rd (.var .B)) (.rd (.var .B))))))) (.rd (.var .Pr))) (.add (.num 1 0) (.rd (.var .Pr))))]

/-- utilities/mechanisms/gri30/lib/src/rxn_rates_pres_mod.c:174-183 -/
def presMod19 : List CStmt := [
  .set (.var .thd) (.sub (.add (.add (.add (.add (.add (.add (.rd (.var .m)) (.mul (.num 1 0) (.rd (.arr .C 0)))) (.mul (.num 5 0) (.rd (.arr .C 5)))) (.mul (.num 1 0) (.rd (.arr .C 13)))) (.mul (.num 5 1) (.rd (.arr .C 14)))) (.mul (.num 1 0) (.rd (.arr .C 15)))) (.mul (.num 2 0) (.rd (.arr .C 26)))) (.mul (.num 3 1) (.rd (.arr .C 47)))),
  .set (.var .k0) (.exp (.sub (.sub (.num 28463930238863654 15) (.mul (.num 9 1) (.rd (.var .logT)))) (.div (.neg (.num 85547326026057647 14)) (.rd (.var .T))))),
  .set (.var .kinf) (.exp (.sub (.num 2502733093015058 14) (.mul (.num 37 2) (.rd (.var .logT))))),
  .set (.var .Pr) (.div (.mul (.rd (.var .k0)) (.rd (.var .thd))) (.rd (.var .kinf))),
  .set (.var .logFcent) (.log10 (.fmax (.add (.add (.mul (.num 2654 4) (.exp (.div (.neg (.rd (.var .T))) (.num 94 0)))) (.mul (.num 7346 4) (.exp (.div (.neg (.rd (.var .T))) (.num 1756 0))))) (.exp (.div (.neg (.num 5182 0)) (.rd (.var .T))))) (.num 1 300))),
  .set (.var .A) (.sub (.sub (.log10 (.fmax (.rd (.var .Pr)) (.num 1 300))) (.mul (.num 67 2) (.rd (.var .logFcent)))) (.num 4 1)),
  .set (.var .B) (.sub (.sub (.num 806 3) (.mul (.num 11762 4) (.rd (.var .logFcent)))) (.mul (.num 14 2) (.log10 (.fmax (.rd (.var .Pr)) (.num 1 300))))),
  .set (.arr .presMod 19) (.div (.mul (.pow (.num 10 0) (.div (.rd (.var .logFcent)) (.add (.num 1 0) (.div (.mul (.rd (.var .A)) (.rd (.var .A))) (.mul (.rd (.var .B)) (.rd (.var .B))))))) (.rd (.var .Pr))) (.add (.num 1 0) (.rd (.var .Pr))))]

/-- utilities/mechanisms/gri30/lib/src/rxn_rates_pres_mod.c:184-193 -/
def presMod20 : List CStmt := [
  .set (.var .thd) (.add (.add (.add (.add (.add (.add (.rd (.var .m)) (.mul (.num 1 0) (.rd (.arr .C 0)))) (.mul (.num 5 0) (.rd (.arr .C 5)))) (.mul (.num 1 0) (.rd (.arr .C 13)))) (.mul (.num 5 1) (.rd (.arr .C 14)))) (.mul (.num 1 0) (.rd (.arr .C 15)))) (.mul (.num 2 0) (.rd (.arr .C 26)))),
  .set (.var .k0) (.exp (.sub (.sub (.num 70463847150941262 15) (.mul (.num 592 2) (.rd (.var .logT)))) (.div (.num 15801094336577708 13) (.rd (.var .T))))),
  .set (.var .kinf) (.exp (.sub (.sub (.num 35564817990743961 15) (.mul (.num 143 2) (.rd (.var .logT)))) (.div (.num 66928202126268627 14) (.rd (.var .T))))),
  .set (.var .Pr) (.div (.mul (.rd (.var .k0)) (.rd (.var .thd))) (.rd (.var .kinf))),
  .set (.var .logFcent) (.log10 (.fmax (.add (.add (.mul (.num 588 3) (.exp (.div (.neg (.rd (.var .T))) (.num 195 0)))) (.mul (.num 412 3) (.exp (.div (.neg (.rd (.var .T))) (.num 5900 0))))) (.exp (.div (.neg (.num 6394 0)) (.rd (.var .T))))) (.num 1 300))),
  .set (.var .A) (.sub (.sub (.log10 (.fmax (.rd (.var .Pr)) (.num 1 300))) (.mul (.num 67 2) (.rd (.var .logFcent)))) (.num 4 1)),
  .set (.var .B) (.sub (.sub (.num 806 3) (.mul (.num 11762 4) (.rd (.var .logFcent)))) (.mul (.num 14 2) (.log10 (.fmax (.rd (.var .Pr)) (.num 1 300))))),
  .set (.arr .presMod 20) (.div (.mul (.pow (.num 10 0) (.div (.rd (.var .logFcent)) (.add (.num 1 0) (.div (.mul (.rd (.var .A)) (.rd (.var .A))) (.mul (.rd (.var .B)) (.rd (.var .B))))))) (.rd (.var .Pr))) (.add (.num 1 0) (.rd (.var .Pr))))]

/-- utilities/mechanisms/gri30/lib/src/rxn_rates_pres_mod.c:194-203 -/
def presMod21 : List CStmt := [
  .set (.var .thd) (.sub (.add (.add (.add (.add (.add (.add (.rd (.var .m)) (.mul (.num 1 0) (.rd (.arr .C 0)))) (.mul (.num 5 0) (.rd (.arr .C 5)))) (.mul (.num 1 0) (.rd (.arr .C 13)))) (.mul (.num 5 1) (.rd (.arr .C 14)))) (.mul (.num 1 0) (.rd (.arr .C 15)))) (.mul (.num 2 0) (.rd (.arr .C 26)))) (.mul (.num 3 1) (.rd (.arr .C 47)))),
  .set (.var .k0) (.exp (.sub (.sub (.num 51646413239482754 15) (.mul (.num 374 2) (.rd (.var .logT)))) (.div (.num 97423307756733891 14) (.rd (.var .T))))),
  .set (.var .kinf) (.num 50000000000 0),
  .set (.var .Pr) (.div (.mul (.rd (.var .k0)) (.rd (.var .thd))) (.rd (.var .kinf))),
  .set (.var .logFcent) (.log10 (.fmax (.add (.add (.mul (.num 4243 4) (.exp (.div (.neg (.rd (.var .T))) (.num 237 0)))) (.mul (.num 5757 4) (.exp (.div (.neg (.rd (.var .T))) (.num 1652 0))))) (.exp (.div (.neg (.num 5069 0)) (.rd (.var .T))))) (.num 1 300))),
  .set (.var .A) (.sub (.sub (.log10 (.fmax (.rd (.var .Pr)) (.num 1 300))) (.mul (.num 67 2) (.rd (.var .logFcent)))) (.num 4 1)),
  .set (.var .B) (.sub (.sub (.num 806 3) (.mul (.num 11762 4) (.rd (.var .logFcent)))) (.mul (.num 14 2) (.log10 (.fmax (.rd (.var .Pr)) (.num 1 300))))),
  .set (.arr .presMod 21) (.div (.mul (.pow (.num 10 0) (.div (.rd (.var .logFcent)) (.add (.num 1 0) (.div (.mul (.rd (.var .A)) (.rd (.var .A))) (.mul (.rd (.var .B)) (.rd (.var .B))))))) (.rd (.var .Pr))) (.add (.num 1 0) (.rd (.var .Pr))))]

/-- utilities/mechanisms/gri30/lib/src/rxn_rates_pres_mod.c:204-213 -/
def presMod22 : List CStmt := [
  .set (.var .thd) (.sub (.add (.add (.add (.add (.add (.add (.rd (.var .m)) (.mul (.num 1 0) (.rd (.arr .C 0)))) (.mul (.num 5 0) (.rd (.arr .C 5)))) (.mul (.num 1 0) (.rd (.arr .C 13)))) (.mul (.num 5 1) (.rd (.arr .C 14)))) (.mul (.num 1 0) (.rd (.arr .C 15)))) (.mul (.num 2 0) (.rd (.arr .C 26)))) (.mul (.num 3 1) (.rd (.arr .C 47)))),
  .set (.var .k0) (.exp (.sub (.sub (.num 63159338704452978 15) (.mul (.num 511 2) (.rd (.var .logT)))) (.div (.num 3570342812675759 12) (.rd (.var .T))))),
  .set (.var .kinf) (.exp (.sub (.add (.num 20512544805630757 15) (.mul (.num 5 1) (.rd (.var .logT)))) (.div (.num 22695202375148233 13) (.rd (.var .T))))),
  .set (.var .Pr) (.div (.mul (.rd (.var .k0)) (.rd (.var .thd))) (.rd (.var .kinf))),
  .set (.var .logFcent) (.log10 (.fmax (.add (.add (.mul (.num 4093 4) (.exp (.div (.neg (.rd (.var .T))) (.num 275 0)))) (.mul (.num 5907 4) (.exp (.div (.neg (.rd (.var .T))) (.num 1226 0))))) (.exp (.div (.neg (.num 5185 0)) (.rd (.var .T))))) (.num 1 300))),
  .set (.var .A) (.sub (.sub (.log10 (.fmax (.rd (.var .Pr)) (.num 1 300))) (.mul (.num 67 2) (.rd (.var .logFcent)))) (.num 4 1)),
  .set (.var .B) (.sub (.sub (.num 806 3) (.mul (.num 11762 4) (.rd (.var .logFcent)))) (.mul (.num 14 2) (.log10 (.fmax (.rd (.var .Pr)) (.num 1 300))))),
  .set (.arr .presMod 22) (.div (.mul (.pow (.num 10 0) (.div (.rd (.var .logFcent)) (.add (.num 1 0) (.div (.mul (.rd (.var .A)) (.rd (.var .A))) (.mul (.rd (.var .B)) (.rd (.var .B))))))) (.rd (.var .Pr))) (.add (.num 1 0) (.rd (.var .Pr))))]

/-- utilities/mechanisms/gri30/lib/src/rxn_rates_pres_mod.c:214-223 -/
def presMod23 : List CStmt := [
  .set (.var .thd) (.add (.add (.add (.add (.add (.add (.rd (.var .m)) (.mul (.num 1 0) (.rd (.arr .C 0)))) (.mul (.num 5 0) (.rd (.arr .C 5)))) (.mul (.num 1 0) (.rd (.arr .C 13)))) (.mul (.num 5 1) (.rd (.arr .C 14)))) (.mul (.num 1 0) (.rd (.arr .C 15)))) (.mul (.num 2 0) (.rd (.arr .C 26)))),
  .set (.var .k0) (.exp (.sub (.sub (.num 74313994752651325 15) (.mul (.num 636 2) (.rd (.var .logT)))) (.div (.num 25362266068901795 13) (.rd (.var .T))))),
  .set (.var .kinf) (.exp (.sub (.sub (.num 33808965229979151 15) (.mul (.num 116 2) (.rd (.var .logT)))) (.div (.num 57618640176374117 14) (.rd (.var .T))))),
  .set (.var .Pr) (.div (.mul (.rd (.var .k0)) (.rd (.var .thd))) (.rd (.var .kinf))),
  .set (.var .logFcent) (.log10 (.fmax (.add (.add (.mul (.num 3973 4) (.exp (.div (.neg (.rd (.var .T))) (.num 208 0)))) (.mul (.num 6027 4) (.exp (.div (.neg (.rd (.var .T))) (.num 3922 0))))) (.exp (.div (.neg (.num 10180 0)) (.rd (.var .T))))) (.num 1 300))),
  .set (.var .A) (.sub (.sub (.log10 (.fmax (.rd (.var .Pr)) (.num 1 300))) (.mul (.num 67 2) (.rd (.var .logFcent)))) (.num 4 1)),
  .set (.var .B) (.sub (.sub (.num 806 3) (.mul (.num 11762 4) (.rd (.var .logFcent)))) (.mul (.num 14 2) (.log10 (.fmax (.rd (.var .Pr)) (.num 1 300))))),
  .set (.arr .presMod 23) (.div (.mul (.pow (.num 10 0) (.div (.rd (.var .logFcent)) (.add (.num 1 0) (.div (.mul (.rd (.var .A)) (.rd (.var .A))) (.mul (.rd (.var .B)) (.rd (.var .B))))))) (.rd (.var .Pr))) (.add (.num 1 0) (.rd (.var .Pr))))]

/-- utilities/mechanisms/gri30/lib/src/rxn_rates_pres_mod.c:224-233 -/
def presMod24 : List CStmt := [
  .set (.var .thd) (.sub (.add (.add (.add (.add (.add (.add (.rd (.var .m)) (.mul (.num 1 0) (.rd (.arr .C 0)))) (.mul (.num 5 0) (.rd (.arr .C 5)))) (.mul (.num 1 0) (.rd (.arr .C 13)))) (.mul (.num 5 1) (.rd (.arr .C 14)))) (.mul (.num 1 0) (.rd (.arr .C 15)))) (.mul (.num 2 0) (.rd (.arr .C 26)))) (.mul (.num 3 1) (.rd (.arr .C 47)))),
  .set (.var .k0) (.exp (.sub (.sub (.num 81814253686413721 15) (.mul (.num 703 2) (.rd (.var .logT)))) (.div (.num 13898924381410072 13) (.rd (.var .T))))),
  .set (.var .kinf) (.exp (.sub (.sub (.num 31846107295846778 15) (.mul (.num 118 2) (.rd (.var .logT)))) (.div (.num 32910559541789235 14) (.rd (.var .T))))),
  .set (.var .Pr) (.div (.mul (.rd (.var .k0)) (.rd (.var .thd))) (.rd (.var .kinf))),
  .set (.var .logFcent) (.log10 (.fmax (.add (.add (.mul (.num 381 3) (.exp (.div (.neg (.rd (.var .T))) (.num 732 1)))) (.mul (.num 619 3) (.exp (.div (.neg (.rd (.var .T))) (.num 1180 0))))) (.exp (.div (.neg (.num 9999 0)) (.rd (.var .T))))) (.num 1 300))),
  .set (.var .A) (.sub (.sub (.log10 (.fmax (.rd (.var .Pr)) (.num 1 300))) (.mul (.num 67 2) (.rd (.var .logFcent)))) (.num 4 1)),
  .set (.var .B) (.sub (.sub (.num 806 3) (.mul (.num 11762 4) (.rd (.var .logFcent)))) (.mul (.num 14 2) (.log10 (.fmax (.rd (.var .Pr)) (.num 1 300))))),
  .set (.arr .presMod 24) (.div (.mul (.pow (.num 10 0) (.div (.rd (.var .logFcent)) (.add (.num 1 0) (.div (.mul (.rd (.var .A)) (.rd (.var .A))) (.mul (.rd (.var .B)) (.rd (.var .B))))))) (.rd (.var .Pr))) (.add (.num 1 0) (.rd (.var .Pr))))]

/-- utilities/mechanisms/gri30/lib/src/rxn_rates_pres_mod.c:234-236 -/
def presMod25 : List CStmt := [
  .set (.arr .presMod 25) (.add (.add (.add (.add (.sub (.add (.rd (.var .m)) (.mul (.num 1 0) (.rd (.arr .C 0)))) (.mul (.num 1 0) (.rd (.arr .C 5)))) (.mul (.num 1 0) (.rd (.arr .C 13)))) (.mul (.num 5 1) (.rd (.arr .C 14)))) (.mul (.num 1 0) (.rd (.arr .C 15)))) (.mul (.num 2 0) (.rd (.arr .C 26))))]

/-- utilities/mechanisms/gri30/lib/src/rxn_rates_pres_mod.c:237-246 -/
def presMod26 : List CStmt := [
  .set (.var .thd) (.sub (.add (.add (.add (.add (.add (.add (.rd (.var .m)) (.mul (.num 1 0) (.rd (.arr .C 0)))) (.mul (.num 5 0) (.rd (.arr .C 5)))) (.mul (.num 1 0) (.rd (.arr .C 13)))) (.mul (.num 5 1) (.rd (.arr .C 14)))) (.mul (.num 1 0) (.rd (.arr .C 15)))) (.mul (.num 2 0) (.rd (.arr .C 26)))) (.mul (.num 3 1) (.rd (.arr .C 47)))),
  .set (.var .k0) (.exp (.sub (.sub (.num 11098150931075307 14) (.mul (.num 93 1) (.rd (.var .logT)))) (.div (.num 49214873443226104 12) (.rd (.var .T))))),
  .set (.var .kinf) (.exp (.sub (.add (.num 29710462657608385 15) (.mul (.num 44 2) (.rd (.var .logT)))) (.div (.num 43664361642829543 12) (.rd (.var .T))))),
  .set (.var .Pr) (.div (.mul (.rd (.var .k0)) (.rd (.var .thd))) (.rd (.var .kinf))),
  .set (.var .logFcent) (.log10 (.fmax (.add (.add (.mul (.num 2655 4) (.exp (.div (.neg (.rd (.var .T))) (.num 180 0)))) (.mul (.num 7345 4) (.exp (.div (.neg (.rd (.var .T))) (.num 1035 0))))) (.exp (.div (.neg (.num 5417 0)) (.rd (.var .T))))) (.num 1 300))),
  .set (.var .A) (.sub (.sub (.log10 (.fmax (.rd (.var .Pr)) (.num 1 300))) (.mul (.num 67 2) (.rd (.var .logFcent)))) (.num 4 1)),
  .set (.var .B) (.sub (.sub (.num 806 3) (.mul (.num 11762 4) (.rd (.var .logFcent)))) (.mul (.num 14 2) (.log10 (.fmax (.rd (.var .Pr)) (.num 1 300))))),
  .set (.arr .presMod 26) (.div (.mul (.pow (.num 10 0) (.div (.rd (.var .logFcent)) (.add (.num 1 0) (.div (.mul (.rd (.var .A)) (.rd (.var .A))) (.mul (.rd (.var .B)) (.rd (.var .B))))))) (.rd (.var .Pr))) (.add (.num 1 0) (.rd (.var .Pr))))]

/-- utilities/mechanisms/gri30/lib/src/rxn_rates_pres_mod.c:247-253 -/
def presMod27 : List CStmt := [
  .set (.var .thd) (.sub (.add (.add (.add (.add (.add (.add (.rd (.var .m)) (.mul (.num 1 0) (.rd (.arr .C 0)))) (.mul (.num 5 0) (.rd (.arr .C 5)))) (.mul (.num 1 0) (.rd (.arr .C 13)))) (.mul (.num 5 1) (.rd (.arr .C 14)))) (.mul (.num 1 0) (.rd (.arr .C 15)))) (.mul (.num 2 0) (.rd (.arr .C 26)))) (.mul (.num 375 3) (.rd (.arr .C 47)))),
  .set (.var .k0) (.exp (.sub (.num 27180035492518574 15) (.div (.num 28502356153622972 12) (.rd (.var .T))))),
  .set (.var .kinf) (.exp (.sub (.num 2509397871172002 14) (.div (.num 28190360023410292 12) (.rd (.var .T))))),
  .set (.var .Pr) (.div (.mul (.rd (.var .k0)) (.rd (.var .thd))) (.rd (.var .kinf))),
  .set (.arr .presMod 27) (.div (.rd (.var .Pr)) (.add (.num 1 0) (.rd (.var .Pr))))]

/-- utilities/mechanisms/gri30/lib/src/rxn_rates_pres_mod.c:254-256 -/
def presMod28 : List CStmt := [
  .set (.arr .presMod 28) (.sub (.add (.add (.add (.add (.add (.add (.rd (.var .m)) (.mul (.num 1 0) (.rd (.arr .C 0)))) (.mul (.num 5 0) (.rd (.arr .C 5)))) (.mul (.num 1 0) (.rd (.arr .C 13)))) (.mul (.num 5 1) (.rd (.arr .C 14)))) (.mul (.num 1 0) (.rd (.arr .C 15)))) (.mul (.num 2 0) (.rd (.arr .C 26)))) (.mul (.num 3 1) (.rd (.arr .C 47))))]

/-- utilities/mechanisms/gri30/lib/src/rxn_rates_pres_mod.c:257-259 -/
def presMod29 : List CStmt := [
  .set (.arr .presMod 29) (.sub (.add (.add (.add (.add (.add (.add (.rd (.var .m)) (.mul (.num 1 0) (.rd (.arr .C 0)))) (.mul (.num 5 0) (.rd (.arr .C 5)))) (.mul (.num 1 0) (.rd (.arr .C 13)))) (.mul (.num 5 1) (.rd (.arr .C 14)))) (.mul (.num 1 0) (.rd (.arr .C 15)))) (.mul (.num 2 0) (.rd (.arr .C 26)))) (.mul (.num 3 1) (.rd (.arr .C 47))))]

/-- utilities/mechanisms/gri30/lib/src/rxn_rates_pres_mod.c:260-262 -/
def presMod30 : List CStmt := [
  .set (.arr .presMod 30) (.sub (.add (.add (.add (.add (.add (.add (.rd (.var .m)) (.mul (.num 1 0) (.rd (.arr .C 0)))) (.mul (.num 5 0) (.rd (.arr .C 5)))) (.mul (.num 1 0) (.rd (.arr .C 13)))) (.mul (.num 5 1) (.rd (.arr .C 14)))) (.mul (.num 1 0) (.rd (.arr .C 15)))) (.mul (.num 2 0) (.rd (.arr .C 26)))) (.mul (.num 3 1) (.rd (.arr .C 47))))]

/-- utilities/mechanisms/gri30/lib/src/rxn_rates_pres_mod.c:263-265 -/
def presMod31 : List CStmt := [
  .set (.arr .presMod 31) (.sub (.add (.add (.add (.add (.add (.add (.rd (.var .m)) (.mul (.num 1 0) (.rd (.arr .C 0)))) (.mul (.num 5 0) (.rd (.arr .C 5)))) (.mul (.num 1 0) (.rd (.arr .C 13)))) (.mul (.num 5 1) (.rd (.arr .C 14)))) (.mul (.num 1 0) (.rd (.arr .C 15)))) (.mul (.num 2 0) (.rd (.arr .C 26)))) (.mul (.num 3 1) (.rd (.arr .C 47))))]

/-- utilities/mechanisms/gri30/lib/src/rxn_rates_pres_mod.c:266-268 -/
def presMod32 : List CStmt := [
  .set (.arr .presMod 32) (.sub (.add (.add (.add (.add (.add (.add (.rd (.var .m)) (.mul (.num 1 0) (.rd (.arr .C 0)))) (.mul (.num 5 0) (.rd (.arr .C 5)))) (.mul (.num 1 0) (.rd (.arr .C 13)))) (.mul (.num 5 1) (.rd (.arr .C 14)))) (.mul (.num 1 0) (.rd (.arr .C 15)))) (.mul (.num 2 0) (.rd (.arr .C 26)))) (.mul (.num 3 1) (.rd (.arr .C 47))))]

/-- utilities/mechanisms/gri30/lib/src/rxn_rates_pres_mod.c:269-275 -/
def presMod33 : List CStmt := [
  .set (.var .thd) (.sub (.add (.add (.add (.add (.add (.add (.rd (.var .m)) (.mul (.num 1 0) (.rd (.arr .C 0)))) (.mul (.num 5 0) (.rd (.arr .C 5)))) (.mul (.num 1 0) (.rd (.arr .C 13)))) (.mul (.num 5 1) (.rd (.arr .C 14)))) (.mul (.num 1 0) (.rd (.arr .C 15)))) (.mul (.num 2 0) (.rd (.arr .C 26)))) (.mul (.num 3 1) (.rd (.arr .C 47)))),
  .set (.var .k0) (.exp (.sub (.sub (.num 46388174096502127 15) (.mul (.num 34 1) (.rd (.var .logT)))) (.div (.num 95611717323240896 14) (.rd (.var .T))))),
  .set (.var .kinf) (.num 33000000000 0),
  .set (.var .Pr) (.div (.mul (.rd (.var .k0)) (.rd (.var .thd))) (.rd (.var .kinf))),
  .set (.arr .presMod 33) (.div (.rd (.var .Pr)) (.add (.num 1 0) (.rd (.var .Pr))))]

/-- utilities/mechanisms/gri30/lib/src/rxn_rates_pres_mod.c:276-285 -/
def presMod34 : List CStmt := [
  .set (.var .thd) (.add (.add (.add (.add (.add (.add (.rd (.var .m)) (.mul (.num 1 0) (.rd (.arr .C 0)))) (.mul (.num 5 0) (.rd (.arr .C 5)))) (.mul (.num 1 0) (.rd (.arr .C 13)))) (.mul (.num 5 1) (.rd (.arr .C 14)))) (.mul (.num 1 0) (.rd (.arr .C 15)))) (.mul (.num 2 0) (.rd (.arr .C 26)))),
  .set (.var .k0) (.exp (.sub (.sub (.num 44011481031354357 15) (.mul (.num 316 2) (.rd (.var .logT)))) (.div (.num 37238247799578033 14) (.rd (.var .T))))),
  .set (.var .kinf) (.exp (.add (.num 21854667948437513 15) (.mul (.num 15 2) (.rd (.var .logT))))),
  .set (.var .Pr) (.div (.mul (.rd (.var .k0)) (.rd (.var .thd))) (.rd (.var .kinf))),
  .set (.var .logFcent) (.log10 (.fmax (.add (.add (.mul (.num 333 3) (.exp (.div (.neg (.rd (.var .T))) (.num 235 0)))) (.mul (.num 667 3) (.exp (.div (.neg (.rd (.var .T))) (.num 2117 0))))) (.exp (.div (.neg (.num 4536 0)) (.rd (.var .T))))) (.num 1 300))),
  .set (.var .A) (.sub (.sub (.log10 (.fmax (.rd (.var .Pr)) (.num 1 300))) (.mul (.num 67 2) (.rd (.var .logFcent)))) (.num 4 1)),
  .set (.var .B) (.sub (.sub (.num 806 3) (.mul (.num 11762 4) (.rd (.var .logFcent)))) (.mul (.num 14 2) (.log10 (.fmax (.rd (.var .Pr)) (.num 1 300))))),
  .set (.arr .presMod 34) (.div (.mul (.pow (.num 10 0) (.div (.rd (.var .logFcent)) (.add (.num 1 0) (.div (.mul (.rd (.var .A)) (.rd (.var .A))) (.mul (.rd (.var .B)) (.rd (.var .B))))))) (.rd (.var .Pr))) (.add (.num 1 0) (.rd (.var .Pr))))]

/-- utilities/mechanisms/gri30/lib/src/rxn_rates_pres_mod.c:286-288 -/
def presMod35 : List CStmt := [
  .set (.arr .presMod 35) (.sub (.add (.add (.add (.add (.add (.add (.rd (.var .m)) (.mul (.num 1 0) (.rd (.arr .C 0)))) (.mul (.num 5 0) (.rd (.arr .C 5)))) (.mul (.num 1 0) (.rd (.arr .C 13)))) (.mul (.num 5 1) (.rd (.arr .C 14)))) (.mul (.num 1 0) (.rd (.arr .C 15)))) (.mul (.num 2 0) (.rd (.arr .C 26)))) (.mul (.num 3 1) (.rd (.arr .C 47))))]

/-- utilities/mechanisms/gri30/lib/src/rxn_rates_pres_mod.c:289-298 -/
def presMod36 : List CStmt := [
  .set (.var .thd) (.sub (.add (.add (.add (.add (.add (.add (.rd (.var .m)) (.mul (.num 1 0) (.rd (.arr .C 0)))) (.mul (.num 5 0) (.rd (.arr .C 5)))) (.mul (.num 1 0) (.rd (.arr .C 13)))) (.mul (.num 5 1) (.rd (.arr .C 14)))) (.mul (.num 1 0) (.rd (.arr .C 15)))) (.mul (.num 2 0) (.rd (.arr .C 26)))) (.mul (.num 3 1) (.rd (.arr .C 47)))),
  .set (.var .k0) (.exp (.sub (.sub (.num 45321890694949374 15) (.mul (.num 28 1) (.rd (.var .logT)))) (.div (.num 29689954326690594 14) (.rd (.var .T))))),
  .set (.var .kinf) (.exp (.sub (.add (.num 21401299379696308 15) (.mul (.num 43 2) (.rd (.var .logT)))) (.div (.neg (.num 18619123899789017 14)) (.rd (.var .T))))),
  .set (.var .Pr) (.div (.mul (.rd (.var .k0)) (.rd (.var .thd))) (.rd (.var .kinf))),
  .set (.var .logFcent) (.log10 (.fmax (.add (.add (.mul (.num 422 3) (.exp (.div (.neg (.rd (.var .T))) (.num 122 0)))) (.mul (.num 578 3) (.exp (.div (.neg (.rd (.var .T))) (.num 2535 0))))) (.exp (.div (.neg (.num 9365 0)) (.rd (.var .T))))) (.num 1 300))),
  .set (.var .A) (.sub (.sub (.log10 (.fmax (.rd (.var .Pr)) (.num 1 300))) (.mul (.num 67 2) (.rd (.var .logFcent)))) (.num 4 1)),
  .set (.var .B) (.sub (.sub (.num 806 3) (.mul (.num 11762 4) (.rd (.var .logFcent)))) (.mul (.num 14 2) (.log10 (.fmax (.rd (.var .Pr)) (.num 1 300))))),
  .set (.arr .presMod 36) (.div (.mul (.pow (.num 10 0) (.div (.rd (.var .logFcent)) (.add (.num 1 0) (.div (.mul (.rd (.var .A)) (.rd (.var .A))) (.mul (.rd (.var .B)) (.rd (.var .B))))))) (.rd (.var .Pr))) (.add (.num 1 0) (.rd (.var .Pr))))]

/-- utilities/mechanisms/gri30/lib/src/rxn_rates_pres_mod.c:299-308 -/
def presMod37 : List CStmt := [
  .set (.var .thd) (.sub (.add (.add (.add (.add (.add (.add (.rd (.var .m)) (.mul (.num 1 0) (.rd (.arr .C 0)))) (.mul (.num 5 0) (.rd (.arr .C 5)))) (.mul (.num 1 0) (.rd (.arr .C 13)))) (.mul (.num 5 1) (.rd (.arr .C 14)))) (.mul (.num 1 0) (.rd (.arr .C 15)))) (.mul (.num 2 0) (.rd (.arr .C 26)))) (.mul (.num 3 1) (.rd (.arr .C 47)))),
  .set (.var .k0) (.exp (.sub (.sub (.num 82904991918650921 15) (.mul (.num 763 2) (.rd (.var .logT)))) (.div (.num 19394082029672129 13) (.rd (.var .T))))),
  .set (.var .kinf) (.exp (.sub (.add (.num 20002747459590335 15) (.mul (.num 422 3) (.rd (.var .logT)))) (.div (.neg (.num 88315033632783047 14)) (.rd (.var .T))))),
  .set (.var .Pr) (.div (.mul (.rd (.var .k0)) (.rd (.var .thd))) (.rd (.var .kinf))),
  .set (.var .logFcent) (.log10 (.fmax (.add (.add (.mul (.num 535 3) (.exp (.div (.neg (.rd (.var .T))) (.num 201 0)))) (.mul (.num 465 3) (.exp (.div (.neg (.rd (.var .T))) (.num 1773 0))))) (.exp (.div (.neg (.num 5333 0)) (.rd (.var .T))))) (.num 1 300))),
  .set (.var .A) (.sub (.sub (.log10 (.fmax (.rd (.var .Pr)) (.num 1 300))) (.mul (.num 67 2) (.rd (.var .logFcent)))) (.num 4 1)),
  .set (.var .B) (.sub (.sub (.num 806 3) (.mul (.num 11762 4) (.rd (.var .logFcent)))) (.mul (.num 14 2) (.log10 (.fmax (.rd (.var .Pr)) (.num 1 300))))),
  .set (.arr .presMod 37) (.div (.mul (.pow (.num 10 0) (.div (.rd (.var .logFcent)) (.add (.num 1 0) (.div (.mul (.rd (.var .A)) (.rd (.var .A))) (.mul (.rd (.var .B)) (.rd (.var .B))))))) (.rd (.var .Pr))) (.add (.num 1 0) (.rd (.var .Pr))))]

/-- utilities/mechanisms/gri30/lib/src/rxn_rates_pres_mod.c:309-318 -/
def presMod38 : List CStmt := [
  .set (.var .thd) (.sub (.add (.add (.add (.add (.add (.add (.rd (.var .m)) (.mul (.num 1 0) (.rd (.arr .C 0)))) (.mul (.num 5 0) (.rd (.arr .C 5)))) (.mul (.num 1 0) (.rd (.arr .C 13)))) (.mul (.num 5 1) (.rd (.arr .C 14)))) (.mul (.num 1 0) (.rd (.arr .C 15)))) (.mul (.num 2 0) (.rd (.arr .C 26)))) (.mul (.num 3 1) (.rd (.arr .C 47)))),
  .set (.var .k0) (.exp (.sub (.sub (.num 15757273495848671 14) (.mul (.num 1682 2) (.rd (.var .logT)))) (.div (.num 65745636148849599 13) (.rd (.var .T))))),
  .set (.var .kinf) (.num 9430000000 0),
  .set (.var .Pr) (.div (.mul (.rd (.var .k0)) (.rd (.var .thd))) (.rd (.var .kinf))),
  .set (.var .logFcent) (.log10 (.fmax (.add (.add (.mul (.num 8473 4) (.exp (.div (.neg (.rd (.var .T))) (.num 291 0)))) (.mul (.num 1527 4) (.exp (.div (.neg (.rd (.var .T))) (.num 2742 0))))) (.exp (.div (.neg (.num 7748 0)) (.rd (.var .T))))) (.num 1 300))),
  .set (.var .A) (.sub (.sub (.log10 (.fmax (.rd (.var .Pr)) (.num 1 300))) (.mul (.num 67 2) (.rd (.var .logFcent)))) (.num 4 1)),
  .set (.var .B) (.sub (.sub (.num 806 3) (.mul (.num 11762 4) (.rd (.var .logFcent)))) (.mul (.num 14 2) (.log10 (.fmax (.rd (.var .Pr)) (.num 1 300))))),
  .set (.arr .presMod 38) (.div (.mul (.pow (.num 10 0) (.div (.rd (.var .logFcent)) (.add (.num 1 0) (.div (.mul (.rd (.var .A)) (.rd (.var .A))) (.mul (.rd (.var .B)) (.rd (.var .B))))))) (.rd (.var .Pr))) (.add (.num 1 0) (.rd (.var .Pr))))]

/-- utilities/mechanisms/gri30/lib/src/rxn_rates_pres_mod.c:319-328 -/
def presMod39 : List CStmt := [
  .set (.var .thd) (.sub (.add (.add (.add (.add (.add (.add (.rd (.var .m)) (.mul (.num 1 0) (.rd (.arr .C 0)))) (.mul (.num 5 0) (.rd (.arr .C 5)))) (.mul (.num 1 0) (.rd (.arr .C 13)))) (.mul (.num 5 1) (.rd (.arr .C 14)))) (.mul (.num 1 0) (.rd (.arr .C 15)))) (.mul (.num 2 0) (.rd (.arr .C 26)))) (.mul (.num 3 1) (.rd (.arr .C 47)))),
  .set (.var .k0) (.exp (.sub (.sub (.num 13234596258932871 14) (.mul (.num 146 1) (.rd (.var .logT)))) (.div (.num 91434994934909846 13) (.rd (.var .T))))),
  .set (.var .kinf) (.exp (.sub (.add (.num 78438486381524717 16) (.mul (.num 16 1) (.rd (.var .logT)))) (.div (.num 28683515196972271 13) (.rd (.var .T))))),
  .set (.var .Pr) (.div (.mul (.rd (.var .k0)) (.rd (.var .thd))) (.rd (.var .kinf))),
  .set (.var .logFcent) (.log10 (.fmax (.add (.add (.mul (.num 8106 4) (.exp (.div (.neg (.rd (.var .T))) (.num 277 0)))) (.mul (.num 1894 4) (.exp (.div (.neg (.rd (.var .T))) (.num 8748 0))))) (.exp (.div (.neg (.num 7891 0)) (.rd (.var .T))))) (.num 1 300))),
  .set (.var .A) (.sub (.sub (.log10 (.fmax (.rd (.var .Pr)) (.num 1 300))) (.mul (.num 67 2) (.rd (.var .logFcent)))) (.num 4 1)),
  .set (.var .B) (.sub (.sub (.num 806 3) (.mul (.num 11762 4) (.rd (.var .logFcent)))) (.mul (.num 14 2) (.log10 (.fmax (.rd (.var .Pr)) (.num 1 300))))),
  .set (.arr .presMod 39) (.div (.mul (.pow (.num 10 0) (.div (.rd (.var .logFcent)) (.add (.num 1 0) (.div (.mul (.rd (.var .A)) (.rd (.var .A))) (.mul (.rd (.var .B)) (.rd (.var .B))))))) (.rd (.var .Pr))) (.add (.num 1 0) (.rd (.var .Pr))))]

/-- utilities/mechanisms/gri30/lib/src/rxn_rates_pres_mod.c:329-338 -/
def presMod40 : List CStmt := [
  .set (.var .thd) (.sub (.add (.add (.add (.add (.add (.add (.rd (.var .m)) (.mul (.num 1 0) (.rd (.arr .C 0)))) (.mul (.num 5 0) (.rd (.arr .C 5)))) (.mul (.num 1 0) (.rd (.arr .C 13)))) (.mul (.num 5 1) (.rd (.arr .C 14)))) (.mul (.num 1 0) (.rd (.arr .C 15)))) (.mul (.num 2 0) (.rd (.arr .C 26)))) (.mul (.num 3 1) (.rd (.arr .C 47)))),
  .set (.var .k0) (.exp (.sub (.sub (.num 12812831981076212 14) (.mul (.num 13545 3) (.rd (.var .logT)))) (.div (.num 57150645981055104 13) (.rd (.var .T))))),
  .set (.var .kinf) (.num 36130000000 0),
  .set (.var .Pr) (.div (.mul (.rd (.var .k0)) (.rd (.var .thd))) (.rd (.var .kinf))),
  .set (.var .logFcent) (.log10 (.fmax (.add (.add (.mul (.num 685 3) (.exp (.div (.neg (.rd (.var .T))) (.num 369 0)))) (.mul (.num 315 3) (.exp (.div (.neg (.rd (.var .T))) (.num 3285 0))))) (.exp (.div (.neg (.num 6667 0)) (.rd (.var .T))))) (.num 1 300))),
  .set (.var .A) (.sub (.sub (.log10 (.fmax (.rd (.var .Pr)) (.num 1 300))) (.mul (.num 67 2) (.rd (.var .logFcent)))) (.num 4 1)),
  .set (.var .B) (.sub (.sub (.num 806 3) (.mul (.num 11762 4) (.rd (.var .logFcent)))) (.mul (.num 14 2) (.log10 (.fmax (.rd (.var .Pr)) (.num 1 300))))),
  .set (.arr .presMod 40) (.div (.mul (.pow (.num 10 0) (.div (.rd (.var .logFcent)) (.add (.num 1 0) (.div (.mul (.rd (.var .A)) (.rd (.var .A))) (.mul (.rd (.var .B)) (.rd (.var .B))))))) (.rd (.var .Pr))) (.add (.num 1 0) (.rd (.var .Pr))))]

/-- The blocks of `void get_rxn_pres_mod`, one per reaction: utilities/mechanisms/gri30/lib/src/rxn_rates_pres_mod.c:6-338 -/
def presModBlocks : List (List CStmt) := [
  presMod0, presMod1, presMod2, presMod3, presMod4, presMod5, presMod6, presMod7, presMod8, presMod9, presMod10, presMod11, presMod12, presMod13, presMod14, presMod15, presMod16, presMod17, presMod18, presMod19, presMod20, presMod21, presMod22, presMod23, presMod24, presMod25, presMod26, presMod27, presMod28, presMod29, presMod30, presMod31, presMod32, presMod33, presMod34, presMod35, presMod36, presMod37, presMod38, presMod39, presMod40]

end DLB.Mech.Gri30
