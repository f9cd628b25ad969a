/- Generated by tools/gen_mechanisms.py from utilities/mechanisms/yao/lib/src/rxn_rates_pres_mod.c. Do not edit. -/
import Verif.Model.CLang
set_option autoImplicit false

namespace DLB.Mech.Yao
open DLB

/-- utilities/mechanisms/yao/lib/src/rxn_rates_pres_mod.c:6-21 -/
def presModStart : List CStmt := [
  .set (.var .logT) (.log (.rd (.var .T))),
  .set (.var .m) (.div (.rd (.var .pres)) (.mul (.num 83144621 4) (.rd (.var .T))))]

/-- utilities/mechanisms/yao/lib/src/rxn_rates_pres_mod.c:22-31 -/
def presMod0 : List CStmt := [
  .set (.var .thd) (.add (.add (.sub (.add (.sub (.rd (.var .m)) (.mul (.num 6 1) (.rd (.arr .C 0)))) (.mul (.num 1089 2) (.rd (.arr .C 6)))) (.mul (.num 15 2) (.rd (.arr .C 8)))) (.mul (.num 9 2) (.rd (.arr .C 16)))) (.mul (.num 118 2) (.rd (.arr .C 17)))),
  .set (.var .k0) (.exp (.sub (.num 31778590439387948 15) (.mul (.num 14 1) (.rd (.var .logT))))),
  .set (.var .kinf) (.exp (.add (.num 22355638720663009 15) (.mul (.num 44 2) (.rd (.var .logT))))),
  .set (.var .Pr) (.div (.mul (.rd (.var .k0)) (.rd (.var .thd))) (.rd (.var .kinf))),
  .set (.var .logFcent) (.log10 (.fmax (.add (.mul (.num 5 1) (.exp (.div (.neg (.rd (.var .T))) (.num 1 30)))) (.mul (.num 5 1) (.exp (.div (.neg (.rd (.var .T))) (.num 1000000000000000000000000000000 0))))) (.num 1 300))),
  .set (.var .A) (.sub (.sub (.log10 (.fmax (.rd (.var .Pr)) (.num 1 300))) (.mul (.num 67 2) (.rd (.var .logFcent)))) (.num 4 1)),
  .set (.var .B) (.sub (.sub (.num 806 3) (.mul (.num 11762 4) (.rd (.var .logFcent)))) (.mul (.num 14 2) (.log10 (.fmax (.rd (.var .Pr)) (.num 1 300))))),
  .set (.arr .presMod 0) (.div (.mul (.pow (.num 10 0) (.div (.rd (.var .logFcent)) (.add (.num 1 0) (.div (.mul (.rd (.var .A)) (.rd (.var .A))) (.mul (.rd (.var .B)) (.rd (.var .B))))))) (.rd (.var .Pr))) (.add (.num 1 0) (.rd (.var .Pr))))]

/-- utilities/mechanisms/yao/lib/src/rxn_rates_pres_mod.c:32-41 -/
def presMod1 : List CStmt := [
  .set (.var .thd) (.add (.add (.add (.add (.sub (.rd (.var .m)) (.mul (.num 3 1) (.rd (.arr .C 0)))) (.mul (.num 1 0) (.rd (.arr .C 5)))) (.mul (.num 5 0) (.rd (.arr .C 6)))) (.mul (.num 75 2) (.rd (.arr .C 16)))) (.mul (.num 26 1) (.rd (.arr .C 17)))),
  .set (.var .k0) (.exp (.sub (.sub (.num 26026570745005486 15) (.mul (.num 584 3) (.rd (.var .logT)))) (.div (.neg (.num 115388246222206 11)) (.rd (.var .T))))),
  .set (.var .kinf) (.exp (.sub (.num 25432796038258747 15) (.mul (.num 37 2) (.rd (.var .logT))))),
  .set (.var .Pr) (.div (.mul (.rd (.var .k0)) (.rd (.var .thd))) (.rd (.var .kinf))),
  .set (.var .logFcent) (.log10 (.fmax (.add (.add (.mul (.num 2654 4) (.exp (.div (.neg (.rd (.var .T))) (.num 94 0)))) (.mul (.num 7346 4) (.exp (.div (.neg (.rd (.var .T))) (.num 1756 0))))) (.exp (.div (.neg (.num 5182 0)) (.rd (.var .T))))) (.num 1 300))),
  .set (.var .A) (.sub (.sub (.log10 (.fmax (.rd (.var .Pr)) (.num 1 300))) (.mul (.num 67 2) (.rd (.var .logFcent)))) (.num 4 1)),
  .set (.var .B) (.sub (.sub (.num 806 3) (.mul (.num 11762 4) (.rd (.var .logFcent)))) (.mul (.num 14 2) (.log10 (.fmax (.rd (.var .Pr)) (.num 1 300))))),
  .set (.arr .presMod 1) (.div (.mul (.pow (.num 10 0) (.div (.rd (.var .logFcent)) (.add (.num 1 0) (.div (.mul (.rd (.var .A)) (.rd (.var .A))) (.mul (.rd (.var .B)) (.rd (.var .B))))))) (.rd (.var .Pr))) (.add (.num 1 0) (.rd (.var .Pr))))]

/-- utilities/mechanisms/yao/lib/src/rxn_rates_pres_mod.c:42-44 -/
def presMod2 : List CStmt := [
  .set (.arr .presMod 2) (.sub (.sub (.sub (.sub (.rd (.var .m)) (.mul (.num 37 2) (.rd (.arr .C 0)))) (.mul (.num 1 0) (.rd (.arr .C 5)))) (.mul (.num 1 0) (.rd (.arr .C 6)))) (.mul (.num 1 0) (.rd (.arr .C 17))))]

/-- utilities/mechanisms/yao/lib/src/rxn_rates_pres_mod.c:45-47 -/
def presMod3 : List CStmt := [
  .set (.arr .presMod 3) (.add (.add (.add (.add (.sub (.rd (.var .m)) (.mul (.num 62 2) (.rd (.arr .C 0)))) (.mul (.num 1 0) (.rd (.arr .C 5)))) (.mul (.num 53 1) (.rd (.arr .C 6)))) (.mul (.num 75 2) (.rd (.arr .C 16)))) (.mul (.num 26 1) (.rd (.arr .C 17))))]

/-- utilities/mechanisms/yao/lib/src/rxn_rates_pres_mod.c:48-50 -/
def presMod4 : List CStmt := [
  .set (.arr .presMod 4) (.add (.add (.add (.add (.sub (.rd (.var .m)) (.mul (.num 17 2) (.rd (.arr .C 0)))) (.mul (.num 14 1) (.rd (.arr .C 5)))) (.mul (.num 144 1) (.rd (.arr .C 6)))) (.mul (.num 75 2) (.rd (.arr .C 16)))) (.mul (.num 26 1) (.rd (.arr .C 17))))]

/-- utilities/mechanisms/yao/lib/src/rxn_rates_pres_mod.c:51-53 -/
def presMod5 : List CStmt := [
  .set (.arr .presMod 5) (.add (.add (.add (.add (.sub (.rd (.var .m)) (.mul (.num 3 1) (.rd (.arr .C 0)))) (.mul (.num 1 0) (.rd (.arr .C 5)))) (.mul (.num 11 0) (.rd (.arr .C 6)))) (.mul (.num 75 2) (.rd (.arr .C 16)))) (.mul (.num 26 1) (.rd (.arr .C 17))))]

/-- utilities/mechanisms/yao/lib/src/rxn_rates_pres_mod.c:54-60 -/
def presMod6 : List CStmt := [
  .set (.var .thd) (.add (.add (.add (.add (.sub (.rd (.var .m)) (.mul (.num 3 1) (.rd (.arr .C 0)))) (.mul (.num 1 0) (.rd (.arr .C 5)))) (.mul (.num 11 0) (.rd (.arr .C 6)))) (.mul (.num 75 2) (.rd (.arr .C 16)))) (.mul (.num 26 1) (.rd (.arr .C 17)))),
  .set (.var .k0) (.exp (.sub (.sub (.num 4160609624356416 14) (.mul (.num 279 2) (.rd (.var .logT)))) (.div (.num 21089931963247504 13) (.rd (.var .T))))),
  .set (.var .kinf) (.exp (.sub (.num 16427049858685642 15) (.div (.num 11996754426242437 13) (.rd (.var .T))))),
  .set (.var .Pr) (.div (.mul (.rd (.var .k0)) (.rd (.var .thd))) (.rd (.var .kinf))),
  .set (.arr .presMod 6) (.div (.rd (.var .Pr)) (.add (.num 1 0) (.rd (.var .Pr))))]

/-- utilities/mechanisms/yao/lib/src/rxn_rates_pres_mod.c:61-63 -/
def presMod7 : List CStmt := [
  .set (.arr .presMod 7) (.add (.add (.sub (.add (.rd (.var .m)) (.mul (.num 1 0) (.rd (.arr .C 5)))) (.mul (.num 1 0) (.rd (.arr .C 6)))) (.mul (.num 75 2) (.rd (.arr .C 16)))) (.mul (.num 26 1) (.rd (.arr .C 17))))]

/-- utilities/mechanisms/yao/lib/src/rxn_rates_pres_mod.c:64-73 -/
def presMod8 : List CStmt := [
  .set (.var .thd) (.add (.add (.add (.add (.add (.add (.sub (.rd (.var .m)) (.mul (.num 3 1) (.rd (.arr .C 0)))) (.mul (.num 1 0) (.rd (.arr .C 5)))) (.mul (.num 5 0) (.rd (.arr .C 6)))) (.mul (.num 1 0) (.rd (.arr .C 12)))) (.mul (.num 5 1) (.rd (.arr .C 16)))) (.mul (.num 1 0) (.rd (.arr .C 17)))) (.mul (.num 2 0) (.rd (.arr .C 22)))),
  .set (.var .k0) (.exp (.sub (.sub (.num 49977627770478051 15) (.mul (.num 342 2) (.rd (.var .logT)))) (.div (.num 4244657029587037 11) (.rd (.var .T))))),
  .set (.var .kinf) (.exp (.sub (.add (.num 10668955394675699 15) (.mul (.num 15 1) (.rd (.var .logT)))) (.div (.num 40056277362789348 12) (.rd (.var .T))))),
  .set (.var .Pr) (.div (.mul (.rd (.var .k0)) (.rd (.var .thd))) (.rd (.var .kinf))),
  .set (.var .logFcent) (.log10 (.fmax (.add (.add (.mul (.num 68 3) (.exp (.div (.neg (.rd (.var .T))) (.num 197 0)))) (.mul (.num 932 3) (.exp (.div (.neg (.rd (.var .T))) (.num 1540 0))))) (.exp (.div (.neg (.num 10300 0)) (.rd (.var .T))))) (.num 1 300))),
  .set (.var .A) (.sub (.sub (.log10 (.fmax (.rd (.var .Pr)) (.num 1 300))) (.mul (.num 67 2) (.rd (.var .logFcent)))) (.num 4 1)),
  .set (.var .B) (.sub (.sub (.num 806 3) (.mul (.num 11762 4) (.rd (.var .logFcent)))) (.mul (.num 14 2) (.log10 (.fmax (.rd (.var .Pr)) (.num 1 300))))),
  .set (.arr .presMod 8) (.div (.mul (.pow (.num 10 0) (.div (.rd (.var .logFcent)) (.add (.num 1 0) (.div (.mul (.rd (.var .A)) (.rd (.var .A))) (.mul (.rd (.var .B)) (.rd (.var .B))))))) (.rd (.var .Pr))) (.add (.num 1 0) (.rd (.var .Pr))))]

/-- utilities/mechanisms/yao/lib/src/rxn_rates_pres_mod.c:74-83 -/
def presMod9 : List CStmt := [
  .set (.var .thd) (.add (.add (.add (.add (.add (.add (.sub (.rd (.var .m)) (.mul (.num 3 1) (.rd (.arr .C 0)))) (.mul (.num 1 0) (.rd (.arr .C 5)))) (.mul (.num 5 0) (.rd (.arr .C 6)))) (.mul (.num 1 0) (.rd (.arr .C 12)))) (.mul (.num 5 1) (.rd (.arr .C 16)))) (.mul (.num 1 0) (.rd (.arr .C 17)))) (.mul (.num 2 0) (.rd (.arr .C 22)))),
  .set (.var .k0) (.exp (.sub (.sub (.num 4174663626634316 14) (.mul (.num 257 2) (.rd (.var .logT)))) (.div (.num 71708787992430678 14) (.rd (.var .T))))),
  .set (.var .kinf) (.exp (.sub (.add (.num 20809443533187462 15) (.mul (.num 48 2) (.rd (.var .logT)))) (.div (.neg (.num 1308370868633823 13)) (.rd (.var .T))))),
  .set (.var .Pr) (.div (.mul (.rd (.var .k0)) (.rd (.var .thd))) (.rd (.var .kinf))),
  .set (.var .logFcent) (.log10 (.fmax (.add (.add (.mul (.num 2176 4) (.exp (.div (.neg (.rd (.var .T))) (.num 271 0)))) (.mul (.num 7824 4) (.exp (.div (.neg (.rd (.var .T))) (.num 2755 0))))) (.exp (.div (.neg (.num 6570 0)) (.rd (.var .T))))) (.num 1 300))),
  .set (.var .A) (.sub (.sub (.log10 (.fmax (.rd (.var .Pr)) (.num 1 300))) (.mul (.num 67 2) (.rd (.var .logFcent)))) (.num 4 1)),
  .set (.var .B) (.sub (.sub (.num 806 3) (.mul (.num 11762 4) (.rd (.var .logFcent)))) (.mul (.num 14 2) (.log10 (.fmax (.rd (.var .Pr)) (.num 1 300))))),
  .set (.arr .presMod 9) (.div (.mul (.pow (.num 10 0) (.div (.rd (.var .logFcent)) (.add (.num 1 0) (.div (.mul (.rd (.var .A)) (.rd (.var .A))) (.mul (.rd (.var .B)) (.rd (.var .B))))))) (.rd (.var .Pr))) (.add (.num 1 0) (.rd (.var .Pr))))]

/-- utilities/mechanisms/yao/lib/src/rxn_rates_pres_mod.c:84-93 -/
def presMod10 : List CStmt := [
  .set (.var .thd) (.add (.add (.add (.add (.add (.add (.sub (.rd (.var .m)) (.mul (.num 3 1) (.rd (.arr .C 0)))) (.mul (.num 1 0) (.rd (.arr .C 5)))) (.mul (.num 5 0) (.rd (.arr .C 6)))) (.mul (.num 1 0) (.rd (.arr .C 12)))) (.mul (.num 5 1) (.rd (.arr .C 16)))) (.mul (.num 1 0) (.rd (.arr .C 17)))) (.mul (.num 2 0) (.rd (.arr .C 22)))),
  .set (.var .k0) (.exp (.sub (.sub (.num 49517437762680643 15) (.mul (.num 314 2) (.rd (.var .logT)))) (.div (.num 61896006477677008 14) (.rd (.var .T))))),
  .set (.var .kinf) (.exp (.sub (.num 3084989694079675 14) (.mul (.num 8 1) (.rd (.var .logT))))),
  .set (.var .Pr) (.div (.mul (.rd (.var .k0)) (.rd (.var .thd))) (.rd (.var .kinf))),
  .set (.var .logFcent) (.log10 (.fmax (.add (.add (.mul (.num 32 2) (.exp (.div (.neg (.rd (.var .T))) (.num 78 0)))) (.mul (.num 68 2) (.exp (.div (.neg (.rd (.var .T))) (.num 1995 0))))) (.exp (.div (.neg (.num 5590 0)) (.rd (.var .T))))) (.num 1 300))),
  .set (.var .A) (.sub (.sub (.log10 (.fmax (.rd (.var .Pr)) (.num 1 300))) (.mul (.num 67 2) (.rd (.var .logFcent)))) (.num 4 1)),
  .set (.var .B) (.sub (.sub (.num 806 3) (.mul (.num 11762 4) (.rd (.var .logFcent)))) (.mul (.num 14 2) (.log10 (.fmax (.rd (.var .Pr)) (.num 1 300))))),
  .set (.arr .presMod 10) (.div (.mul (.pow (.num 10 0) (.div (.rd (.var .logFcent)) (.add (.num 1 0) (.div (.mul (.rd (.var .A)) (.rd (.var .A))) (.mul (.rd (.var .B)) (.rd (.var .B))))))) (.rd (.var .Pr))) (.add (.num 1 0) (.rd (.var .Pr))))]

/-- utilities/mechanisms/yao/lib/src/rxn_rates_pres_mod.c:94-103 -/
def presMod11 : List CStmt := [
  .set (.var .thd) (.add (.add (.add (.add (.add (.add (.rd (.var .m)) (.mul (.num 1 0) (.rd (.arr .C 5)))) (.mul (.num 5 0) (.rd (.arr .C 6)))) (.mul (.num 1 0) (.rd (.arr .C 12)))) (.mul (.num 5 1) (.rd (.arr .C 16)))) (.mul (.num 1 0) (.rd (.arr .C 17)))) (.mul (.num 2 0) (.rd (.arr .C 22)))),
  .set (.var .k0) (.exp (.sub (.sub (.num 56050499592221364 15) (.mul (.num 48 1) (.rd (.var .logT)))) (.div (.num 27979007806169443 13) (.rd (.var .T))))),
  .set (.var .kinf) (.exp (.sub (.add (.num 20107079697522593 15) (.mul (.num 454 3) (.rd (.var .logT)))) (.div (.num 1308370868633823 12) (.rd (.var .T))))),
  .set (.var .Pr) (.div (.mul (.rd (.var .k0)) (.rd (.var .thd))) (.rd (.var .kinf))),
  .set (.var .logFcent) (.log10 (.fmax (.add (.add (.mul (.num 242 3) (.exp (.div (.neg (.rd (.var .T))) (.num 94 0)))) (.mul (.num 758 3) (.exp (.div (.neg (.rd (.var .T))) (.num 1555 0))))) (.exp (.div (.neg (.num 4200 0)) (.rd (.var .T))))) (.num 1 300))),
  .set (.var .A) (.sub (.sub (.log10 (.fmax (.rd (.var .Pr)) (.num 1 300))) (.mul (.num 67 2) (.rd (.var .logFcent)))) (.num 4 1)),
  .set (.var .B) (.sub (.sub (.num 806 3) (.mul (.num 11762 4) (.rd (.var .logFcent)))) (.mul (.num 14 2) (.log10 (.fmax (.rd (.var .Pr)) (.num 1 300))))),
  .set (.arr .presMod 11) (.div (.mul (.pow (.num 10 0) (.div (.rd (.var .logFcent)) (.add (.num 1 0) (.div (.mul (.rd (.var .A)) (.rd (.var .A))) (.mul (.rd (.var .B)) (.rd (.var .B))))))) (.rd (.var .Pr))) (.add (.num 1 0) (.rd (.var .Pr))))]

/-- utilities/mechanisms/yao/lib/src/rxn_rates_pres_mod.c:104-113 -/
def presMod12 : List CStmt := [
  .set (.var .thd) (.add (.add (.add (.add (.add (.add (.sub (.rd (.var .m)) (.mul (.num 3 1) (.rd (.arr .C 0)))) (.mul (.num 1 0) (.rd (.arr .C 5)))) (.mul (.num 5 0) (.rd (.arr .C 6)))) (.mul (.num 1 0) (.rd (.arr .C 12)))) (.mul (.num 5 1) (.rd (.arr .C 16)))) (.mul (.num 1 0) (.rd (.arr .C 17)))) (.mul (.num 2 0) (.rd (.arr .C 22)))),
  .set (.var .k0) (.exp (.sub (.sub (.num 63076845661346454 15) (.mul (.num 476 2) (.rd (.var .logT)))) (.div (.num 12278557382563567 13) (.rd (.var .T))))),
  .set (.var .kinf) (.exp (.sub (.sub (.num 30172623109393093 15) (.mul (.num 63 2) (.rd (.var .logT)))) (.div (.num 19273309334105929 14) (.rd (.var .T))))),
  .set (.var .Pr) (.div (.mul (.rd (.var .k0)) (.rd (.var .thd))) (.rd (.var .kinf))),
  .set (.var .logFcent) (.log10 (.fmax (.add (.add (.mul (.num 217 3) (.exp (.div (.neg (.rd (.var .T))) (.num 74 0)))) (.mul (.num 783 3) (.exp (.div (.neg (.rd (.var .T))) (.num 2941 0))))) (.exp (.div (.neg (.num 6964 0)) (.rd (.var .T))))) (.num 1 300))),
  .set (.var .A) (.sub (.sub (.log10 (.fmax (.rd (.var .Pr)) (.num 1 300))) (.mul (.num 67 2) (.rd (.var .logFcent)))) (.num 4 1)),
  .set (.var .B) (.sub (.sub (.num 806 3) (.mul (.num 11762 4) (.rd (.var .logFcent)))) (.mul (.num 14 2) (.log10 (.fmax (.rd (.var .Pr)) (.num 1 300))))),
  .set (.arr .presMod 12) (.div (.mul (.pow (.num 10 0) (.div (.rd (.var .logFcent)) (.add (.num 1 0) (.div (.mul (.rd (.var .A)) (.rd (.var .A))) (.mul (.rd (.var .B)) (.rd (.var .B))))))) (.rd (.var .Pr))) (.add (.num 1 0) (.rd (.var .Pr))))]

/-- utilities/mechanisms/yao/lib/src/rxn_rates_pres_mod.c:114-123 -/
def presMod13 : List CStmt := [
  .set (.var .thd) (.add (.add (.add (.add (.add (.add (.sub (.rd (.var .m)) (.mul (.num 3 1) (.rd (.arr .C 0)))) (.mul (.num 1 0) (.rd (.arr .C 5)))) (.mul (.num 5 0) (.rd (.arr .C 6)))) (.mul (.num 1 0) (.rd (.arr .C 12)))) (.mul (.num 5 1) (.rd (.arr .C 16)))) (.mul (.num 1 0) (.rd (.arr .C 17)))) (.mul (.num 2 0) (.rd (.arr .C 22)))),
  .set (.var .k0) (.exp (.sub (.sub (.num 10188472363832375 14) (.mul (.num 967 2) (.rd (.var .logT)))) (.div (.num 31300256934239915 13) (.rd (.var .T))))),
  .set (.var .kinf) (.exp (.sub (.sub (.num 30685022297606515 15) (.mul (.num 97 2) (.rd (.var .logT)))) (.div (.num 31199613021268084 14) (.rd (.var .T))))),
  .set (.var .Pr) (.div (.mul (.rd (.var .k0)) (.rd (.var .thd))) (.rd (.var .kinf))),
  .set (.var .logFcent) (.log10 (.fmax (.add (.add (.mul (.num 4675 4) (.exp (.div (.neg (.rd (.var .T))) (.num 151 0)))) (.mul (.num 5325 4) (.exp (.div (.neg (.rd (.var .T))) (.num 1038 0))))) (.exp (.div (.neg (.num 4970 0)) (.rd (.var .T))))) (.num 1 300))),
  .set (.var .A) (.sub (.sub (.log10 (.fmax (.rd (.var .Pr)) (.num 1 300))) (.mul (.num 67 2) (.rd (.var .logFcent)))) (.num 4 1)),
  .set (.var .B) (.sub (.sub (.num 806 3) (.mul (.num 11762 4) (.rd (.var .logFcent)))) (.mul (.num 14 2) (.log10 (.fmax (.rd (.var .Pr)) (.num 1 300))))),
  .set (.arr .presMod 13) (.div (.mul (.pow (.num 10 0) (.div (.rd (.var .logFcent)) (.add (.num 1 0) (.div (.mul (.rd (.var .A)) (.rd (.var .A))) (.mul (.rd (.var .B)) (.rd (.var .B))))))) (.rd (.var .Pr))) (.add (.num 1 0) (.rd (.var .Pr))))]

/-- utilities/mechanisms/yao/lib/src/rxn_rates_pres_mod.c:124-133 -/
def presMod14 : List CStmt := [
  .set (.var .thd) (.add (.add (.add (.add (.add (.add (.add (.add (.sub (.rd (.var .m)) (.mul (.num 3 1) (.rd (.arr .C 0)))) (.mul (.num 1 0) (.rd (.arr .C 5)))) (.mul (.num 5 0) (.rd (.arr .C 6)))) (.mul (.num 1 0) (.rd (.arr .C 12)))) (.mul (.num 5 1) (.rd (.arr .C 16)))) (.mul (.num 1 0) (.rd (.arr .C 17)))) (.mul (.num 2 0) (.rd (.arr .C 18)))) (.mul (.num 2 0) (.rd (.arr .C 20)))) (.mul (.num 2 0) (.rd (.arr .C 22)))),
  .set (.var .k0) (.exp (.sub (.sub (.num 56204000710479832 15) (.mul (.num 34 1) (.rd (.var .logT)))) (.div (.num 18014616300915004 12) (.rd (.var .T))))),
  .set (.var .kinf) (.exp (.sub (.add (.num 17468762834435058 15) (.mul (.num 162 2) (.rd (.var .logT)))) (.div (.num 18643379082815227 12) (.rd (.var .T))))),
  .set (.var .Pr) (.div (.mul (.rd (.var .k0)) (.rd (.var .thd))) (.rd (.var .kinf))),
  .set (.var .logFcent) (.log10 (.fmax (.add (.add (.mul (.neg (.num 9816 4)) (.exp (.div (.neg (.rd (.var .T))) (.num 53837 1)))) (.mul (.num 19816 4) (.exp (.div (.neg (.rd (.var .T))) (.num 42932 4))))) (.exp (.div (.num 795 4) (.rd (.var .T))))) (.num 1 300))),
  .set (.var .A) (.sub (.sub (.log10 (.fmax (.rd (.var .Pr)) (.num 1 300))) (.mul (.num 67 2) (.rd (.var .logFcent)))) (.num 4 1)),
  .set (.var .B) (.sub (.sub (.num 806 3) (.mul (.num 11762 4) (.rd (.var .logFcent)))) (.mul (.num 14 2) (.log10 (.fmax (.rd (.var .Pr)) (.num 1 300))))),
  .set (.arr .presMod 14) (.div (.mul (.pow (.num 10 0) (.div (.rd (.var .logFcent)) (.add (.num 1 0) (.div (.mul (.rd (.var .A)) (.rd (.var .A))) (.mul (.rd (.var .B)) (.rd (.var .B))))))) (.rd (.var .Pr))) (.add (.num 1 0) (.rd (.var .Pr))))]

/-- utilities/mechanisms/yao/lib/src/rxn_rates_pres_mod.c:134-143 -/
def presMod15 : List CStmt := [
  .set (.var .thd) (.add (.add (.add (.add (.add (.add (.add (.add (.sub (.rd (.var .m)) (.mul (.num 3 1) (.rd (.arr .C 0)))) (.mul (.num 1 0) (.rd (.arr .C 5)))) (.mul (.num 5 0) (.rd (.arr .C 6)))) (.mul (.num 1 0) (.rd (.arr .C 12)))) (.mul (.num 5 1) (.rd (.arr .C 16)))) (.mul (.num 1 0) (.rd (.arr .C 17)))) (.mul (.num 2 0) (.rd (.arr .C 18)))) (.mul (.num 2 0) (.rd (.arr .C 20)))) (.mul (.num 2 0) (.rd (.arr .C 22)))),
  .set (.var .k0) (.exp (.sub (.sub (.num 55598514468478307 15) (.mul (.num 386 2) (.rd (.var .logT)))) (.div (.num 16706889553324199 13) (.rd (.var .T))))),
  .set (.var .kinf) (.exp (.sub (.add (.num 22528270532924488 15) (.mul (.num 27 2) (.rd (.var .logT)))) (.div (.num 14090147816056555 14) (.rd (.var .T))))),
  .set (.var .Pr) (.div (.mul (.rd (.var .k0)) (.rd (.var .thd))) (.rd (.var .kinf))),
  .set (.var .logFcent) (.log10 (.fmax (.add (.add (.mul (.num 218 3) (.exp (.div (.neg (.rd (.var .T))) (.num 2075 1)))) (.mul (.num 782 3) (.exp (.div (.neg (.rd (.var .T))) (.num 2663 0))))) (.exp (.div (.neg (.num 6095 0)) (.rd (.var .T))))) (.num 1 300))),
  .set (.var .A) (.sub (.sub (.log10 (.fmax (.rd (.var .Pr)) (.num 1 300))) (.mul (.num 67 2) (.rd (.var .logFcent)))) (.num 4 1)),
  .set (.var .B) (.sub (.sub (.num 806 3) (.mul (.num 11762 4) (.rd (.var .logFcent)))) (.mul (.num 14 2) (.log10 (.fmax (.rd (.var .Pr)) (.num 1 300))))),
  .set (.arr .presMod 15) (.div (.mul (.pow (.num 10 0) (.div (.rd (.var .logFcent)) (.add (.num 1 0) (.div (.mul (.rd (.var .A)) (.rd (.var .A))) (.mul (.rd (.var .B)) (.rd (.var .B))))))) (.rd (.var .Pr))) (.add (.num 1 0) (.rd (.var .Pr))))]

/-- utilities/mechanisms/yao/lib/src/rxn_rates_pres_mod.c:144-153 -/
def presMod16 : List CStmt := [
  .set (.var .thd) (.add (.add (.add (.add (.add (.add (.add (.add (.sub (.rd (.var .m)) (.mul (.num 3 1) (.rd (.arr .C 0)))) (.mul (.num 1 0) (.rd (.arr .C 5)))) (.mul (.num 5 0) (.rd (.arr .C 6)))) (.mul (.num 1 0) (.rd (.arr .C 12)))) (.mul (.num 5 1) (.rd (.arr .C 16)))) (.mul (.num 1 0) (.rd (.arr .C 17)))) (.mul (.num 2 0) (.rd (.arr .C 18)))) (.mul (.num 2 0) (.rd (.arr .C 20)))) (.mul (.num 2 0) (.rd (.arr .C 22)))),
  .set (.var .k0) (.exp (.sub (.sub (.num 12118603866293091 14) (.mul (.num 1194 2) (.rd (.var .logT)))) (.div (.num 49163545047610469 13) (.rd (.var .T))))),
  .set (.var .kinf) (.num 25000000000 0),
  .set (.var .Pr) (.div (.mul (.rd (.var .k0)) (.rd (.var .thd))) (.rd (.var .kinf))),
  .set (.var .logFcent) (.log10 (.fmax (.add (.add (.mul (.num 825 3) (.exp (.div (.neg (.rd (.var .T))) (.num 13406 1)))) (.mul (.num 175 3) (.exp (.div (.neg (.rd (.var .T))) (.num 60000 0))))) (.exp (.div (.neg (.num 101398 1)) (.rd (.var .T))))) (.num 1 300))),
  .set (.var .A) (.sub (.sub (.log10 (.fmax (.rd (.var .Pr)) (.num 1 300))) (.mul (.num 67 2) (.rd (.var .logFcent)))) (.num 4 1)),
  .set (.var .B) (.sub (.sub (.num 806 3) (.mul (.num 11762 4) (.rd (.var .logFcent)))) (.mul (.num 14 2) (.log10 (.fmax (.rd (.var .Pr)) (.num 1 300))))),
  .set (.arr .presMod 16) (.div (.mul (.pow (.num 10 0) (.div (.rd (.var .logFcent)) (.add (.num 1 0) (.div (.mul (.rd (.var .A)) (.rd (.var .A))) (.mul (.rd (.var .B)) (.rd (.var .B))))))) (.rd (.var .Pr))) (.add (.num 1 0) (.rd (.var .Pr))))]

/-- utilities/mechanisms/yao/lib/src/rxn_rates_pres_mod.c:154-163 -/
def presMod17 : List CStmt := [
  .set (.var .thd) (.add (.add (.add (.add (.add (.add (.sub (.rd (.var .m)) (.mul (.num 3 1) (.rd (.arr .C 0)))) (.mul (.num 1 0) (.rd (.arr .C 5)))) (.mul (.num 5 0) (.rd (.arr .C 6)))) (.mul (.num 1 0) (.rd (.arr .C 12)))) (.mul (.num 5 1) (.rd (.arr .C 16)))) (.mul (.num 1 0) (.rd (.arr .C 17)))) (.mul (.num 2 0) (.rd (.arr .C 22)))),
  .set (.var .k0) (.exp (.sub (.num 29181770032013969 15) (.div (.num 38006160855553117 14) (.rd (.var .T))))),
  .set (.var .kinf) (.exp (.sub (.add (.num 15195535306070569 15) (.mul (.num 128 2) (.rd (.var .logT)))) (.div (.num 6494702669941812 13) (.rd (.var .T))))),
  .set (.var .Pr) (.div (.mul (.rd (.var .k0)) (.rd (.var .thd))) (.rd (.var .kinf))),
  .set (.var .logFcent) (.log10 (.fmax (.add (.mul (.num 24 2) (.exp (.div (.neg (.rd (.var .T))) (.num 40 0)))) (.mul (.num 76 2) (.exp (.div (.neg (.rd (.var .T))) (.num 1025 0))))) (.num 1 300))),
  .set (.var .A) (.sub (.sub (.log10 (.fmax (.rd (.var .Pr)) (.num 1 300))) (.mul (.num 67 2) (.rd (.var .logFcent)))) (.num 4 1)),
  .set (.var .B) (.sub (.sub (.num 806 3) (.mul (.num 11762 4) (.rd (.var .logFcent)))) (.mul (.num 14 2) (.log10 (.fmax (.rd (.var .Pr)) (.num 1 300))))),
  .set (.arr .presMod 17) (.div (.mul (.pow (.num 10 0) (.div (.rd (.var .logFcent)) (.add (.num 1 0) (.div (.mul (.rd (.var .A)) (.rd (.var .A))) (.mul (.rd (.var .B)) (.rd (.var .B))))))) (.rd (.var .Pr))) (.add (.num 1 0) (.rd (.var .Pr))))]

/-- utilities/mechanisms/yao/lib/src/rxn_rates_pres_mod.c:164-173 -/
def presMod18 : List CStmt := [
  .set (.var .thd) (.add (.add (.add (.add (.add (.add (.sub (.rd (.var .m)) (.mul (.num 3 1) (.rd (.arr .C 0)))) (.mul (.num 1 0) (.rd (.arr .C 5)))) (.mul (.num 5 0) (.rd (.arr .C 6)))) (.mul (.num 1 0) (.rd (.arr .C 12)))) (.mul (.num 5 1) (.rd (.arr .C 16)))) (.mul (.num 1 0) (.rd (.arr .C 17)))) (.mul (.num 2 0) (.rd (.arr .C 22)))),
  .set (.var .k0) (.exp (.sub (.sub (.num 81278612893528006 15) (.mul (.num 708 2) (.rd (.var .logT)))) (.div (.num 33640227910835024 13) (.rd (.var .T))))),
  .set (.var .kinf) (.exp (.sub (.sub (.num 33886771157681913 15) (.mul (.num 99 2) (.rd (.var .logT)))) (.div (.num 79508691247747697 14) (.rd (.var .T))))),
  .set (.var .Pr) (.div (.mul (.rd (.var .k0)) (.rd (.var .thd))) (.rd (.var .kinf))),
  .set (.var .logFcent) (.log10 (.fmax (.add (.add (.mul (.num 1578 4) (.exp (.div (.neg (.rd (.var .T))) (.num 125 0)))) (.mul (.num 8422 4) (.exp (.div (.neg (.rd (.var .T))) (.num 2219 0))))) (.exp (.div (.neg (.num 6882 0)) (.rd (.var .T))))) (.num 1 300))),
  .set (.var .A) (.sub (.sub (.log10 (.fmax (.rd (.var .Pr)) (.num 1 300))) (.mul (.num 67 2) (.rd (.var .logFcent)))) (.num 4 1)),
  .set (.var .B) (.sub (.sub (.num 806 3) (.mul (.num 11762 4) (.rd (.var .logFcent)))) (.mul (.num 14 2) (.log10 (.fmax (.rd (.var .Pr)) (.num 1 300))))),
  .set (.arr .presMod 18) (.div (.mul (.pow (.num 10 0) (.div (.rd (.var .logFcent)) (.add (.num 1 0) (.div (.mul (.rd (.var .A)) (.rd (.var .A))) (.mul (.rd (.var .B)) (.rd (.var .B))))))) (.rd (.var .Pr))) (.add (.num 1 0) (.rd (.var .Pr))))]

/-- utilities/mechanisms/yao/lib/src/rxn_rates_pres_mod.c:174-183 -/
def presMod19 : List CStmt := [
  .set (.var .thd) (.add (.add (.add (.add (.add (.add (.sub (.rd (.var .m)) (.mul (.num 3 1) (.rd (.arr .C 0)))) (.mul (.num 1 0) (.rd (.arr .C 5)))) (.mul (.num 5 0) (.rd (.arr .C 6)))) (.mul (.num 1 0) (.rd (.arr .C 12)))) (.mul (.num 5 1) (.rd (.arr .C 16)))) (.mul (.num 1 0) (.rd (.arr .C 17)))) (.mul (.num 2 0) (.rd (.arr .C 22)))),
  .set (.var .k0) (.exp (.sub (.sub (.num 11556750958063344 14) (.mul (.num 1179 2) (.rd (.var .logT)))) (.div (.num 45211761804771468 13) (.rd (.var .T))))),
  .set (.var .kinf) (.num 15000000000 0),
  .set (.var .Pr) (.div (.mul (.rd (.var .k0)) (.rd (.var .thd))) (.rd (.var .kinf))),
  .set (.var .logFcent) (.log10 (.fmax (.add (.add (.mul (.num 802 3) (.exp (.div (.neg (.rd (.var .T))) (.num 22779 1)))) (.mul (.num 198 3) (.exp (.div (.neg (.rd (.var .T))) (.num 60000 0))))) (.exp (.div (.neg (.num 57232 1)) (.rd (.var .T))))) (.num 1 300))),
  .set (.var .A) (.sub (.sub (.log10 (.fmax (.rd (.var .Pr)) (.num 1 300))) (.mul (.num 67 2) (.rd (.var .logFcent)))) (.num 4 1)),
  .set (.var .B) (.sub (.sub (.num 806 3) (.mul (.num 11762 4) (.rd (.var .logFcent)))) (.mul (.num 14 2) (.log10 (.fmax (.rd (.var .Pr)) (.num 1 300))))),
  .set (.arr .presMod 19) (.div (.mul (.pow (.num 10 0) (.div (.rd (.var .logFcent)) (.add (.num 1 0) (.div (.mul (.rd (.var .A)) (.rd (.var .A))) (.mul (.rd (.var .B)) (.rd (.var .B))))))) (.rd (.var .Pr))) (.add (.num 1 0) (.rd (.var .Pr))))]

/-- utilities/mechanisms/yao/lib/src/rxn_rates_pres_mod.c:184-193 -/
def presMod20 : List CStmt := [
  .set (.var .thd) (.add (.add (.add (.add (.add (.add (.sub (.rd (.var .m)) (.mul (.num 3 1) (.rd (.arr .C 0)))) (.mul (.num 1 0) (.rd (.arr .C 5)))) (.mul (.num 5 0) (.rd (.arr .C 6)))) (.mul (.num 1 0) (.rd (.arr .C 12)))) (.mul (.num 5 1) (.rd (.arr .C 16)))) (.mul (.num 1 0) (.rd (.arr .C 17)))) (.mul (.num 2 0) (.rd (.arr .C 22)))),
  .set (.var .k0) (.exp (.sub (.sub (.num 12462477396391213 14) (.mul (.num 12 0) (.rd (.var .logT)))) (.div (.num 30031137191665107 13) (.rd (.var .T))))),
  .set (.var .kinf) (.num 200000000000 0),
  .set (.var .Pr) (.div (.mul (.rd (.var .k0)) (.rd (.var .thd))) (.rd (.var .kinf))),
  .set (.var .logFcent) (.log10 (.fmax (.add (.add (.mul (.num 98 2) (.exp (.div (.neg (.rd (.var .T))) (.num 10966 1)))) (.mul (.num 2 2) (.exp (.div (.neg (.rd (.var .T))) (.num 10966 1))))) (.exp (.div (.neg (.num 68595 1)) (.rd (.var .T))))) (.num 1 300))),
  .set (.var .A) (.sub (.sub (.log10 (.fmax (.rd (.var .Pr)) (.num 1 300))) (.mul (.num 67 2) (.rd (.var .logFcent)))) (.num 4 1)),
  .set (.var .B) (.sub (.sub (.num 806 3) (.mul (.num 11762 4) (.rd (.var .logFcent)))) (.mul (.num 14 2) (.log10 (.fmax (.rd (.var .Pr)) (.num 1 300))))),
  .set (.arr .presMod 20) (.div (.mul (.pow (.num 10 0) (.div (.rd (.var .logFcent)) (.add (.num 1 0) (.div (.mul (.rd (.var .A)) (.rd (.var .A))) (.mul (.rd (.var .B)) (.rd (.var .B))))))) (.rd (.var .Pr))) (.add (.num 1 0) (.rd (.var .Pr))))]

/-- utilities/mechanisms/yao/lib/src/rxn_rates_pres_mod.c:194-203 -/
def presMod21 : List CStmt := [
  .set (.var .thd) (.add (.add (.add (.add (.add (.add (.sub (.rd (.var .m)) (.mul (.num 3 1) (.rd (.arr .C 0)))) (.mul (.num 1 0) (.rd (.arr .C 5)))) (.mul (.num 5 0) (.rd (.arr .C 6)))) (.mul (.num 1 0) (.rd (.arr .C 12)))) (.mul (.num 5 1) (.rd (.arr .C 16)))) (.mul (.num 1 0) (.rd (.arr .C 17)))) (.mul (.num 2 0) (.rd (.arr .C 22)))),
  .set (.var .k0) (.exp (.sub (.sub (.num 12570313239567574 14) (.mul (.num 1281 2) (.rd (.var .logT)))) (.div (.num 31451222803697665 13) (.rd (.var .T))))),
  .set (.var .kinf) (.exp (.sub (.sub (.num 25328436022934504 15) (.mul (.num 32 2) (.rd (.var .logT)))) (.div (.neg (.num 13199449186255836 14)) (.rd (.var .T))))),
  .set (.var .Pr) (.div (.mul (.rd (.var .k0)) (.rd (.var .thd))) (.rd (.var .kinf))),
  .set (.var .logFcent) (.log10 (.fmax (.add (.add (.mul (.num 896 3) (.exp (.div (.neg (.rd (.var .T))) (.num 1606 0)))) (.mul (.num 104 3) (.exp (.div (.neg (.rd (.var .T))) (.num 60000 0))))) (.exp (.div (.neg (.num 61184 1)) (.rd (.var .T))))) (.num 1 300))),
  .set (.var .A) (.sub (.sub (.log10 (.fmax (.rd (.var .Pr)) (.num 1 300))) (.mul (.num 67 2) (.rd (.var .logFcent)))) (.num 4 1)),
  .set (.var .B) (.sub (.sub (.num 806 3) (.mul (.num 11762 4) (.rd (.var .logFcent)))) (.mul (.num 14 2) (.log10 (.fmax (.rd (.var .Pr)) (.num 1 300))))),
  .set (.arr .presMod 21) (.div (.mul (.pow (.num 10 0) (.div (.rd (.var .logFcent)) (.add (.num 1 0) (.div (.mul (.rd (.var .A)) (.rd (.var .A))) (.mul (.rd (.var .B)) (.rd (.var .B))))))) (.rd (.var .Pr))) (.add (.num 1 0) (.rd (.var .Pr))))]

/-- utilities/mechanisms/yao/lib/src/rxn_rates_pres_mod.c:204-213 -/
def presMod22 : List CStmt := [
  .set (.var .thd) (.add (.add (.add (.add (.add (.add (.sub (.rd (.var .m)) (.mul (.num 3 1) (.rd (.arr .C 0)))) (.mul (.num 1 0) (.rd (.arr .C 5)))) (.mul (.num 5 0) (.rd (.arr .C 6)))) (.mul (.num 1 0) (.rd (.arr .C 12)))) (.mul (.num 5 1) (.rd (.arr .C 16)))) (.mul (.num 1 0) (.rd (.arr .C 17)))) (.mul (.num 2 0) (.rd (.arr .C 22)))),
  .set (.var .k0) (.exp (.sub (.sub (.num 75516903160921473 15) (.mul (.num 666 2) (.rd (.var .logT)))) (.div (.num 35225369540141382 13) (.rd (.var .T))))),
  .set (.var .kinf) (.exp (.sub (.num 23311029872174121 15) (.div (.num 16408480351362714 13) (.rd (.var .T))))),
  .set (.var .Pr) (.div (.mul (.rd (.var .k0)) (.rd (.var .thd))) (.rd (.var .kinf))),
  .set (.var .logFcent) (.log10 (.fmax (.add (.add (.mul (.num 0 0) (.exp (.div (.neg (.rd (.var .T))) (.num 1000 0)))) (.mul (.num 1 0) (.exp (.div (.neg (.rd (.var .T))) (.num 1310 0))))) (.exp (.div (.neg (.num 48097 0)) (.rd (.var .T))))) (.num 1 300))),
  .set (.var .A) (.sub (.sub (.log10 (.fmax (.rd (.var .Pr)) (.num 1 300))) (.mul (.num 67 2) (.rd (.var .logFcent)))) (.num 4 1)),
  .set (.var .B) (.sub (.sub (.num 806 3) (.mul (.num 11762 4) (.rd (.var .logFcent)))) (.mul (.num 14 2) (.log10 (.fmax (.rd (.var .Pr)) (.num 1 300))))),
  .set (.arr .presMod 22) (.div (.mul (.pow (.num 10 0) (.div (.rd (.var .logFcent)) (.add (.num 1 0) (.div (.mul (.rd (.var .A)) (.rd (.var .A))) (.mul (.rd (.var .B)) (.rd (.var .B))))))) (.rd (.var .Pr))) (.add (.num 1 0) (.rd (.var .Pr))))]

/-- utilities/mechanisms/yao/lib/src/rxn_rates_pres_mod.c:214-223 -/
def presMod23 : List CStmt := [
  .set (.var .thd) (.add (.add (.add (.add (.add (.add (.sub (.rd (.var .m)) (.mul (.num 3 1) (.rd (.arr .C 0)))) (.mul (.num 1 0) (.rd (.arr .C 5)))) (.mul (.num 5 0) (.rd (.arr .C 6)))) (.mul (.num 1 0) (.rd (.arr .C 12)))) (.mul (.num 5 1) (.rd (.arr .C 16)))) (.mul (.num 1 0) (.rd (.arr .C 17)))) (.mul (.num 2 0) (.rd (.arr .C 22)))),
  .set (.var .k0) (.exp (.sub (.sub (.num 97810513984510706 15) (.mul (.num 932 2) (.rd (.var .logT)))) (.div (.num 29355816535624112 13) (.rd (.var .T))))),
  .set (.var .kinf) (.num 36000000000 0),
  .set (.var .Pr) (.div (.mul (.rd (.var .k0)) (.rd (.var .thd))) (.rd (.var .kinf))),
  .set (.var .logFcent) (.log10 (.fmax (.add (.add (.mul (.num 502 3) (.exp (.div (.neg (.rd (.var .T))) (.num 1314 0)))) (.mul (.num 498 3) (.exp (.div (.neg (.rd (.var .T))) (.num 1314 0))))) (.exp (.div (.neg (.num 50000 0)) (.rd (.var .T))))) (.num 1 300))),
  .set (.var .A) (.sub (.sub (.log10 (.fmax (.rd (.var .Pr)) (.num 1 300))) (.mul (.num 67 2) (.rd (.var .logFcent)))) (.num 4 1)),
  .set (.var .B) (.sub (.sub (.num 806 3) (.mul (.num 11762 4) (.rd (.var .logFcent)))) (.mul (.num 14 2) (.log10 (.fmax (.rd (.var .Pr)) (.num 1 300))))),
  .set (.arr .presMod 23) (.div (.mul (.pow (.num 10 0) (.div (.rd (.var .logFcent)) (.add (.num 1 0) (.div (.mul (.rd (.var .A)) (.rd (.var .A))) (.mul (.rd (.var .B)) (.rd (.var .B))))))) (.rd (.var .Pr))) (.add (.num 1 0) (.rd (.var .Pr))))]

/-- utilities/mechanisms/yao/lib/src/rxn_rates_pres_mod.c:224-233 -/
def presMod24 : List CStmt := [
  .set (.var .thd) (.add (.add (.add (.add (.add (.add (.sub (.rd (.var .m)) (.mul (.num 3 1) (.rd (.arr .C 0)))) (.mul (.num 1 0) (.rd (.arr .C 5)))) (.mul (.num 5 0) (.rd (.arr .C 6)))) (.mul (.num 1 0) (.rd (.arr .C 12)))) (.mul (.num 5 1) (.rd (.arr .C 16)))) (.mul (.num 1 0) (.rd (.arr .C 17)))) (.mul (.num 2 0) (.rd (.arr .C 22)))),
  .set (.var .k0) (.exp (.sub (.sub (.num 75516903160921473 15) (.mul (.num 666 2) (.rd (.var .logT)))) (.div (.num 35225369540141382 13) (.rd (.var .T))))),
  .set (.var .kinf) (.exp (.sub (.num 23311029872174121 15) (.div (.num 16408480351362714 13) (.rd (.var .T))))),
  .set (.var .Pr) (.div (.mul (.rd (.var .k0)) (.rd (.var .thd))) (.rd (.var .kinf))),
  .set (.var .logFcent) (.log10 (.fmax (.add (.add (.mul (.num 0 0) (.exp (.div (.neg (.rd (.var .T))) (.num 1000 0)))) (.mul (.num 1 0) (.exp (.div (.neg (.rd (.var .T))) (.num 1310 0))))) (.exp (.div (.neg (.num 48097 0)) (.rd (.var .T))))) (.num 1 300))),
  .set (.var .A) (.sub (.sub (.log10 (.fmax (.rd (.var .Pr)) (.num 1 300))) (.mul (.num 67 2) (.rd (.var .logFcent)))) (.num 4 1)),
  .set (.var .B) (.sub (.sub (.num 806 3) (.mul (.num 11762 4) (.rd (.var .logFcent)))) (.mul (.num 14 2) (.log10 (.fmax (.rd (.var .Pr)) (.num 1 300))))),
  .set (.arr .presMod 24) (.div (.mul (.pow (.num 10 0) (.div (.rd (.var .logFcent)) (.add (.num 1 0) (.div (.mul (.rd (.var .A)) (.rd (.var .A))) (.mul (.rd (.var .B)) (.rd (.var .B))))))) (.rd (.var .Pr))) (.add (.num 1 0) (.rd (.var .Pr))))]

/-- utilities/mechanisms/yao/lib/src/rxn_rates_pres_mod.c:234-243 -/
def presMod25 : List CStmt := [
  .set (.var .thd) (.add (.add (.add (.add (.add (.add (.sub (.rd (.var .m)) (.mul (.num 3 1) (.rd (.arr .C 0)))) (.mul (.num 1 0) (.rd (.arr .C 5)))) (.mul (.num 5 0) (.rd (.arr .C 6)))) (.mul (.num 1 0) (.rd (.arr .C 12)))) (.mul (.num 5 1) (.rd (.arr .C 16)))) (.mul (.num 1 0) (.rd (.arr .C 17)))) (.mul (.num 2 0) (.rd (.arr .C 22)))),
  .set (.var .k0) (.exp (.sub (.sub (.num 75516903160921473 15) (.mul (.num 666 2) (.rd (.var .logT)))) (.div (.num 35225369540141382 13) (.rd (.var .T))))),
  .set (.var .kinf) (.exp (.sub (.num 23311029872174121 15) (.div (.num 16408480351362714 13) (.rd (.var .T))))),
  .set (.var .Pr) (.div (.mul (.rd (.var .k0)) (.rd (.var .thd))) (.rd (.var .kinf))),
  .set (.var .logFcent) (.log10 (.fmax (.add (.add (.mul (.num 0 0) (.exp (.div (.neg (.rd (.var .T))) (.num 1000 0)))) (.mul (.num 1 0) (.exp (.div (.neg (.rd (.var .T))) (.num 1310 0))))) (.exp (.div (.neg (.num 48097 0)) (.rd (.var .T))))) (.num 1 300))),
  .set (.var .A) (.sub (.sub (.log10 (.fmax (.rd (.var .Pr)) (.num 1 300))) (.mul (.num 67 2) (.rd (.var .logFcent)))) (.num 4 1)),
  .set (.var .B) (.sub (.sub (.num 806 3) (.mul (.num 11762 4) (.rd (.var .logFcent)))) (.mul (.num 14 2) (.log10 (.fmax (.rd (.var .Pr)) (.num 1 300))))),
  .set (.arr .presMod 25) (.div (.mul (.pow (.num 10 0) (.div (.rd (.var .logFcent)) (.add (.num 1 0) (.div (.mul (.rd (.var .A)) (.rd (.var .A))) (.mul (.rd (.var .B)) (.rd (.var .B))))))) (.rd (.var .Pr))) (.add (.num 1 0) (.rd (.var .Pr))))]

/-- utilities/mechanisms/yao/lib/src/rxn_rates_pres_mod.c:244-253 -/
def presMod26 : List CStmt := [
  .set (.var .thd) (.add (.add (.add (.add (.add (.add (.sub (.rd (.var .m)) (.mul (.num 3 1) (.rd (.arr .C 0)))) (.mul (.num 1 0) (.rd (.arr .C 5)))) (.mul (.num 5 0) (.rd (.arr .C 6)))) (.mul (.num 1 0) (.rd (.arr .C 12)))) (.mul (.num 5 1) (.rd (.arr .C 16)))) (.mul (.num 1 0) (.rd (.arr .C 17)))) (.mul (.num 2 0) (.rd (.arr .C 22)))),
  .set (.var .k0) (.exp (.sub (.sub (.num 75516903160921473 15) (.mul (.num 666 2) (.rd (.var .logT)))) (.div (.num 35225369540141382 13) (.rd (.var .T))))),
  .set (.var .kinf) (.exp (.sub (.num 23311029872174121 15) (.div (.num 16408480351362714 13) (.rd (.var .T))))),
  .set (.var .Pr) (.div (.mul (.rd (.var .k0)) (.rd (.var .thd))) (.rd (.var .kinf))),
  .set (.var .logFcent) (.log10 (.fmax (.add (.add (.mul (.num 0 0) (.exp (.div (.neg (.rd (.var .T))) (.num 1000 0)))) (.mul (.num 1 0) (.exp (.div (.neg (.rd (.var .T))) (.num 1310 0))))) (.exp (.div (.neg (.num 48097 0)) (.rd (.var .T))))) (.num 1 300))),
  .set (.var .A) (.sub (.sub (.log10 (.fmax (.rd (.var .Pr)) (.num 1 300))) (.mul (.num 67 2) (.rd (.var .logFcent)))) (.num 4 1)),
  .set (.var .B) (.sub (.sub (.num 806 3) (.mul (.num 11762 4) (.rd (.var .logFcent)))) (.mul (.num 14 2) (.log10 (.fmax (.rd (.var .Pr)) (.num 1 300))))),
  .set (.arr .presMod 26) (.div (.mul (.pow (.num 10 0) (.div (.rd (.var .logFcent)) (.add (.num 1 0) (.div (.mul (.rd (.var .A)) (.rd (.var .A))) (.mul (.rd (.var .B)) (.rd (.var .B))))))) (.rd (.var .Pr))) (.add (.num 1 0) (.rd (.var .Pr))))]

/-- utilities/mechanisms/yao/lib/src/rxn_rates_pres_mod.c:254-263 -/
def presMod27 : List CStmt := [
  .set (.var .thd) (.add (.add (.add (.add (.add (.add (.sub (.rd (.var .m)) (.mul (.num 3 1) (.rd (.arr .C 0)))) (.mul (.num 1 0) (.rd (.arr .C 5)))) (.mul (.num 5 0) (.rd (.arr .C 6)))) (.mul (.num 1 0) (.rd (.arr .C 12)))) (.mul (.num 5 1) (.rd (.arr .C 16)))) (.mul (.num 1 0) (.rd (.arr .C 17)))) (.mul (.num 2 0) (.rd (.arr .C 22)))),
  .set (.var .k0) (.exp (.sub (.sub (.num 75516903160921473 15) (.mul (.num 666 2) (.rd (.var .logT)))) (.div (.num 35225369540141382 13) (.rd (.var .T))))),
  .set (.var .kinf) (.exp (.sub (.num 23311029872174121 15) (.div (.num 16408480351362714 13) (.rd (.var .T))))),
  .set (.var .Pr) (.div (.mul (.rd (.var .k0)) (.rd (.var .thd))) (.rd (.var .kinf))),
  .set (.var .logFcent) (.log10 (.fmax (.add (.add (.mul (.num 0 0) (.exp (.div (.neg (.rd (.var .T))) (.num 1000 0)))) (.mul (.num 1 0) (.exp (.div (.neg (.rd (.var .T))) (.num 1310 0))))) (.exp (.div (.neg (.num 48097 0)) (.rd (.var .T))))) (.num 1 300))),
  .set (.var .A) (.sub (.sub (.log10 (.fmax (.rd (.var .Pr)) (.num 1 300))) (.mul (.num 67 2) (.rd (.var .logFcent)))) (.num 4 1)),
  .set (.var .B) (.sub (.sub (.num 806 3) (.mul (.num 11762 4) (.rd (.var .logFcent)))) (.mul (.num 14 2) (.log10 (.fmax (.rd (.var .Pr)) (.num 1 300))))),
  .set (.arr .presMod 27) (.div (.mul (.pow (.num 10 0) (.div (.rd (.var .logFcent)) (.add (.num 1 0) (.div (.mul (.rd (.var .A)) (.rd (.var .A))) (.mul (.rd (.var .B)) (.rd (.var .B))))))) (.rd (.var .Pr))) (.add (.num 1 0) (.rd (.var .Pr))))]

/-- utilities/mechanisms/yao/lib/src/rxn_rates_pres_mod.c:264-273 -/
def presMod28 : List CStmt := [
  .set (.var .thd) (.add (.add (.add (.add (.add (.add (.sub (.rd (.var .m)) (.mul (.num 3 1) (.rd (.arr .C 0)))) (.mul (.num 1 0) (.rd (.arr .C 5)))) (.mul (.num 5 0) (.rd (.arr .C 6)))) (.mul (.num 1 0) (.rd (.arr .C 12)))) (.mul (.num 5 1) (.rd (.arr .C 16)))) (.mul (.num 1 0) (.rd (.arr .C 17)))) (.mul (.num 2 0) (.rd (.arr .C 22)))),
  .set (.var .k0) (.exp (.sub (.sub (.num 75516903160921473 15) (.mul (.num 666 2) (.rd (.var .logT)))) (.div (.num 35225369540141382 13) (.rd (.var .T))))),
  .set (.var .kinf) (.exp (.sub (.num 23311029872174121 15) (.div (.num 16408480351362714 13) (.rd (.var .T))))),
  .set (.var .Pr) (.div (.mul (.rd (.var .k0)) (.rd (.var .thd))) (.rd (.var .kinf))),
  .set (.var .logFcent) (.log10 (.fmax (.add (.add (.mul (.num 0 0) (.exp (.div (.neg (.rd (.var .T))) (.num 1000 0)))) (.mul (.num 1 0) (.exp (.div (.neg (.rd (.var .T))) (.num 1310 0))))) (.exp (.div (.neg (.num 48097 0)) (.rd (.var .T))))) (.num 1 300))),
  .set (.var .A) (.sub (.sub (.log10 (.fmax (.rd (.var .Pr)) (.num 1 300))) (.mul (.num 67 2) (.rd (.var .logFcent)))) (.num 4 1)),
  .set (.var .B) (.sub (.sub (.num 806 3) (.mul (.num 11762 4) (.rd (.var .logFcent)))) (.mul (.num 14 2) (.log10 (.fmax (.rd (.var .Pr)) (.num 1 300))))),
  .set (.arr .presMod 28) (.div (.mul (.pow (.num 10 0) (.div (.rd (.var .logFcent)) (.add (.num 1 0) (.div (.mul (.rd (.var .A)) (.rd (.var .A))) (.mul (.rd (.var .B)) (.rd (.var .B))))))) (.rd (.var .Pr))) (.add (.num 1 0) (.rd (.var .Pr))))]

/-- utilities/mechanisms/yao/lib/src/rxn_rates_pres_mod.c:274-283 -/
def presMod29 : List CStmt := [
  .set (.var .thd) (.add (.add (.add (.add (.add (.add (.sub (.rd (.var .m)) (.mul (.num 3 1) (.rd (.arr .C 0)))) (.mul (.num 1 0) (.rd (.arr .C 5)))) (.mul (.num 5 0) (.rd (.arr .C 6)))) (.mul (.num 1 0) (.rd (.arr .C 12)))) (.mul (.num 5 1) (.rd (.arr .C 16)))) (.mul (.num 1 0) (.rd (.arr .C 17)))) (.mul (.num 2 0) (.rd (.arr .C 22)))),
  .set (.var .k0) (.exp (.sub (.sub (.num 75516903160921473 15) (.mul (.num 666 2) (.rd (.var .logT)))) (.div (.num 35225369540141382 13) (.rd (.var .T))))),
  .set (.var .kinf) (.exp (.sub (.num 23311029872174121 15) (.div (.num 16408480351362714 13) (.rd (.var .T))))),
  .set (.var .Pr) (.div (.mul (.rd (.var .k0)) (.rd (.var .thd))) (.rd (.var .kinf))),
  .set (.var .logFcent) (.log10 (.fmax (.add (.add (.mul (.num 0 0) (.exp (.div (.neg (.rd (.var .T))) (.num 1000 0)))) (.mul (.num 1 0) (.exp (.div (.neg (.rd (.var .T))) (.num 1310 0))))) (.exp (.div (.neg (.num 48097 0)) (.rd (.var .T))))) (.num 1 300))),
  .set (.var .A) (.sub (.sub (.log10 (.fmax (.rd (.var .Pr)) (.num 1 300))) (.mul (.num 67 2) (.rd (.var .logFcent)))) (.num 4 1)),
  .set (.var .B) (.sub (.sub (.num 806 3) (.mul (.num 11762 4) (.rd (.var .logFcent)))) (.mul (.num 14 2) (.log10 (.fmax (.rd (.var .Pr)) (.num 1 300))))),
  .set (.arr .presMod 29) (.div (.mul (.pow (.num 10 0) (.div (.rd (.var .logFcent)) (.add (.num 1 0) (.div (.mul (.rd (.var .A)) (.rd (.var .A))) (.mul (.rd (.var .B)) (.rd (.var .B))))))) (.rd (.var .Pr))) (.add (.num 1 0) (.rd (.var .Pr))))]

/-- utilities/mechanisms/yao/lib/src/rxn_rates_pres_mod.c:284-293 -/
def presMod30 : List CStmt := [
  .set (.var .thd) (.add (.add (.add (.add (.add (.add (.sub (.rd (.var .m)) (.mul (.num 3 1) (.rd (.arr .C 0)))) (.mul (.num 1 0) (.rd (.arr .C 5)))) (.mul (.num 5 0) (.rd (.arr .C 6)))) (.mul (.num 1 0) (.rd (.arr .C 12)))) (.mul (.num 5 1) (.rd (.arr .C 16)))) (.mul (.num 1 0) (.rd (.arr .C 17)))) (.mul (.num 2 0) (.rd (.arr .C 22)))),
  .set (.var .k0) (.exp (.sub (.sub (.num 75516903160921473 15) (.mul (.num 666 2) (.rd (.var .logT)))) (.div (.num 35225369540141382 13) (.rd (.var .T))))),
  .set (.var .kinf) (.exp (.sub (.num 23311029872174121 15) (.div (.num 16408480351362714 13) (.rd (.var .T))))),
  .set (.var .Pr) (.div (.mul (.rd (.var .k0)) (.rd (.var .thd))) (.rd (.var .kinf))),
  .set (.var .logFcent) (.log10 (.fmax (.add (.add (.mul (.num 0 0) (.exp (.div (.neg (.rd (.var .T))) (.num 1000 0)))) (.mul (.num 1 0) (.exp (.div (.neg (.rd (.var .T))) (.num 1310 0))))) (.exp (.div (.neg (.num 48097 0)) (.rd (.var .T))))) (.num 1 300))),
  .set (.var .A) (.sub (.sub (.log10 (.fmax (.rd (.var .Pr)) (.num 1 300))) (.mul (.num 67 2) (.rd (.var .logFcent)))) (.num 4 1)),
  .set (.var .B) (.sub (.sub (.num 806 3) (.mul (.num 11762 4) (.rd (.var .logFcent)))) (.mul (.num 14 2) (.log10 (.fmax (.rd (.var .Pr)) (.num 1 300))))),
  .set (.arr .presMod 30) (.div (.mul (.pow (.num 10 0) (.div (.rd (.var .logFcent)) (.add (.num 1 0) (.div (.mul (.rd (.var .A)) (.rd (.var .A))) (.mul (.rd (.var .B)) (.rd (.var .B))))))) (.rd (.var .Pr))) (.add (.num 1 0) (.rd (.var .Pr))))]

/-- The blocks of `void get_rxn_pres_mod`, one per reaction: utilities/mechanisms/yao/lib/src/rxn_rates_pres_mod.c:6-293 -/
def presModBlocks : List (List CStmt) := [
  presMod0, presMod1, presMod2, presMod3, presMod4, presMod5, presMod6, presMod7, presMod8, presMod9, presMod10, presMod11, presMod12, presMod13, presMod14, presMod15, presMod16, presMod17, presMod18, presMod19, presMod20, presMod21, presMod22, presMod23, presMod24, presMod25, presMod26, presMod27, presMod28, presMod29, presMod30]

end DLB.Mech.Yao
