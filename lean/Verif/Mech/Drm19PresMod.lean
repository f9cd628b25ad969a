/- Generated by tools/gen_mechanisms.py from utilities/mechanisms/drm19/lib/src/rxn_rates_pres_mod.c. Do not edit. -/
import Verif.Model.CLang
set_option autoImplicit false

namespace DLB.Mech.Drm19
open DLB

/-- utilities/mechanisms/drm19/lib/src/rxn_rates_pres_mod.c:6-21 -/
def presModStart : List CStmt := [
  .set (.var .logT) (.log (.rd (.var .T))),
  .set (.var .m) (.div (.rd (.var .pres)) (.mul (.num 83144621 4) (.rd (.var .T))))]

/-- utilities/mechanisms/drm19/lib/src/rxn_rates_pres_mod.c:22-24 -/
def presMod0 : List CStmt := [
  .set (.arr .presMod 0) (.sub (.add (.add (.add (.add (.add (.add (.rd (.var .m)) (.mul (.num 1 0) (.rd (.arr .C 0)))) (.mul (.num 5 0) (.rd (.arr .C 5)))) (.mul (.num 1 0) (.rd (.arr .C 10)))) (.mul (.num 5 1) (.rd (.arr .C 11)))) (.mul (.num 1 0) (.rd (.arr .C 12)))) (.mul (.num 2 0) (.rd (.arr .C 18)))) (.mul (.num 3 1) (.rd (.arr .C 19))))]

/-- utilities/mechanisms/drm19/lib/src/rxn_rates_pres_mod.c:25-27 -/
def presMod1 : List CStmt := [
  .set (.arr .presMod 1) (.sub (.add (.add (.add (.add (.add (.add (.add (.rd (.var .m)) (.mul (.num 1 0) (.rd (.arr .C 0)))) (.mul (.num 5 0) (.rd (.arr .C 3)))) (.mul (.num 5 0) (.rd (.arr .C 5)))) (.mul (.num 1 0) (.rd (.arr .C 10)))) (.mul (.num 5 1) (.rd (.arr .C 11)))) (.mul (.num 25 1) (.rd (.arr .C 12)))) (.mul (.num 2 0) (.rd (.arr .C 18)))) (.mul (.num 5 1) (.rd (.arr .C 19))))]

/-- utilities/mechanisms/drm19/lib/src/rxn_rates_pres_mod.c:28-30 -/
def presMod2 : List CStmt := [
  .set (.arr .presMod 2) (.sub (.sub (.add (.add (.sub (.sub (.sub (.rd (.var .m)) (.mul (.num 1 0) (.rd (.arr .C 3)))) (.mul (.num 1 0) (.rd (.arr .C 5)))) (.mul (.num 25 2) (.rd (.arr .C 11)))) (.mul (.num 5 1) (.rd (.arr .C 12)))) (.mul (.num 5 1) (.rd (.arr .C 18)))) (.mul (.num 1 0) (.rd (.arr .C 20)))) (.mul (.num 1 0) (.rd (.arr .C 19))))]

/-- utilities/mechanisms/drm19/lib/src/rxn_rates_pres_mod.c:31-33 -/
def presMod3 : List CStmt := [
  .set (.arr .presMod 3) (.sub (.add (.sub (.add (.sub (.sub (.rd (.var .m)) (.mul (.num 1 0) (.rd (.arr .C 0)))) (.mul (.num 1 0) (.rd (.arr .C 5)))) (.mul (.num 1 0) (.rd (.arr .C 10)))) (.mul (.num 1 0) (.rd (.arr .C 12)))) (.mul (.num 2 0) (.rd (.arr .C 18)))) (.mul (.num 37 2) (.rd (.arr .C 19))))]

/-- utilities/mechanisms/drm19/lib/src/rxn_rates_pres_mod.c:34-36 -/
def presMod4 : List CStmt := [
  .set (.arr .presMod 4) (.sub (.add (.add (.add (.sub (.rd (.var .m)) (.mul (.num 27 2) (.rd (.arr .C 0)))) (.mul (.num 265 2) (.rd (.arr .C 5)))) (.mul (.num 1 0) (.rd (.arr .C 10)))) (.mul (.num 2 0) (.rd (.arr .C 18)))) (.mul (.num 62 2) (.rd (.arr .C 19))))]

/-- utilities/mechanisms/drm19/lib/src/rxn_rates_pres_mod.c:37-46 -/
def presMod5 : List CStmt := [
  .set (.var .thd) (.sub (.add (.add (.add (.add (.add (.add (.rd (.var .m)) (.mul (.num 1 0) (.rd (.arr .C 0)))) (.mul (.num 5 0) (.rd (.arr .C 5)))) (.mul (.num 1 0) (.rd (.arr .C 10)))) (.mul (.num 5 1) (.rd (.arr .C 11)))) (.mul (.num 1 0) (.rd (.arr .C 12)))) (.mul (.num 2 0) (.rd (.arr .C 18)))) (.mul (.num 3 1) (.rd (.arr .C 19)))),
  .set (.var .k0) (.exp (.sub (.sub (.num 49517437762680643 15) (.mul (.num 314 2) (.rd (.var .logT)))) (.div (.num 61896006477677008 14) (.rd (.var .T))))),
  .set (.var .kinf) (.exp (.sub (.num 3084989694079675 14) (.mul (.num 8 1) (.rd (.var .logT))))),
  .set (.var .Pr) (.div (.mul (.rd (.var .k0)) (.rd (.var .thd))) (.rd (.var .kinf))),
  .set (.var .logFcent) (.log10 (.fmax (.add (.add (.mul (.num 32 2) (.exp (.div (.neg (.rd (.var .T))) (.num 78 0)))) (.mul (.num 68 2) (.exp (.div (.neg (.rd (.var .T))) (.num 1995 0))))) (.exp (.div (.neg (.num 5590 0)) (.rd (.var .T))))) (.num 1 300))),
  .set (.var .A) (.sub (.sub (.log10 (.fmax (.rd (.var .Pr)) (.num 1 300))) (.mul (.num 67 2) (.rd (.var .logFcent)))) (.num 4 1)),
  .set (.var .B) (.sub (.sub (.num 806 3) (.mul (.num 11762 4) (.rd (.var .logFcent)))) (.mul (.num 14 2) (.log10 (.fmax (.rd (.var .Pr)) (.num 1 300))))),
  .set (.arr .presMod 5) (.div (.mul (.pow (.num 10 0) (.div (.rd (.var .logFcent)) (.add (.num 1 0) (.div (.mul (.rd (.var .A)) (.rd (.var .A))) (.mul (.rd (.var .B)) (.rd (.var .B))))))) (.rd (.var .Pr))) (.add (.num 1 0) (.rd (.var .Pr))))]

/-- utilities/mechanisms/drm19/lib/src/rxn_rates_pres_mod.c:47-56 -/
def presMod6 : List CStmt := [
  .set (.var .thd) (.sub (.add (.add (.add (.add (.add (.add (.rd (.var .m)) (.mul (.num 1 0) (.rd (.arr .C 0)))) (.mul (.num 5 0) (.rd (.arr .C 5)))) (.mul (.num 1 0) (.rd (.arr .C 10)))) (.mul (.num 5 1) (.rd (.arr .C 11)))) (.mul (.num 1 0) (.rd (.arr .C 12)))) (.mul (.num 2 0) (.rd (.arr .C 18)))) (.mul (.num 3 1) (.rd (.arr .C 19)))),
  .set (.var .k0) (.exp (.sub (.sub (.num 63076845661346454 15) (.mul (.num 476 2) (.rd (.var .logT)))) (.div (.num 12278557382563567 13) (.rd (.var .T))))),
  .set (.var .kinf) (.exp (.sub (.sub (.num 30172623109393093 15) (.mul (.num 63 2) (.rd (.var .logT)))) (.div (.num 19273309334105929 14) (.rd (.var .T))))),
  .set (.var .Pr) (.div (.mul (.rd (.var .k0)) (.rd (.var .thd))) (.rd (.var .kinf))),
  .set (.var .logFcent) (.log10 (.fmax (.add (.add (.mul (.num 217 3) (.exp (.div (.neg (.rd (.var .T))) (.num 74 0)))) (.mul (.num 783 3) (.exp (.div (.neg (.rd (.var .T))) (.num 2941 0))))) (.exp (.div (.neg (.num 6964 0)) (.rd (.var .T))))) (.num 1 300))),
  .set (.var .A) (.sub (.sub (.log10 (.fmax (.rd (.var .Pr)) (.num 1 300))) (.mul (.num 67 2) (.rd (.var .logFcent)))) (.num 4 1)),
  .set (.var .B) (.sub (.sub (.num 806 3) (.mul (.num 11762 4) (.rd (.var .logFcent)))) (.mul (.num 14 2) (.log10 (.fmax (.rd (.var .Pr)) (.num 1 300))))),
  .set (.arr .presMod 6) (.div (.mul (.pow (.num 10 0) (.div (.rd (.var .logFcent)) (.add (.num 1 0) (.div (.mul (.rd (.var .A)) (.rd (.var .A))) (.mul (.rd (.var .B)) (.rd (.var .B))))))) (.rd (.var .Pr))) (.add (.num 1 0) (.rd (.var .Pr))))]

/-- utilities/mechanisms/drm19/lib/src/rxn_rates_pres_mod.c:57-66 -/
def presMod7 : List CStmt := [
  .set (.var .thd) (.sub (.add (.add (.add (.add (.add (.add (.rd (.var .m)) (.mul (.num 1 0) (.rd (.arr .C 0)))) (.mul (.num 5 0) (.rd (.arr .C 5)))) (.mul (.num 1 0) (.rd (.arr .C 10)))) (.mul (.num 5 1) (.rd (.arr .C 11)))) (.mul (.num 1 0) (.rd (.arr .C 12)))) (.mul (.num 2 0) (.rd (.arr .C 18)))) (.mul (.num 3 1) (.rd (.arr .C 19)))),
  .set (.var .k0) (.exp (.sub (.sub (.num 4174663626634316 14) (.mul (.num 257 2) (.rd (.var .logT)))) (.div (.num 71708787992430678 14) (.rd (.var .T))))),
  .set (.var .kinf) (.exp (.sub (.add (.num 20809443533187462 15) (.mul (.num 48 2) (.rd (.var .logT)))) (.div (.neg (.num 1308370868633823 13)) (.rd (.var .T))))),
  .set (.var .Pr) (.div (.mul (.rd (.var .k0)) (.rd (.var .thd))) (.rd (.var .kinf))),
  .set (.var .logFcent) (.log10 (.fmax (.add (.add (.mul (.num 2176 4) (.exp (.div (.neg (.rd (.var .T))) (.num 271 0)))) (.mul (.num 7824 4) (.exp (.div (.neg (.rd (.var .T))) (.num 2755 0))))) (.exp (.div (.neg (.num 6570 0)) (.rd (.var .T))))) (.num 1 300))),
  .set (.var .A) (.sub (.sub (.log10 (.fmax (.rd (.var .Pr)) (.num 1 300))) (.mul (.num 67 2) (.rd (.var .logFcent)))) (.num 4 1)),
  .set (.var .B) (.sub (.sub (.num 806 3) (.mul (.num 11762 4) (.rd (.var .logFcent)))) (.mul (.num 14 2) (.log10 (.fmax (.rd (.var .Pr)) (.num 1 300))))),
  .set (.arr .presMod 7) (.div (.mul (.pow (.num 10 0) (.div (.rd (.var .logFcent)) (.add (.num 1 0) (.div (.mul (.rd (.var .A)) (.rd (.var .A))) (.mul (.rd (.var .B)) (.rd (.var .B))))))) (.rd (.var .Pr))) (.add (.num 1 0) (.rd (.var .Pr))))]

/-- utilities/mechanisms/drm19/lib/src/rxn_rates_pres_mod.c:67-76 -/
def presMod8 : List CStmt := [
  .set (.var .thd) (.add (.add (.add (.add (.add (.add (.rd (.var .m)) (.mul (.num 1 0) (.rd (.arr .C 0)))) (.mul (.num 5 0) (.rd (.arr .C 5)))) (.mul (.num 1 0) (.rd (.arr .C 10)))) (.mul (.num 5 1) (.rd (.arr .C 11)))) (.mul (.num 1 0) (.rd (.arr .C 12)))) (.mul (.num 2 0) (.rd (.arr .C 18)))),
  .set (.var .k0) (.exp (.sub (.sub (.num 56050499592221364 15) (.mul (.num 48 1) (.rd (.var .logT)))) (.div (.num 27979007806169443 13) (.rd (.var .T))))),
  .set (.var .kinf) (.exp (.sub (.add (.num 20107079697522593 15) (.mul (.num 454 3) (.rd (.var .logT)))) (.div (.num 1308370868633823 12) (.rd (.var .T))))),
  .set (.var .Pr) (.div (.mul (.rd (.var .k0)) (.rd (.var .thd))) (.rd (.var .kinf))),
  .set (.var .logFcent) (.log10 (.fmax (.add (.add (.mul (.num 242 3) (.exp (.div (.neg (.rd (.var .T))) (.num 94 0)))) (.mul (.num 758 3) (.exp (.div (.neg (.rd (.var .T))) (.num 1555 0))))) (.exp (.div (.neg (.num 4200 0)) (.rd (.var .T))))) (.num 1 300))),
  .set (.var .A) (.sub (.sub (.log10 (.fmax (.rd (.var .Pr)) (.num 1 300))) (.mul (.num 67 2) (.rd (.var .logFcent)))) (.num 4 1)),
  .set (.var .B) (.sub (.sub (.num 806 3) (.mul (.num 11762 4) (.rd (.var .logFcent)))) (.mul (.num 14 2) (.log10 (.fmax (.rd (.var .Pr)) (.num 1 300))))),
  .set (.arr .presMod 8) (.div (.mul (.pow (.num 10 0) (.div (.rd (.var .logFcent)) (.add (.num 1 0) (.div (.mul (.rd (.var .A)) (.rd (.var .A))) (.mul (.rd (.var .B)) (.rd (.var .B))))))) (.rd (.var .Pr))) (.add (.num 1 0) (.rd (.var .Pr))))]

/-- utilities/mechanisms/drm19/lib/src/rxn_rates_pres_mod.c:77-86 -/
def presMod9 : List CStmt := [
  .set (.var .thd) (.sub (.add (.add (.add (.add (.add (.add (.rd (.var .m)) (.mul (.num 1 0) (.rd (.arr .C 0)))) (.mul (.num 5 0) (.rd (.arr .C 5)))) (.mul (.num 1 0) (.rd (.arr .C 10)))) (.mul (.num 5 1) (.rd (.arr .C 11)))) (.mul (.num 1 0) (.rd (.arr .C 12)))) (.mul (.num 2 0) (.rd (.arr .C 18)))) (.mul (.num 3 1) (.rd (.arr .C 19)))),
  .set (.var .k0) (.exp (.sub (.sub (.num 83075384904579593 15) (.mul (.num 762 2) (.rd (.var .logT)))) (.div (.num 35074403670683637 13) (.rd (.var .T))))),
  .set (.var .kinf) (.exp (.sub (.add (.num 2080022687808254 14) (.mul (.num 454 3) (.rd (.var .logT)))) (.div (.num 91585960804367608 14) (.rd (.var .T))))),
  .set (.var .Pr) (.div (.mul (.rd (.var .k0)) (.rd (.var .thd))) (.rd (.var .kinf))),
  .set (.var .logFcent) (.log10 (.fmax (.add (.add (.mul (.num 247 4) (.exp (.div (.neg (.rd (.var .T))) (.num 210 0)))) (.mul (.num 9753 4) (.exp (.div (.neg (.rd (.var .T))) (.num 984 0))))) (.exp (.div (.neg (.num 4374 0)) (.rd (.var .T))))) (.num 1 300))),
  .set (.var .A) (.sub (.sub (.log10 (.fmax (.rd (.var .Pr)) (.num 1 300))) (.mul (.num 67 2) (.rd (.var .logFcent)))) (.num 4 1)),
  .set (.var .B) (.sub (.sub (.num 806 3) (.mul (.num 11762 4) (.rd (.var .logFcent)))) (.mul (.num 14 2) (.log10 (.fmax (.rd (.var .Pr)) (.num 1 300))))),
  .set (.arr .presMod 9) (.div (.mul (.pow (.num 10 0) (.div (.rd (.var .logFcent)) (.add (.num 1 0) (.div (.mul (.rd (.var .A)) (.rd (.var .A))) (.mul (.rd (.var .B)) (.rd (.var .B))))))) (.rd (.var .Pr))) (.add (.num 1 0) (.rd (.var .Pr))))]

/-- utilities/mechanisms/drm19/lib/src/rxn_rates_pres_mod.c:87-96 -/
def presMod10 : List CStmt := [
  .set (.var .thd) (.sub (.add (.add (.add (.add (.add (.add (.rd (.var .m)) (.mul (.num 1 0) (.rd (.arr .C 0)))) (.mul (.num 5 0) (.rd (.arr .C 5)))) (.mul (.num 1 0) (.rd (.arr .C 10)))) (.mul (.num 5 1) (.rd (.arr .C 11)))) (.mul (.num 1 0) (.rd (.arr .C 12)))) (.mul (.num 2 0) (.rd (.arr .C 18)))) (.mul (.num 3 1) (.rd (.arr .C 19)))),
  .set (.var .k0) (.exp (.sub (.sub (.num 81278612893528006 15) (.mul (.num 708 2) (.rd (.var .logT)))) (.div (.num 33640227910835024 13) (.rd (.var .T))))),
  .set (.var .kinf) (.exp (.sub (.sub (.num 33886771157681913 15) (.mul (.num 99 2) (.rd (.var .logT)))) (.div (.num 79508691247747697 14) (.rd (.var .T))))),
  .set (.var .Pr) (.div (.mul (.rd (.var .k0)) (.rd (.var .thd))) (.rd (.var .kinf))),
  .set (.var .logFcent) (.log10 (.fmax (.add (.add (.mul (.num 1578 4) (.exp (.div (.neg (.rd (.var .T))) (.num 125 0)))) (.mul (.num 8422 4) (.exp (.div (.neg (.rd (.var .T))) (.num 2219 0))))) (.exp (.div (.neg (.num 6882 0)) (.rd (.var .T))))) (.num 1 300))),
  .set (.var .A) (.sub (.sub (.log10 (.fmax (.rd (.var .Pr)) (.num 1 300))) (.mul (.num 67 2) (.rd (.var .logFcent)))) (.num 4 1)),
  .set (.var .B) (.sub (.sub (.num 806 3) (.mul (.num 11762 4) (.rd (.var .logFcent)))) (.mul (.num 14 2) (.log10 (.fmax (.rd (.var .Pr)) (.num 1 300))))),
  .set (.arr .presMod 10) (.div (.mul (.pow (.num 10 0) (.div (.rd (.var .logFcent)) (.add (.num 1 0) (.div (.mul (.rd (.var .A)) (.rd (.var .A))) (.mul (.rd (.var .B)) (.rd (.var .B))))))) (.rd (.var .Pr))) (.add (.num 1 0) (.rd (.var .Pr))))]

/-- utilities/mechanisms/drm19/lib/src/rxn_rates_pres_mod.c:97-106 -/
def presMod11 : List CStmt := [
  .set (.var .thd) (.sub (.add (.add (.add (.add (.add (.add (.rd (.var .m)) (.mul (.num 1 0) (.rd (.arr .C 0)))) (.mul (.num 5 0) (.rd (.arr .C 5)))) (.mul (.num 1 0) (.rd (.arr .C 10)))) (.mul (.num 5 1) (.rd (.arr .C 11)))) (.mul (.num 1 0) (.rd (.arr .C 12)))) (.mul (.num 2 0) (.rd (.arr .C 18)))) (.mul (.num 3 1) (.rd (.arr .C 19)))),
  .set (.var .k0) (.exp (.sub (.sub (.num 49977627770478051 15) (.mul (.num 342 2) (.rd (.var .logT)))) (.div (.num 4244657029587037 11) (.rd (.var .T))))),
  .set (.var .kinf) (.exp (.sub (.add (.num 10668955394675699 15) (.mul (.num 15 1) (.rd (.var .logT)))) (.div (.num 40056277362789348 12) (.rd (.var .T))))),
  .set (.var .Pr) (.div (.mul (.rd (.var .k0)) (.rd (.var .thd))) (.rd (.var .kinf))),
  .set (.var .logFcent) (.log10 (.fmax (.add (.add (.mul (.num 68 3) (.exp (.div (.neg (.rd (.var .T))) (.num 197 0)))) (.mul (.num 932 3) (.exp (.div (.neg (.rd (.var .T))) (.num 1540 0))))) (.exp (.div (.neg (.num 10300 0)) (.rd (.var .T))))) (.num 1 300))),
  .set (.var .A) (.sub (.sub (.log10 (.fmax (.rd (.var .Pr)) (.num 1 300))) (.mul (.num 67 2) (.rd (.var .logFcent)))) (.num 4 1)),
  .set (.var .B) (.sub (.sub (.num 806 3) (.mul (.num 11762 4) (.rd (.var .logFcent)))) (.mul (.num 14 2) (.log10 (.fmax (.rd (.var .Pr)) (.num 1 300))))),
  .set (.arr .presMod 11) (.div (.mul (.pow (.num 10 0) (.div (.rd (.var .logFcent)) (.add (.num 1 0) (.div (.mul (.rd (.var .A)) (.rd (.var .A))) (.mul (.rd (.var .B)) (.rd (.var .B))))))) (.rd (.var .Pr))) (.add (.num 1 0) (.rd (.var .Pr))))]

/-- utilities/mechanisms/drm19/lib/src/rxn_rates_pres_mod.c:107-116 -/
def presMod12 : List CStmt := [
  .set (.var .thd) (.sub (.add (.add (.add (.add (.add (.add (.rd (.var .m)) (.mul (.num 1 0) (.rd (.arr .C 0)))) (.mul (.num 5 0) (.rd (.arr .C 5)))) (.mul (.num 1 0) (.rd (.arr .C 10)))) (.mul (.num 5 1) (.rd (.arr .C 11)))) (.mul (.num 1 0) (.rd (.arr .C 12)))) (.mul (.num 2 0) (.rd (.arr .C 18)))) (.mul (.num 3 1) (.rd (.arr .C 19)))),
  .set (.var .k0) (.exp (.sub (.sub (.num 10188472363832375 14) (.mul (.num 967 2) (.rd (.var .logT)))) (.div (.num 31300256934239915 13) (.rd (.var .T))))),
  .set (.var .kinf) (.exp (.sub (.sub (.num 30685022297606515 15) (.mul (.num 97 2) (.rd (.var .logT)))) (.div (.num 31199613021268084 14) (.rd (.var .T))))),
  .set (.var .Pr) (.div (.mul (.rd (.var .k0)) (.rd (.var .thd))) (.rd (.var .kinf))),
  .set (.var .logFcent) (.log10 (.fmax (.add (.add (.mul (.num 4675 4) (.exp (.div (.neg (.rd (.var .T))) (.num 151 0)))) (.mul (.num 5325 4) (.exp (.div (.neg (.rd (.var .T))) (.num 1038 0))))) (.exp (.div (.neg (.num 4970 0)) (.rd (.var .T))))) (.num 1 300))),
  .set (.var .A) (.sub (.sub (.log10 (.fmax (.rd (.var .Pr)) (.num 1 300))) (.mul (.num 67 2) (.rd (.var .logFcent)))) (.num 4 1)),
  .set (.var .B) (.sub (.sub (.num 806 3) (.mul (.num 11762 4) (.rd (.var .logFcent)))) (.mul (.num 14 2) (.log10 (.fmax (.rd (.var .Pr)) (.num 1 300))))),
  .set (.arr .presMod 12) (.div (.mul (.pow (.num 10 0) (.div (.rd (.var .logFcent)) (.add (.num 1 0) (.div (.mul (.rd (.var .A)) (.rd (.var .A))) (.mul (.rd (.var .B)) (.rd (.var .B))))))) (.rd (.var .Pr))) (.add (.num 1 0) (.rd (.var .Pr))))]

/-- utilities/mechanisms/drm19/lib/src/rxn_rates_pres_mod.c:117-119 -/
def presMod13 : List CStmt := [
  .set (.arr .presMod 13) (.add (.add (.add (.add (.sub (.add (.rd (.var .m)) (.mul (.num 1 0) (.rd (.arr .C 0)))) (.mul (.num 1 0) (.rd (.arr .C 5)))) (.mul (.num 1 0) (.rd (.arr .C 10)))) (.mul (.num 5 1) (.rd (.arr .C 11)))) (.mul (.num 1 0) (.rd (.arr .C 12)))) (.mul (.num 2 0) (.rd (.arr .C 18))))]

/-- The blocks of `void get_rxn_pres_mod`, one per reaction: utilities/mechanisms/drm19/lib/src/rxn_rates_pres_mod.c:6-119 -/
def presModBlocks : List (List CStmt) := [
  presMod0, presMod1, presMod2, presMod3, presMod4, presMod5, presMod6, presMod7, presMod8, presMod9, presMod10, presMod11, presMod12, presMod13]

end DLB.Mech.Drm19
