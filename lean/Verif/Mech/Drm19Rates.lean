/- Generated by tools/gen_mechanisms.py from utilities/mechanisms/drm19/lib/src/rxn_rates.c. Do not edit. -/
import Verif.Model.CLang
set_option autoImplicit false

namespace DLB.Mech.Drm19
open DLB

/-- utilities/mechanisms/drm19/lib/src/rxn_rates.c:3-7 -/
def rateStart : List CStmt := [
  .set (.var .logT) (.log (.rd (.var .T)))]

/-- utilities/mechanisms/drm19/lib/src/rxn_rates.c:8-19 -/
def rate0 : List CStmt := [
  .set (.var .kf) (.exp (.sub (.num 26937873935368604 15) (.mul (.num 1 0) (.rd (.var .logT))))),
  .set (.arr .fwd 0) (.mul (.mul (.rd (.arr .C 1)) (.rd (.arr .C 2))) (.rd (.var .kf))),
  .ite (.rd (.var .T)) (.num 1000 0) (.var .Kc) (.sub (.add (.add (.neg (.num 32924395000000217 18)) (.mul (.neg (.num 67625167000000008 17)) (.rd (.var .logT)))) (.mul (.rd (.var .T)) (.add (.num 43900065964733344 20) (.mul (.rd (.var .T)) (.add (.neg (.num 3375209246673468 22)) (.mul (.rd (.var .T)) (.add (.num 18724440897493195 26) (.mul (.neg (.num 37427250453613386 30)) (.rd (.var .T)))))))))) (.div (.neg (.num 50980838539999997 12)) (.rd (.var .T)))) (.sub (.add (.add (.num 21155734939999999 16) (.mul (.neg (.num 97653312000000003 17)) (.rd (.var .logT)))) (.mul (.rd (.var .T)) (.add (.num 31720192639214862 20) (.mul (.rd (.var .T)) (.add (.num 14092792157300863 24) (.mul (.rd (.var .T)) (.add (.neg (.num 64940309137373039 28)) (.mul (.num 52564500959013221 32) (.rd (.var .T)))))))))) (.div (.neg (.num 50832581999999995 12)) (.rd (.var .T)))),
  .set (.var .Kc) (.mul (.num 82057360967184814 18) (.exp (.rd (.var .Kc)))),
  .set (.arr .rev 0) (.div (.mul (.rd (.arr .C 4)) (.rd (.var .kf))) (.rd (.var .Kc)))]

/-- utilities/mechanisms/drm19/lib/src/rxn_rates.c:20-31 -/
def rate1 : List CStmt := [
  .set (.var .kf) (.exp (.sub (.add (.num 3912023005428146 15) (.mul (.num 267 2) (.rd (.var .logT)))) (.div (.num 31652510629641329 13) (.rd (.var .T))))),
  .set (.arr .fwd 1) (.mul (.mul (.rd (.arr .C 0)) (.rd (.arr .C 2))) (.rd (.var .kf))),
  .ite (.rd (.var .T)) (.num 1000 0) (.var .Kc) (.sub (.add (.add (.neg (.num 42649692189999993 16)) (.mul (.num 97941721000000026 17) (.rd (.var .logT)))) (.mul (.rd (.var .T)) (.add (.neg (.num 35512597146473337 19)) (.mul (.rd (.var .T)) (.add (.num 29088375746673461 22) (.mul (.rd (.var .T)) (.add (.neg (.num 14925230406415985 25)) (.mul (.num 33137862995361342 29) (.rd (.var .T)))))))))) (.div (.num 88441643299999851 14) (.rd (.var .T)))) (.sub (.add (.add (.num 27645101560000005 16) (.mul (.neg (.num 31381229999999993 17)) (.rd (.var .logT)))) (.mul (.rd (.var .T)) (.add (.num 34190313985785133 20) (.mul (.rd (.var .T)) (.add (.neg (.num 69149998790634198 24)) (.mul (.rd (.var .T)) (.add (.num 84698344637373057 28) (.mul (.neg (.num 47563182059013212 32)) (.rd (.var .T)))))))))) (.div (.num 10648967219999977 13) (.rd (.var .T)))),
  .set (.var .Kc) (.mul (.num 1 0) (.exp (.rd (.var .Kc)))),
  .set (.arr .rev 1) (.div (.mul (.mul (.rd (.arr .C 1)) (.rd (.arr .C 4))) (.rd (.var .kf))) (.rd (.var .Kc)))]

/-- utilities/mechanisms/drm19/lib/src/rxn_rates.c:32-43 -/
def rate2 : List CStmt := [
  .set (.var .kf) (.num 20000000000 0),
  .set (.arr .fwd 2) (.mul (.mul (.rd (.arr .C 6)) (.rd (.arr .C 2))) (.rd (.var .kf))),
  .ite (.rd (.var .T)) (.num 1000 0) (.var .Kc) (.sub (.add (.add (.neg (.num 25192523180000004 16)) (.mul (.num 30440668000000004 17) (.rd (.var .logT)))) (.mul (.rd (.var .T)) (.add (.num 13151938349999998 19) (.mul (.rd (.var .T)) (.add (.neg (.num 22226854399999996 22)) (.mul (.rd (.var .T)) (.add (.num 14035022683333336 25) (.mul (.neg (.num 33985339400000004 29)) (.rd (.var .T)))))))))) (.div (.neg (.num 26865930240000002 12)) (.rd (.var .T)))) (.sub (.add (.add (.num 15716927700000003 16) (.mul (.neg (.num 21120617000000097 17)) (.rd (.var .logT)))) (.mul (.rd (.var .T)) (.add (.neg (.num 6116438015000002 20)) (.mul (.rd (.var .T)) (.add (.neg (.num 66252916499999951 25)) (.mul (.rd (.var .T)) (.add (.num 14413174416666637 28) (.mul (.neg (.num 18401260499999932 33)) (.rd (.var .T)))))))))) (.div (.neg (.num 26559236532999999 12)) (.rd (.var .T)))),
  .set (.var .Kc) (.mul (.num 1 0) (.exp (.rd (.var .Kc)))),
  .set (.arr .rev 2) (.div (.mul (.mul (.rd (.arr .C 3)) (.rd (.arr .C 4))) (.rd (.var .kf))) (.rd (.var .Kc)))]

/-- utilities/mechanisms/drm19/lib/src/rxn_rates.c:44-55 -/
def rate3 : List CStmt := [
  .set (.var .kf) (.num 80000000000 0),
  .set (.arr .fwd 3) (.mul (.mul (.rd (.arr .C 7)) (.rd (.arr .C 2))) (.rd (.var .kf))),
  .ite (.rd (.var .T)) (.num 1000 0) (.var .Kc) (.sub (.add (.add (.neg (.num 457015803 9)) (.mul (.neg (.num 20975992999999971 17)) (.rd (.var .logT)))) (.mul (.rd (.var .T)) (.add (.neg (.num 46673931114733346 20)) (.mul (.rd (.var .T)) (.add (.num 72366370466734677 23) (.mul (.rd (.var .T)) (.add (.neg (.num 27795262730826525 26)) (.mul (.num 26880587453613382 30) (.rd (.var .T)))))))))) (.div (.neg (.num 45813074439999997 12)) (.rd (.var .T)))) (.sub (.add (.add (.neg (.num 14325223539999996 16)) (.mul (.neg (.num 17134752000000031 17)) (.rd (.var .logT)))) (.mul (.rd (.var .T)) (.add (.num 69326821530785122 20) (.mul (.rd (.var .T)) (.add (.neg (.num 18624310045730086 23)) (.mul (.rd (.var .T)) (.add (.num 28250000347070641 27) (.mul (.neg (.num 17903225405901321 31)) (.rd (.var .T)))))))))) (.div (.neg (.num 45995605049999998 12)) (.rd (.var .T)))),
  .set (.var .Kc) (.mul (.num 1 0) (.exp (.rd (.var .Kc)))),
  .set (.arr .rev 3) (.div (.mul (.mul (.rd (.arr .C 1)) (.rd (.arr .C 13))) (.rd (.var .kf))) (.rd (.var .Kc)))]

/-- utilities/mechanisms/drm19/lib/src/rxn_rates.c:56-67 -/
def rate4 : List CStmt := [
  .set (.var .kf) (.num 15000000000 0),
  .set (.arr .fwd 4) (.mul (.mul (.rd (.arr .C 8)) (.rd (.arr .C 2))) (.rd (.var .kf))),
  .ite (.rd (.var .T)) (.num 1000 0) (.var .Kc) (.sub (.add (.add (.num 23105604539999995 16) (.mul (.neg (.num 64568536999999937 17)) (.rd (.var .logT)))) (.mul (.rd (.var .T)) (.add (.num 12010038553526665 19) (.mul (.rd (.var .T)) (.add (.neg (.num 18268026033265306 23)) (.mul (.rd (.var .T)) (.add (.neg (.num 41515270641598609 27)) (.mul (.num 14094078453613377 30) (.rd (.var .T)))))))))) (.div (.neg (.num 50305850640000004 12)) (.rd (.var .T)))) (.sub (.add (.add (.neg (.num 44698935139999989 16)) (.mul (.num 4107151899999999 16) (.rd (.var .logT)))) (.mul (.rd (.var .T)) (.add (.num 19352149030785112 20) (.mul (.rd (.var .T)) (.add (.neg (.num 85747517123967536 24)) (.mul (.rd (.var .T)) (.add (.num 15106129430403969 27) (.mul (.neg (.num 10303785505901323 31)) (.rd (.var .T)))))))))) (.div (.neg (.num 50658000749999999 12)) (.rd (.var .T)))),
  .set (.var .Kc) (.mul (.num 1 0) (.exp (.rd (.var .Kc)))),
  .set (.arr .rev 4) (.div (.mul (.mul (.rd (.arr .C 1)) (.rd (.arr .C 13))) (.rd (.var .kf))) (.rd (.var .Kc)))]

/-- utilities/mechanisms/drm19/lib/src/rxn_rates.c:68-79 -/
def rate5 : List CStmt := [
  .set (.var .kf) (.num 84300000000 0),
  .set (.arr .fwd 5) (.mul (.mul (.rd (.arr .C 9)) (.rd (.arr .C 2))) (.rd (.var .kf))),
  .ite (.rd (.var .T)) (.num 1000 0) (.var .Kc) (.sub (.add (.add (.neg (.num 39522333930000006 16)) (.mul (.num 45186564999999979 17) (.rd (.var .logT)))) (.mul (.rd (.var .T)) (.add (.neg (.num 43199832996473333 19)) (.mul (.rd (.var .T)) (.add (.num 41581197130006792 22) (.mul (.rd (.var .T)) (.add (.neg (.num 2077440467308265 24)) (.mul (.num 42603740745361341 29) (.rd (.var .T)))))))))) (.div (.neg (.num 34402554800000005 12)) (.rd (.var .T)))) (.sub (.add (.add (.num 53967806600000001 17) (.mul (.neg (.num 59444841000000048 17)) (.rd (.var .logT)))) (.mul (.rd (.var .T)) (.add (.num 10230372703078517 19) (.mul (.rd (.var .T)) (.add (.neg (.num 24623218212396754 23)) (.mul (.rd (.var .T)) (.add (.num 35062104263737296 27) (.mul (.neg (.num 21449230505901326 31)) (.rd (.var .T)))))))))) (.div (.neg (.num 34515335800000001 12)) (.rd (.var .T)))),
  .set (.var .Kc) (.mul (.num 1 0) (.exp (.rd (.var .Kc)))),
  .set (.arr .rev 5) (.div (.mul (.mul (.rd (.arr .C 14)) (.rd (.arr .C 1))) (.rd (.var .kf))) (.rd (.var .Kc)))]

/-- utilities/mechanisms/drm19/lib/src/rxn_rates.c:80-91 -/
def rate6 : List CStmt := [
  .set (.var .kf) (.exp (.sub (.add (.num 13835313185260453 15) (.mul (.num 15 1) (.rd (.var .logT)))) (.div (.num 43276882577887991 13) (.rd (.var .T))))),
  .set (.arr .fwd 6) (.mul (.mul (.rd (.arr .C 10)) (.rd (.arr .C 2))) (.rd (.var .kf))),
  .ite (.rd (.var .T)) (.num 1000 0) (.var .Kc) (.sub (.add (.add (.num 47425465719999984 16) (.mul (.neg (.num 65253739999999949 17)) (.rd (.var .logT)))) (.mul (.rd (.var .T)) (.add (.num 82799659350000013 19) (.mul (.rd (.var .T)) (.add (.neg (.num 7579161148333334 21)) (.mul (.rd (.var .T)) (.add (.num 3654171771666667 24) (.mul (.neg (.num 7437041635 22)) (.rd (.var .T)))))))))) (.div (.num 11844677599999995 13) (.rd (.var .T)))) (.sub (.add (.add (.neg (.num 12999221865000001 15)) (.mul (.num 27343331149999996 16) (.rd (.var .logT)))) (.mul (.rd (.var .T)) (.add (.neg (.num 27583212501499999 19)) (.mul (.rd (.var .T)) (.add (.num 47171189651666662 23) (.mul (.rd (.var .T)) (.add (.neg (.num 58764090141666669 27)) (.mul (.num 32806345645000004 31) (.rd (.var .T)))))))))) (.div (.num 88500678999999946 14) (.rd (.var .T)))),
  .set (.var .Kc) (.mul (.num 1 0) (.exp (.rd (.var .Kc)))),
  .set (.arr .rev 6) (.div (.mul (.mul (.rd (.arr .C 9)) (.rd (.arr .C 4))) (.rd (.var .kf))) (.rd (.var .Kc)))]

/-- utilities/mechanisms/drm19/lib/src/rxn_rates.c:92-103 -/
def rate7 : List CStmt := [
  .set (.var .kf) (.exp (.sub (.num 20215768003273094 15) (.div (.num 15096586945774879 13) (.rd (.var .T))))),
  .set (.arr .fwd 7) (.mul (.mul (.rd (.arr .C 11)) (.rd (.arr .C 2))) (.rd (.var .kf))),
  .ite (.rd (.var .T)) (.num 1000 0) (.var .Kc) (.sub (.add (.add (.num 87317365300000009 16) (.mul (.neg (.num 33910270499999999 16)) (.rd (.var .logT)))) (.mul (.rd (.var .T)) (.add (.num 64371346450000002 19) (.mul (.rd (.var .T)) (.add (.neg (.num 24639068299999998 22)) (.mul (.rd (.var .T)) (.add (.num 64002088133333328 26) (.mul (.neg (.num 67596737950000005 30)) (.rd (.var .T)))))))))) (.div (.neg (.num 63150142900000006 12)) (.rd (.var .T)))) (.sub (.add (.add (.neg (.num 89042422000000006 16)) (.mul (.neg (.num 42714609999999986 17)) (.rd (.var .logT)))) (.mul (.rd (.var .T)) (.add (.num 12189084718499997 19) (.mul (.rd (.var .T)) (.add (.neg (.num 20965612131666668 23)) (.mul (.rd (.var .T)) (.add (.num 25287913325000004 27) (.mul (.neg (.num 14035990855000001 31)) (.rd (.var .T)))))))))) (.div (.neg (.num 63824872699999993 12)) (.rd (.var .T)))),
  .set (.var .Kc) (.mul (.num 82057360967184814 18) (.exp (.rd (.var .Kc)))),
  .set (.arr .rev 7) (.div (.mul (.rd (.arr .C 12)) (.rd (.var .kf))) (.rd (.var .Kc)))]

/-- utilities/mechanisms/drm19/lib/src/rxn_rates.c:104-115 -/
def rate8 : List CStmt := [
  .set (.var .kf) (.num 30000000000 0),
  .set (.arr .fwd 8) (.mul (.mul (.rd (.arr .C 13)) (.rd (.arr .C 2))) (.rd (.var .kf))),
  .ite (.rd (.var .T)) (.num 1000 0) (.var .Kc) (.sub (.add (.add (.neg (.num 22239180279999999 16)) (.mul (.num 18209595999999939 17) (.rd (.var .logT)))) (.mul (.rd (.var .T)) (.add (.num 17557864799999999 19) (.mul (.rd (.var .T)) (.add (.neg (.num 24647093033333336 22)) (.mul (.rd (.var .T)) (.add (.num 13723623411666668 25) (.mul (.neg (.num 29953290795 23)) (.rd (.var .T)))))))))) (.div (.neg (.num 43690829599999997 12)) (.rd (.var .T)))) (.sub (.add (.add (.neg (.num 275377786 8)) (.mul (.num 46647811999999966 17) (.rd (.var .logT)))) (.mul (.rd (.var .T)) (.add (.neg (.num 11300120001499999 19)) (.mul (.rd (.var .T)) (.add (.num 26169785468333331 23) (.mul (.rd (.var .T)) (.add (.neg (.num 36419762141666674 27)) (.mul (.num 21749500095000002 31) (.rd (.var .T)))))))))) (.div (.neg (.num 43522712650000001 12)) (.rd (.var .T)))),
  .set (.var .Kc) (.mul (.num 1 0) (.exp (.rd (.var .Kc)))),
  .set (.arr .rev 8) (.div (.mul (.mul (.rd (.arr .C 11)) (.rd (.arr .C 4))) (.rd (.var .kf))) (.rd (.var .Kc)))]

/-- utilities/mechanisms/drm19/lib/src/rxn_rates.c:116-127 -/
def rate9 : List CStmt := [
  .set (.var .kf) (.num 30000000000 0),
  .set (.arr .fwd 9) (.mul (.mul (.rd (.arr .C 13)) (.rd (.arr .C 2))) (.rd (.var .kf))),
  .ite (.rd (.var .T)) (.num 1000 0) (.var .Kc) (.sub (.add (.add (.num 65407428970000012 16) (.mul (.neg (.num 25326794200000005 16)) (.rd (.var .logT)))) (.mul (.rd (.var .T)) (.add (.num 77539204653526671 19) (.mul (.rd (.var .T)) (.add (.neg (.num 45910952086659868 22)) (.mul (.rd (.var .T)) (.add (.num 18251388135250679 25) (.mul (.neg (.num 3297023954463866 28)) (.rd (.var .T)))))))))) (.div (.neg (.num 55860133960000006 12)) (.rd (.var .T)))) (.sub (.add (.add (.neg (.num 13773593554000001 15)) (.mul (.num 10158651399999994 16) (.rd (.var .logT)))) (.mul (.rd (.var .T)) (.add (.neg (.num 22830545469214872 20)) (.mul (.rd (.var .T)) (.add (.num 37948941209365814 24) (.mul (.rd (.var .T)) (.add (.neg (.num 46378179029293617 28)) (.mul (.num 24570591440986795 32) (.rd (.var .T)))))))))) (.div (.neg (.num 56515003349999999 12)) (.rd (.var .T)))),
  .set (.var .Kc) (.mul (.num 1 0) (.exp (.rd (.var .Kc)))),
  .set (.arr .rev 9) (.div (.mul (.mul (.rd (.arr .C 1)) (.rd (.arr .C 12))) (.rd (.var .kf))) (.rd (.var .Kc)))]

/-- utilities/mechanisms/drm19/lib/src/rxn_rates.c:128-139 -/
def rate10 : List CStmt := [
  .set (.var .kf) (.exp (.sub (.num 24386827483076058 15) (.div (.num 17813972596014357 13) (.rd (.var .T))))),
  .set (.arr .fwd 10) (.mul (.mul (.rd (.arr .C 14)) (.rd (.arr .C 2))) (.rd (.var .kf))),
  .ite (.rd (.var .T)) (.num 1000 0) (.var .Kc) (.sub (.add (.add (.num 3844895919999991 16) (.mul (.num 25121102000000084 17) (.rd (.var .logT)))) (.mul (.rd (.var .T)) (.add (.num 37712048449999999 19) (.mul (.rd (.var .T)) (.add (.neg (.num 4261196958333333 21)) (.mul (.rd (.var .T)) (.add (.num 22384208091666663 25) (.mul (.neg (.num 47940607800000004 29)) (.rd (.var .T)))))))))) (.div (.neg (.num 73586569799999997 13)) (.rd (.var .T)))) (.sub (.add (.add (.neg (.num 57005718100000013 16)) (.mul (.num 15349511899999997 16) (.rd (.var .logT)))) (.mul (.rd (.var .T)) (.add (.neg (.num 18043208651500001 19)) (.mul (.rd (.var .T)) (.add (.num 33711479484999995 23) (.mul (.rd (.var .T)) (.add (.neg (.num 41264893141666657 27)) (.mul (.num 22773796795000006 31) (.rd (.var .T)))))))))) (.div (.neg (.num 73511716500000002 13)) (.rd (.var .T)))),
  .set (.var .Kc) (.mul (.num 1 0) (.exp (.rd (.var .Kc)))),
  .set (.arr .rev 10) (.div (.mul (.mul (.rd (.arr .C 13)) (.rd (.arr .C 4))) (.rd (.var .kf))) (.rd (.var .Kc)))]

/-- utilities/mechanisms/drm19/lib/src/rxn_rates.c:140-151 -/
def rate11 : List CStmt := [
  .set (.var .kf) (.exp (.sub (.add (.num 98626655580158733 16) (.mul (.num 183 2) (.rd (.var .logT)))) (.div (.num 11070830426901578 14) (.rd (.var .T))))),
  .set (.arr .fwd 11) (.mul (.mul (.rd (.arr .C 16)) (.rd (.arr .C 2))) (.rd (.var .kf))),
  .ite (.rd (.var .T)) (.num 1000 0) (.var .Kc) (.sub (.add (.add (.neg (.num 191763532 8)) (.mul (.num 76730766000000061 17) (.rd (.var .logT)))) (.mul (.rd (.var .T)) (.add (.num 480843387 11) (.mul (.rd (.var .T)) (.add (.neg (.num 73719883333333335 22)) (.mul (.rd (.var .T)) (.add (.num 45917798324999999 25) (.mul (.neg (.num 11109775510000001 28)) (.rd (.var .T)))))))))) (.div (.neg (.num 13927471369999999 12)) (.rd (.var .T)))) (.sub (.add (.add (.num 2736348609999999 15) (.mul (.num 45236016000000001 17) (.rd (.var .logT)))) (.mul (.rd (.var .T)) (.add (.neg (.num 11812926781500001 19)) (.mul (.rd (.var .T)) (.add (.num 1995385135166667 22) (.mul (.rd (.var .T)) (.add (.neg (.num 23113752341666686 27)) (.mul (.num 12205706794999998 31) (.rd (.var .T)))))))))) (.div (.neg (.num 13369962789999998 12)) (.rd (.var .T)))),
  .set (.var .Kc) (.mul (.num 1 0) (.exp (.rd (.var .Kc)))),
  .set (.arr .rev 11) (.div (.mul (.mul (.rd (.arr .C 9)) (.rd (.arr .C 13))) (.rd (.var .kf))) (.rd (.var .Kc)))]

/-- utilities/mechanisms/drm19/lib/src/rxn_rates.c:152-163 -/
def rate12 : List CStmt := [
  .set (.var .kf) (.num 132000000000 0),
  .set (.arr .fwd 12) (.mul (.mul (.rd (.arr .C 17)) (.rd (.arr .C 2))) (.rd (.var .kf))),
  .ite (.rd (.var .T)) (.num 1000 0) (.var .Kc) (.sub (.add (.add (.neg (.num 55443462399999994 16)) (.mul (.num 99258077000000045 17) (.rd (.var .logT)))) (.mul (.rd (.var .T)) (.add (.neg (.num 21573708999999977 20)) (.mul (.rd (.var .T)) (.add (.neg (.num 22175208833333346 22)) (.mul (.rd (.var .T)) (.add (.num 17700855408333336 25) (.mul (.neg (.num 47212187850000007 29)) (.rd (.var .T)))))))))) (.div (.neg (.num 398278436 4)) (.rd (.var .T)))) (.sub (.add (.add (.num 4367291250000001 15) (.mul (.neg (.num 47766940000000035 17)) (.rd (.var .logT)))) (.mul (.rd (.var .T)) (.add (.neg (.num 43569844814999968 20)) (.mul (.rd (.var .T)) (.add (.num 88397768516666726 24) (.mul (.rd (.var .T)) (.add (.neg (.num 11671862174999995 27)) (.mul (.num 66561178449999901 32) (.rd (.var .T)))))))))) (.div (.neg (.num 39295347099999999 12)) (.rd (.var .T)))),
  .set (.var .Kc) (.mul (.num 1 0) (.exp (.rd (.var .Kc)))),
  .set (.arr .rev 12) (.div (.mul (.mul (.rd (.arr .C 14)) (.rd (.arr .C 9))) (.rd (.var .kf))) (.rd (.var .Kc)))]

/-- utilities/mechanisms/drm19/lib/src/rxn_rates.c:164-175 -/
def rate13 : List CStmt := [
  .set (.var .kf) (.exp (.sub (.add (.num 11405340254290291 15) (.mul (.num 192 2) (.rd (.var .logT)))) (.div (.num 28633193240486353 13) (.rd (.var .T))))),
  .set (.arr .fwd 13) (.mul (.mul (.rd (.arr .C 18)) (.rd (.arr .C 2))) (.rd (.var .kf))),
  .ite (.rd (.var .T)) (.num 1000 0) (.var .Kc) (.sub (.add (.add (.neg (.num 95426192799999976 17)) (.mul (.num 83878908999999924 17) (.rd (.var .logT)))) (.mul (.rd (.var .T)) (.add (.num 10964775499999993 19) (.mul (.rd (.var .T)) (.add (.neg (.num 2042445608333335 21)) (.mul (.rd (.var .T)) (.add (.num 10984084008333345 25) (.mul (.neg (.num 22831108549999995 29)) (.rd (.var .T)))))))))) (.div (.neg (.num 11433466399999998 13)) (.rd (.var .T)))) (.sub (.add (.add (.neg (.num 33670607499999998 16)) (.mul (.num 140624181 8) (.rd (.var .logT)))) (.mul (.rd (.var .T)) (.add (.neg (.num 18267958351500004 19)) (.mul (.rd (.var .T)) (.add (.num 35468279818333322 23) (.mul (.rd (.var .T)) (.add (.neg (.num 44989291308333346 27)) (.mul (.num 25437107345000002 31) (.rd (.var .T)))))))))) (.div (.neg (.num 10750088999999971 13)) (.rd (.var .T)))),
  .set (.var .Kc) (.mul (.num 1 0) (.exp (.rd (.var .Kc)))),
  .set (.arr .rev 13) (.div (.mul (.mul (.rd (.arr .C 17)) (.rd (.arr .C 4))) (.rd (.var .kf))) (.rd (.var .Kc)))]

/-- utilities/mechanisms/drm19/lib/src/rxn_rates.c:176-187 -/
def rate14 : List CStmt := [
  .set (.var .kf) (.exp (.sub (.num 21639556568820566 15) (.div (.num 24053895200267973 12) (.rd (.var .T))))),
  .set (.arr .fwd 14) (.mul (.mul (.rd (.arr .C 11)) (.rd (.arr .C 3))) (.rd (.var .kf))),
  .ite (.rd (.var .T)) (.num 1000 0) (.var .Kc) (.sub (.add (.add (.num 66238498800000007 16) (.mul (.neg (.num 18369492099999998 16)) (.rd (.var .logT)))) (.mul (.rd (.var .T)) (.add (.num 46561828850000004 19) (.mul (.rd (.var .T)) (.add (.neg (.num 18907691783333333 22)) (.mul (.rd (.var .T)) (.add (.num 42545109883333335 26) (.mul (.neg (.num 18517185450000013 30)) (.rd (.var .T)))))))))) (.div (.neg (.num 3841680940000002 12)) (.rd (.var .T)))) (.sub (.add (.add (.neg (.num 66450999300000007 16)) (.mul (.num 42915762000000068 17) (.rd (.var .logT)))) (.mul (.rd (.var .T)) (.add (.num 39139058814999987 20) (.mul (.rd (.var .T)) (.add (.neg (.num 6934552351666668 23)) (.mul (.rd (.var .T)) (.add (.num 61624037583333416 28) (.mul (.neg (.num 19717642450000007 32)) (.rd (.var .T)))))))))) (.div (.neg (.num 43012567799999979 13)) (.rd (.var .T)))),
  .set (.var .Kc) (.mul (.num 1 0) (.exp (.rd (.var .Kc)))),
  .set (.arr .rev 14) (.div (.mul (.mul (.rd (.arr .C 12)) (.rd (.arr .C 2))) (.rd (.var .kf))) (.rd (.var .Kc)))]

/-- utilities/mechanisms/drm19/lib/src/rxn_rates.c:188-199 -/
def rate15 : List CStmt := [
  .set (.var .kf) (.exp (.sub (.num 25328436022934504 15) (.div (.num 20128782594366505 12) (.rd (.var .T))))),
  .set (.arr .fwd 15) (.mul (.mul (.rd (.arr .C 14)) (.rd (.arr .C 3))) (.rd (.var .kf))),
  .ite (.rd (.var .T)) (.num 1000 0) (.var .Kc) (.sub (.add (.add (.num 29037419099999999 16) (.mul (.neg (.num 53195659999999645 18)) (.rd (.var .logT)))) (.mul (.rd (.var .T)) (.add (.num 24560110100000001 19) (.mul (.rd (.var .T)) (.add (.neg (.num 20385115183333334 22)) (.mul (.rd (.var .T)) (.add (.num 83491854083333324 26) (.mul (.neg (.num 13955268399999999 29)) (.rd (.var .T)))))))))) (.div (.num 19507273260000002 12) (.rd (.var .T)))) (.sub (.add (.add (.neg (.num 72722645800000008 16)) (.mul (.num 17461573600000007 16) (.rd (.var .logT)))) (.mul (.rd (.var .T)) (.add (.neg (.num 17431564849999998 19)) (.mul (.rd (.var .T)) (.add (.num 34374008649999998 23) (.mul (.rd (.var .T)) (.add (.neg (.num 42706210583333322 27)) (.mul (.num 22957809400000002 31) (.rd (.var .T)))))))))) (.div (.num 19208064882999999 12) (.rd (.var .T)))),
  .set (.var .Kc) (.mul (.num 1 0) (.exp (.rd (.var .Kc)))),
  .set (.arr .rev 15) (.div (.mul (.mul (.rd (.arr .C 6)) (.rd (.arr .C 13))) (.rd (.var .kf))) (.rd (.var .Kc)))]

/-- utilities/mechanisms/drm19/lib/src/rxn_rates.c:200-211 -/
def rate16 : List CStmt := [
  .set (.var .kf) (.exp (.sub (.num 28660640533109706 15) (.mul (.num 86 2) (.rd (.var .logT))))),
  .set (.arr .fwd 16) (.mul (.mul (.rd (.arr .C 1)) (.rd (.arr .C 3))) (.rd (.var .kf))),
  .ite (.rd (.var .T)) (.num 1000 0) (.var .Kc) (.sub (.add (.add (.num 24863279230000002 16) (.mul (.neg (.num 98065835000000012 17)) (.rd (.var .logT)))) (.mul (.rd (.var .T)) (.add (.neg (.num 87619317535266614 20)) (.mul (.rd (.var .T)) (.add (.num 18851645153326528 22) (.mul (.rd (.var .T)) (.add (.neg (.num 12162578593584016 25)) (.mul (.num 3024261435463867 28) (.rd (.var .T)))))))))) (.div (.neg (.num 24114908299999999 12)) (.rd (.var .T)))) (.sub (.add (.add (.num 54388072400000009 17) (.mul (.neg (.num 76532694999999951 17)) (.rd (.var .logT)))) (.mul (.rd (.var .T)) (.add (.num 37836630654214875 20) (.mul (.rd (.var .T)) (.add (.num 20718083807300866 24) (.mul (.rd (.var .T)) (.add (.neg (.num 79353483554039681 28)) (.mul (.num 54404627009013211 32) (.rd (.var .T)))))))))) (.div (.neg (.num 24273345466999999 12)) (.rd (.var .T)))),
  .set (.var .Kc) (.mul (.num 82057360967184814 18) (.exp (.rd (.var .Kc)))),
  .set (.arr .rev 16) (.div (.mul (.rd (.arr .C 6)) (.rd (.var .kf))) (.rd (.var .Kc)))]

/-- utilities/mechanisms/drm19/lib/src/rxn_rates.c:212-223 -/
def rate17 : List CStmt := [
  .set (.var .kf) (.exp (.sub (.num 33334803590584748 15) (.mul (.num 172 2) (.rd (.var .logT))))),
  .set (.arr .fwd 17) (.mul (.mul (.mul (.rd (.arr .C 1)) (.rd (.arr .C 3))) (.rd (.arr .C 3))) (.rd (.var .kf))),
  .ite (.rd (.var .T)) (.num 1000 0) (.var .Kc) (.sub (.add (.add (.num 24863279230000002 16) (.mul (.neg (.num 98065835000000012 17)) (.rd (.var .logT)))) (.mul (.rd (.var .T)) (.add (.neg (.num 87619317535266624 20)) (.mul (.rd (.var .T)) (.add (.num 1885164515332653 21) (.mul (.rd (.var .T)) (.add (.neg (.num 12162578593584016 25)) (.mul (.num 3024261435463867 28) (.rd (.var .T)))))))))) (.div (.neg (.num 24114908299999999 12)) (.rd (.var .T)))) (.sub (.add (.add (.num 54388072400000009 17) (.mul (.neg (.num 76532694999999951 17)) (.rd (.var .logT)))) (.mul (.rd (.var .T)) (.add (.num 37836630654214864 20) (.mul (.rd (.var .T)) (.add (.num 20718083807300862 24) (.mul (.rd (.var .T)) (.add (.neg (.num 79353483554039681 28)) (.mul (.num 54404627009013211 32) (.rd (.var .T)))))))))) (.div (.neg (.num 24273345466999999 12)) (.rd (.var .T)))),
  .set (.var .Kc) (.mul (.num 82057360967184814 18) (.exp (.rd (.var .Kc)))),
  .set (.arr .rev 17) (.div (.mul (.mul (.rd (.arr .C 6)) (.rd (.arr .C 3))) (.rd (.var .kf))) (.rd (.var .Kc)))]

/-- utilities/mechanisms/drm19/lib/src/rxn_rates.c:224-235 -/
def rate18 : List CStmt := [
  .set (.var .kf) (.exp (.sub (.num 29869600878946681 15) (.mul (.num 76 2) (.rd (.var .logT))))),
  .set (.arr .fwd 18) (.mul (.mul (.mul (.rd (.arr .C 1)) (.rd (.arr .C 5))) (.rd (.arr .C 3))) (.rd (.var .kf))),
  .ite (.rd (.var .T)) (.num 1000 0) (.var .Kc) (.sub (.add (.add (.num 24863279230000002 16) (.mul (.neg (.num 98065835000000012 17)) (.rd (.var .logT)))) (.mul (.rd (.var .T)) (.add (.neg (.num 87619317535266614 20)) (.mul (.rd (.var .T)) (.add (.num 18851645153326528 22) (.mul (.rd (.var .T)) (.add (.neg (.num 12162578593584016 25)) (.mul (.num 3024261435463867 28) (.rd (.var .T)))))))))) (.div (.neg (.num 24114908299999999 12)) (.rd (.var .T)))) (.sub (.add (.add (.num 54388072400000009 17) (.mul (.neg (.num 76532694999999951 17)) (.rd (.var .logT)))) (.mul (.rd (.var .T)) (.add (.num 37836630654214875 20) (.mul (.rd (.var .T)) (.add (.num 20718083807300866 24) (.mul (.rd (.var .T)) (.add (.neg (.num 79353483554039681 28)) (.mul (.num 54404627009013211 32) (.rd (.var .T)))))))))) (.div (.neg (.num 24273345466999999 12)) (.rd (.var .T)))),
  .set (.var .Kc) (.mul (.num 82057360967184814 18) (.exp (.rd (.var .Kc)))),
  .set (.arr .rev 18) (.div (.mul (.mul (.rd (.arr .C 5)) (.rd (.arr .C 6))) (.rd (.var .kf))) (.rd (.var .Kc)))]

/-- utilities/mechanisms/drm19/lib/src/rxn_rates.c:236-247 -/
def rate19 : List CStmt := [
  .set (.var .kf) (.exp (.sub (.num 33557947141898957 15) (.mul (.num 172 2) (.rd (.var .logT))))),
  .set (.arr .fwd 19) (.mul (.mul (.mul (.rd (.arr .C 1)) (.rd (.arr .C 20))) (.rd (.arr .C 3))) (.rd (.var .kf))),
  .ite (.rd (.var .T)) (.num 1000 0) (.var .Kc) (.sub (.add (.add (.num 24863279230000002 16) (.mul (.neg (.num 98065835000000012 17)) (.rd (.var .logT)))) (.mul (.rd (.var .T)) (.add (.neg (.num 87619317535266614 20)) (.mul (.rd (.var .T)) (.add (.num 18851645153326528 22) (.mul (.rd (.var .T)) (.add (.neg (.num 12162578593584016 25)) (.mul (.num 3024261435463867 28) (.rd (.var .T)))))))))) (.div (.neg (.num 24114908299999999 12)) (.rd (.var .T)))) (.sub (.add (.add (.num 54388072400000009 17) (.mul (.neg (.num 76532694999999951 17)) (.rd (.var .logT)))) (.mul (.rd (.var .T)) (.add (.num 37836630654214875 20) (.mul (.rd (.var .T)) (.add (.num 20718083807300866 24) (.mul (.rd (.var .T)) (.add (.neg (.num 79353483554039681 28)) (.mul (.num 54404627009013211 32) (.rd (.var .T)))))))))) (.div (.neg (.num 24273345466999999 12)) (.rd (.var .T)))),
  .set (.var .Kc) (.mul (.num 82057360967184814 18) (.exp (.rd (.var .Kc)))),
  .set (.arr .rev 19) (.div (.mul (.mul (.rd (.arr .C 20)) (.rd (.arr .C 6))) (.rd (.var .kf))) (.rd (.var .Kc)))]

/-- utilities/mechanisms/drm19/lib/src/rxn_rates.c:248-259 -/
def rate20 : List CStmt := [
  .set (.var .kf) (.exp (.sub (.num 27274346171989816 15) (.mul (.num 8 1) (.rd (.var .logT))))),
  .set (.arr .fwd 20) (.mul (.mul (.mul (.rd (.arr .C 1)) (.rd (.arr .C 19))) (.rd (.arr .C 3))) (.rd (.var .kf))),
  .ite (.rd (.var .T)) (.num 1000 0) (.var .Kc) (.sub (.add (.add (.num 24863279230000002 16) (.mul (.neg (.num 98065835000000012 17)) (.rd (.var .logT)))) (.mul (.rd (.var .T)) (.add (.neg (.num 87619317535266614 20)) (.mul (.rd (.var .T)) (.add (.num 18851645153326528 22) (.mul (.rd (.var .T)) (.add (.neg (.num 12162578593584016 25)) (.mul (.num 3024261435463867 28) (.rd (.var .T)))))))))) (.div (.neg (.num 24114908299999999 12)) (.rd (.var .T)))) (.sub (.add (.add (.num 54388072400000009 17) (.mul (.neg (.num 76532694999999951 17)) (.rd (.var .logT)))) (.mul (.rd (.var .T)) (.add (.num 37836630654214875 20) (.mul (.rd (.var .T)) (.add (.num 20718083807300866 24) (.mul (.rd (.var .T)) (.add (.neg (.num 79353483554039681 28)) (.mul (.num 54404627009013211 32) (.rd (.var .T)))))))))) (.div (.neg (.num 24273345466999999 12)) (.rd (.var .T)))),
  .set (.var .Kc) (.mul (.num 82057360967184814 18) (.exp (.rd (.var .Kc)))),
  .set (.arr .rev 20) (.div (.mul (.mul (.rd (.arr .C 19)) (.rd (.arr .C 6))) (.rd (.var .kf))) (.rd (.var .Kc)))]

/-- utilities/mechanisms/drm19/lib/src/rxn_rates.c:260-271 -/
def rate21 : List CStmt := [
  .set (.var .kf) (.exp (.sub (.num 2514210644474301 14) (.div (.num 72529035883151109 13) (.rd (.var .T))))),
  .set (.arr .fwd 21) (.mul (.mul (.rd (.arr .C 1)) (.rd (.arr .C 3))) (.rd (.var .kf))),
  .ite (.rd (.var .T)) (.num 1000 0) (.var .Kc) (.sub (.add (.add (.neg (.num 2140811045 9)) (.mul (.num 87782617000000007 17) (.rd (.var .logT)))) (.mul (.rd (.var .T)) (.add (.neg (.num 13419511003526661 19)) (.mul (.rd (.var .T)) (.add (.num 23561672699931997 23) (.mul (.rd (.var .T)) (.add (.neg (.num 27325373525067921 27)) (.mul (.num 1165230204638662 29) (.rd (.var .T)))))))))) (.div (.num 83276234199999999 13) (.rd (.var .T)))) (.sub (.add (.add (.num 43747157639999994 16) (.mul (.neg (.num 12022939999999949 17)) (.rd (.var .logT)))) (.mul (.rd (.var .T)) (.add (.neg (.num 51031595730785138 20)) (.mul (.rd (.var .T)) (.add (.num 15440338995730085 23) (.mul (.rd (.var .T)) (.add (.neg (.num 25619540480403969 27)) (.mul (.num 1732067670590132 30) (.rd (.var .T)))))))))) (.div (.num 86910339200000035 13) (.rd (.var .T)))),
  .set (.var .Kc) (.mul (.num 1 0) (.exp (.rd (.var .Kc)))),
  .set (.arr .rev 21) (.div (.mul (.mul (.rd (.arr .C 2)) (.rd (.arr .C 4))) (.rd (.var .kf))) (.rd (.var .Kc)))]

/-- utilities/mechanisms/drm19/lib/src/rxn_rates.c:272-283 -/
def rate22 : List CStmt := [
  .set (.var .kf) (.exp (.sub (.num 27631021115928547 15) (.mul (.num 1 0) (.rd (.var .logT))))),
  .set (.arr .fwd 22) (.mul (.mul (.rd (.arr .C 1)) (.rd (.arr .C 1))) (.rd (.var .kf))),
  .ite (.rd (.var .T)) (.num 1000 0) (.var .Kc) (.sub (.add (.add (.num 42320448239999999 16) (.mul (.neg (.num 16556688799999999 16)) (.rd (.var .logT)))) (.mul (.rd (.var .T)) (.add (.num 39902603742946671 19) (.mul (.rd (.var .T)) (.add (.neg (.num 32463584993346931 22)) (.mul (.rd (.var .T)) (.add (.num 16797674496165307 25) (.mul (.neg (.num 36880588040722682 29)) (.rd (.var .T)))))))))) (.div (.neg (.num 51865254972999996 12)) (.rd (.var .T)))) (.sub (.add (.add (.neg (.num 64893666199999966 17)) (.mul (.neg (.num 6627208200000001 16)) (.rd (.var .logT)))) (.mul (.rd (.var .T)) (.add (.neg (.num 24701213465702698 21)) (.mul (.rd (.var .T)) (.add (.num 83242790947935064 24) (.mul (.rd (.var .T)) (.add (.neg (.num 1496386537747461 26)) (.mul (.num 10012768301802643 31) (.rd (.var .T)))))))))) (.div (.neg (.num 51897478722 6)) (.rd (.var .T)))),
  .set (.var .Kc) (.mul (.num 82057360967184814 18) (.exp (.rd (.var .Kc)))),
  .set (.arr .rev 22) (.div (.mul (.rd (.arr .C 0)) (.rd (.var .kf))) (.rd (.var .Kc)))]

/-- utilities/mechanisms/drm19/lib/src/rxn_rates.c:284-295 -/
def rate23 : List CStmt := [
  .set (.var .kf) (.exp (.sub (.num 25223075507276675 15) (.mul (.num 6 1) (.rd (.var .logT))))),
  .set (.arr .fwd 23) (.mul (.mul (.mul (.rd (.arr .C 0)) (.rd (.arr .C 1))) (.rd (.arr .C 1))) (.rd (.var .kf))),
  .ite (.rd (.var .T)) (.num 1000 0) (.var .Kc) (.sub (.add (.add (.num 42320448239999999 16) (.mul (.neg (.num 16556688799999999 16)) (.rd (.var .logT)))) (.mul (.rd (.var .T)) (.add (.num 39902603742946671 19) (.mul (.rd (.var .T)) (.add (.neg (.num 32463584993346931 22)) (.mul (.rd (.var .T)) (.add (.num 16797674496165307 25) (.mul (.neg (.num 36880588040722682 29)) (.rd (.var .T)))))))))) (.div (.neg (.num 51865254972999996 12)) (.rd (.var .T)))) (.sub (.add (.add (.neg (.num 64893666199999966 17)) (.mul (.neg (.num 6627208200000001 16)) (.rd (.var .logT)))) (.mul (.rd (.var .T)) (.add (.neg (.num 24701213465702698 21)) (.mul (.rd (.var .T)) (.add (.num 83242790947935064 24) (.mul (.rd (.var .T)) (.add (.neg (.num 1496386537747461 26)) (.mul (.num 10012768301802643 31) (.rd (.var .T)))))))))) (.div (.neg (.num 51897478722 6)) (.rd (.var .T)))),
  .set (.var .Kc) (.mul (.num 82057360967184814 18) (.exp (.rd (.var .Kc)))),
  .set (.arr .rev 23) (.div (.mul (.mul (.rd (.arr .C 0)) (.rd (.arr .C 0))) (.rd (.var .kf))) (.rd (.var .Kc)))]

/-- utilities/mechanisms/drm19/lib/src/rxn_rates.c:296-307 -/
def rate24 : List CStmt := [
  .set (.var .kf) (.exp (.sub (.num 31725365678150649 15) (.mul (.num 125 2) (.rd (.var .logT))))),
  .set (.arr .fwd 24) (.mul (.mul (.mul (.rd (.arr .C 1)) (.rd (.arr .C 1))) (.rd (.arr .C 5))) (.rd (.var .kf))),
  .ite (.rd (.var .T)) (.num 1000 0) (.var .Kc) (.sub (.add (.add (.num 42320448239999999 16) (.mul (.neg (.num 16556688799999999 16)) (.rd (.var .logT)))) (.mul (.rd (.var .T)) (.add (.num 39902603742946671 19) (.mul (.rd (.var .T)) (.add (.neg (.num 32463584993346931 22)) (.mul (.rd (.var .T)) (.add (.num 16797674496165307 25) (.mul (.neg (.num 36880588040722682 29)) (.rd (.var .T)))))))))) (.div (.neg (.num 51865254972999996 12)) (.rd (.var .T)))) (.sub (.add (.add (.neg (.num 64893666199999966 17)) (.mul (.neg (.num 6627208200000001 16)) (.rd (.var .logT)))) (.mul (.rd (.var .T)) (.add (.neg (.num 24701213465702698 21)) (.mul (.rd (.var .T)) (.add (.num 83242790947935064 24) (.mul (.rd (.var .T)) (.add (.neg (.num 1496386537747461 26)) (.mul (.num 10012768301802643 31) (.rd (.var .T)))))))))) (.div (.neg (.num 51897478722 6)) (.rd (.var .T)))),
  .set (.var .Kc) (.mul (.num 82057360967184814 18) (.exp (.rd (.var .Kc)))),
  .set (.arr .rev 24) (.div (.mul (.mul (.rd (.arr .C 0)) (.rd (.arr .C 5))) (.rd (.var .kf))) (.rd (.var .Kc)))]

/-- utilities/mechanisms/drm19/lib/src/rxn_rates.c:308-319 -/
def rate25 : List CStmt := [
  .set (.var .kf) (.exp (.sub (.num 33940939394155066 15) (.mul (.num 2 0) (.rd (.var .logT))))),
  .set (.arr .fwd 25) (.mul (.mul (.mul (.rd (.arr .C 1)) (.rd (.arr .C 1))) (.rd (.arr .C 12))) (.rd (.var .kf))),
  .ite (.rd (.var .T)) (.num 1000 0) (.var .Kc) (.sub (.add (.add (.num 42320448239999999 16) (.mul (.neg (.num 16556688799999999 16)) (.rd (.var .logT)))) (.mul (.rd (.var .T)) (.add (.num 39902603742946671 19) (.mul (.rd (.var .T)) (.add (.neg (.num 32463584993346931 22)) (.mul (.rd (.var .T)) (.add (.num 16797674496165307 25) (.mul (.neg (.num 36880588040722682 29)) (.rd (.var .T)))))))))) (.div (.neg (.num 51865254972999996 12)) (.rd (.var .T)))) (.sub (.add (.add (.neg (.num 64893666199999966 17)) (.mul (.neg (.num 6627208200000001 16)) (.rd (.var .logT)))) (.mul (.rd (.var .T)) (.add (.neg (.num 24701213465702698 21)) (.mul (.rd (.var .T)) (.add (.num 83242790947935064 24) (.mul (.rd (.var .T)) (.add (.neg (.num 1496386537747461 26)) (.mul (.num 10012768301802643 31) (.rd (.var .T)))))))))) (.div (.neg (.num 51897478722 6)) (.rd (.var .T)))),
  .set (.var .Kc) (.mul (.num 82057360967184814 18) (.exp (.rd (.var .Kc)))),
  .set (.arr .rev 25) (.div (.mul (.mul (.rd (.arr .C 0)) (.rd (.arr .C 12))) (.rd (.var .kf))) (.rd (.var .Kc)))]

/-- utilities/mechanisms/drm19/lib/src/rxn_rates.c:320-331 -/
def rate26 : List CStmt := [
  .set (.var .kf) (.exp (.sub (.num 37629818848269004 15) (.mul (.num 2 0) (.rd (.var .logT))))),
  .set (.arr .fwd 26) (.mul (.mul (.rd (.arr .C 1)) (.rd (.arr .C 4))) (.rd (.var .kf))),
  .ite (.rd (.var .T)) (.num 1000 0) (.var .Kc) (.sub (.add (.add (.num 19949509730000003 16) (.mul (.neg (.num 12933748699999996 16)) (.rd (.var .logT)))) (.mul (.rd (.var .T)) (.add (.num 1824417096473335 19) (.mul (.rd (.var .T)) (.add (.num 31707728366598672 23) (.mul (.rd (.var .T)) (.add (.neg (.num 13390310769173469 26)) (.mul (.num 20393173546386613 30) (.rd (.var .T)))))))))) (.div (.neg (.num 5938246716 5)) (.rd (.var .T)))) (.sub (.add (.add (.num 34956521039999999 16) (.mul (.neg (.num 15588951899999999 16)) (.rd (.var .logT)))) (.mul (.rd (.var .T)) (.add (.num 81424417354214885 20) (.mul (.rd (.var .T)) (.add (.neg (.num 4842962702603246 23)) (.mul (.rd (.var .T)) (.add (.neg (.num 75798555540397048 29)) (.mul (.num 25394305509013217 32) (.rd (.var .T)))))))))) (.div (.neg (.num 59336613999999994 12)) (.rd (.var .T)))),
  .set (.var .Kc) (.mul (.num 82057360967184814 18) (.exp (.rd (.var .Kc)))),
  .set (.arr .rev 26) (.div (.mul (.rd (.arr .C 5)) (.rd (.var .kf))) (.rd (.var .Kc)))]

/-- utilities/mechanisms/drm19/lib/src/rxn_rates.c:332-343 -/
def rate27 : List CStmt := [
  .set (.var .kf) (.exp (.sub (.num 24055470347121616 15) (.div (.num 5374384952695857 13) (.rd (.var .T))))),
  .set (.arr .fwd 27) (.mul (.mul (.rd (.arr .C 1)) (.rd (.arr .C 6))) (.rd (.var .kf))),
  .ite (.rd (.var .T)) (.num 1000 0) (.var .Kc) (.sub (.add (.add (.num 17457169009999998 16) (.mul (.neg (.num 67501052999999978 17)) (.rd (.var .logT)))) (.mul (.rd (.var .T)) (.add (.num 48664535496473326 19) (.mul (.rd (.var .T)) (.add (.neg (.num 51315230146673457 22)) (.mul (.rd (.var .T)) (.add (.num 28960253089749321 25) (.mul (.neg (.num 67123202395361351 29)) (.rd (.var .T)))))))))) (.div (.neg (.num 27750346673 6)) (.rd (.var .T)))) (.sub (.add (.add (.neg (.num 11928173859999998 16)) (.mul (.num 10260612999999896 17) (.rd (.var .logT)))) (.mul (.rd (.var .T)) (.add (.neg (.num 40306752000785135 20)) (.mul (.rd (.var .T)) (.add (.num 62524707140634199 24) (.mul (.rd (.var .T)) (.add (.neg (.num 70285170220706416 28)) (.mul (.num 45723056009013213 32) (.rd (.var .T)))))))))) (.div (.neg (.num 27624133255000001 12)) (.rd (.var .T)))),
  .set (.var .Kc) (.mul (.num 1 0) (.exp (.rd (.var .Kc)))),
  .set (.arr .rev 27) (.div (.mul (.mul (.rd (.arr .C 0)) (.rd (.arr .C 3))) (.rd (.var .kf))) (.rd (.var .Kc)))]

/-- utilities/mechanisms/drm19/lib/src/rxn_rates.c:344-355 -/
def rate28 : List CStmt := [
  .set (.var .kf) (.exp (.sub (.num 25621105636897322 15) (.div (.num 31954442368556829 14) (.rd (.var .T))))),
  .set (.arr .fwd 28) (.mul (.mul (.rd (.arr .C 1)) (.rd (.arr .C 6))) (.rd (.var .kf))),
  .ite (.rd (.var .T)) (.num 1000 0) (.var .Kc) (.sub (.add (.add (.neg (.num 46600633630000008 16)) (.mul (.num 11822328500000001 16) (.rd (.var .logT)))) (.mul (.rd (.var .T)) (.add (.neg (.num 26757265352666572 21)) (.mul (.rd (.var .T)) (.add (.neg (.num 19870687130006796 22)) (.mul (.rd (.var .T)) (.add (.num 13761768948082653 25) (.mul (.neg (.num 32820109195361345 29)) (.rd (.var .T)))))))))) (.div (.neg (.num 18538306819999998 12)) (.rd (.var .T)))) (.sub (.add (.add (.num 59464085339999997 16) (.mul (.neg (.num 33143557000000001 17)) (.rd (.var .logT)))) (.mul (.rd (.var .T)) (.add (.neg (.num 57148033745785135 20)) (.mul (.rd (.var .T)) (.add (.num 14777809830730085 23) (.mul (.rd (.var .T)) (.add (.neg (.num 24178223038737304 27)) (.mul (.num 1713666410090132 30) (.rd (.var .T)))))))))) (.div (.neg (.num 17868202613000001 12)) (.rd (.var .T)))),
  .set (.var .Kc) (.mul (.num 1 0) (.exp (.rd (.var .Kc)))),
  .set (.arr .rev 28) (.div (.mul (.mul (.rd (.arr .C 4)) (.rd (.arr .C 4))) (.rd (.var .kf))) (.rd (.var .Kc)))]

/-- utilities/mechanisms/drm19/lib/src/rxn_rates.c:356-367 -/
def rate29 : List CStmt := [
  .set (.var .kf) (.exp (.sub (.num 3084989694079675 14) (.mul (.num 8 1) (.rd (.var .logT))))),
  .set (.arr .fwd 29) (.mul (.mul (.rd (.arr .C 1)) (.rd (.arr .C 7))) (.rd (.var .kf))),
  .ite (.rd (.var .T)) (.num 1000 0) (.var .Kc) (.sub (.add (.add (.num 3077803603 9) (.mul (.neg (.num 158908827 8)) (.rd (.var .logT)))) (.mul (.rd (.var .T)) (.add (.num 52103980314733352 20) (.mul (.rd (.var .T)) (.add (.num 48922002533265336 23) (.mul (.rd (.var .T)) (.add (.neg (.num 25168856019173461 26)) (.mul (.num 4282200754638662 29) (.rd (.var .T)))))))))) (.div (.neg (.num 55032701199999996 12)) (.rd (.var .T)))) (.sub (.add (.add (.num 58439448840000008 16) (.mul (.neg (.num 208838342 8)) (.rd (.var .logT)))) (.mul (.rd (.var .T)) (.add (.num 17917537365421488 19) (.mul (.rd (.var .T)) (.add (.neg (.num 26303292102603245 23)) (.mul (.rd (.var .T)) (.add (.num 27958758311262697 27) (.mul (.neg (.num 1397134159909868 30)) (.rd (.var .T)))))))))) (.div (.neg (.num 54961679600000003 12)) (.rd (.var .T)))),
  .set (.var .Kc) (.mul (.num 82057360967184814 18) (.exp (.rd (.var .Kc)))),
  .set (.arr .rev 29) (.div (.mul (.rd (.arr .C 9)) (.rd (.var .kf))) (.rd (.var .Kc)))]

/-- utilities/mechanisms/drm19/lib/src/rxn_rates.c:368-379 -/
def rate30 : List CStmt := [
  .set (.var .kf) (.exp (.sub (.sub (.num 30172623109393093 15) (.mul (.num 63 2) (.rd (.var .logT)))) (.div (.num 19273309334105929 14) (.rd (.var .T))))),
  .set (.arr .fwd 30) (.mul (.mul (.rd (.arr .C 1)) (.rd (.arr .C 9))) (.rd (.var .kf))),
  .ite (.rd (.var .T)) (.num 1000 0) (.var .Kc) (.sub (.add (.add (.neg (.num 47754709669999986 16)) (.mul (.neg (.num 23714270000000148 18)) (.rd (.var .logT)))) (.mul (.rd (.var .T)) (.add (.neg (.num 78409652753526661 19)) (.mul (.rd (.var .T)) (.add (.num 72416402236659874 22) (.mul (.rd (.var .T)) (.add (.neg (.num 3466927362691735 24)) (.mul (.num 70627691304638665 29) (.rd (.var .T)))))))))) (.div (.neg (.num 52165306299999997 12)) (.rd (.var .T)))) (.sub (.add (.add (.num 15114795359000002 15) (.mul (.neg (.num 37108662350000001 16)) (.rd (.var .logT)))) (.mul (.rd (.var .T)) (.add (.num 30755231765421482 19) (.mul (.rd (.var .T)) (.add (.neg (.num 45761910435936572 23)) (.mul (.rd (.var .T)) (.add (.num 52270059227929359 27) (.mul (.neg (.num 27549895549098682 31)) (.rd (.var .T)))))))))) (.div (.neg (.num 51717588789999994 12)) (.rd (.var .T)))),
  .set (.var .Kc) (.mul (.num 82057360967184814 18) (.exp (.rd (.var .Kc)))),
  .set (.arr .rev 30) (.div (.mul (.rd (.arr .C 10)) (.rd (.var .kf))) (.rd (.var .Kc)))]

/-- utilities/mechanisms/drm19/lib/src/rxn_rates.c:380-391 -/
def rate31 : List CStmt := [
  .set (.var .kf) (.exp (.sub (.add (.num 13399995114002609 15) (.mul (.num 162 2) (.rd (.var .logT)))) (.div (.num 5454900083073323 12) (.rd (.var .T))))),
  .set (.arr .fwd 31) (.mul (.mul (.rd (.arr .C 1)) (.rd (.arr .C 10))) (.rd (.var .kf))),
  .ite (.rd (.var .T)) (.num 1000 0) (.var .Kc) (.sub (.add (.add (.num 90075157909999994 16) (.mul (.neg (.num 16319546100000002 16)) (.rd (.var .logT)))) (.mul (.rd (.var .T)) (.add (.num 11831225649647333 18) (.mul (.rd (.var .T)) (.add (.neg (.num 10487998723000681 21)) (.mul (.rd (.var .T)) (.add (.num 51466948123082656 25) (.mul (.neg (.num 10750827934536134 28)) (.rd (.var .T)))))))))) (.div (.num 30005132700000286 14) (.rd (.var .T)))) (.sub (.add (.add (.neg (.num 15763732020999999 15)) (.mul (.num 3048145415 9) (.rd (.var .logT)))) (.mul (.rd (.var .T)) (.add (.neg (.num 3100224390007851 18)) (.mul (.rd (.var .T)) (.add (.num 54086189530730073 23) (.mul (.rd (.var .T)) (.add (.neg (.num 67233924605403965 27)) (.mul (.num 37562663850901325 31) (.rd (.var .T)))))))))) (.div (.neg (.num 17988993200000004 14)) (.rd (.var .T)))),
  .set (.var .Kc) (.mul (.num 1 0) (.exp (.rd (.var .Kc)))),
  .set (.arr .rev 31) (.div (.mul (.mul (.rd (.arr .C 0)) (.rd (.arr .C 9))) (.rd (.var .kf))) (.rd (.var .Kc)))]

/-- utilities/mechanisms/drm19/lib/src/rxn_rates.c:392-403 -/
def rate32 : List CStmt := [
  .set (.var .kf) (.exp (.sub (.add (.num 20809443533187462 15) (.mul (.num 48 2) (.rd (.var .logT)))) (.div (.neg (.num 1308370868633823 13)) (.rd (.var .T))))),
  .set (.arr .fwd 32) (.mul (.mul (.rd (.arr .C 1)) (.rd (.arr .C 13))) (.rd (.var .kf))),
  .ite (.rd (.var .T)) (.num 1000 0) (.var .Kc) (.sub (.add (.add (.neg (.num 41741398699999976 17)) (.mul (.neg (.num 92746269000000048 17)) (.rd (.var .logT)))) (.mul (.rd (.var .T)) (.add (.neg (.num 33322041853526664 19)) (.mul (.rd (.var .T)) (.add (.num 39236760336659864 22) (.mul (.rd (.var .T)) (.add (.neg (.num 20511764001917343 25)) (.mul (.num 44197882754638669 29) (.rd (.var .T)))))))))) (.div (.neg (.num 43622181560000005 12)) (.rd (.var .T)))) (.sub (.add (.add (.num 78161453040000017 16) (.mul (.neg (.num 25114843100000002 16)) (.rd (.var .logT)))) (.mul (.rd (.var .T)) (.add (.num 21215227915421485 19) (.mul (.rd (.var .T)) (.add (.neg (.num 32302200269269904 23)) (.mul (.rd (.var .T)) (.add (.num 34770862227929353 27) (.mul (.neg (.num 17517346699098684 31)) (.rd (.var .T)))))))))) (.div (.neg (.num 43481410349999998 12)) (.rd (.var .T)))),
  .set (.var .Kc) (.mul (.num 82057360967184814 18) (.exp (.rd (.var .Kc)))),
  .set (.arr .rev 32) (.div (.mul (.rd (.arr .C 14)) (.rd (.var .kf))) (.rd (.var .Kc)))]

/-- utilities/mechanisms/drm19/lib/src/rxn_rates.c:404-415 -/
def rate33 : List CStmt := [
  .set (.var .kf) (.num 73400000000 0),
  .set (.arr .fwd 33) (.mul (.mul (.rd (.arr .C 1)) (.rd (.arr .C 13))) (.rd (.var .kf))),
  .ite (.rd (.var .T)) (.num 1000 0) (.var .Kc) (.sub (.add (.add (.num 20410511910000002 16) (.mul (.neg (.num 79732125000000043 17)) (.rd (.var .logT)))) (.mul (.rd (.var .T)) (.add (.num 53070461946473331 19) (.mul (.rd (.var .T)) (.add (.neg (.num 53735468780006796 22)) (.mul (.rd (.var .T)) (.add (.num 28648853818082653 25) (.mul (.neg (.num 63091153790361341 29)) (.rd (.var .T)))))))))) (.div (.neg (.num 44575246033000003 12)) (.rd (.var .T)))) (.sub (.add (.add (.neg (.num 55182880159999996 16)) (.mul (.num 78029042000000004 17) (.rd (.var .logT)))) (.mul (.rd (.var .T)) (.add (.neg (.num 14719151400078511 19)) (.mul (.rd (.var .T)) (.add (.num 33084785347396752 23) (.mul (.rd (.var .T)) (.add (.neg (.num 44889596605403977 27)) (.mul (.num 26505818300901323 31) (.rd (.var .T)))))))))) (.div (.neg (.num 44587609371999999 12)) (.rd (.var .T)))),
  .set (.var .Kc) (.mul (.num 1 0) (.exp (.rd (.var .Kc)))),
  .set (.arr .rev 33) (.div (.mul (.mul (.rd (.arr .C 0)) (.rd (.arr .C 11))) (.rd (.var .kf))) (.rd (.var .Kc)))]

/-- utilities/mechanisms/drm19/lib/src/rxn_rates.c:416-427 -/
def rate34 : List CStmt := [
  .set (.var .kf) (.exp (.sub (.add (.num 20107079697522593 15) (.mul (.num 454 3) (.rd (.var .logT)))) (.div (.num 1308370868633823 12) (.rd (.var .T))))),
  .set (.arr .fwd 34) (.mul (.mul (.rd (.arr .C 14)) (.rd (.arr .C 1))) (.rd (.var .kf))),
  .ite (.rd (.var .T)) (.num 1000 0) (.var .Kc) (.sub (.add (.add (.num 18183566103 9) (.mul (.neg (.num 418751915 8)) (.rd (.var .logT)))) (.mul (.rd (.var .T)) (.add (.num 85624643446473338 19) (.mul (.rd (.var .T)) (.add (.neg (.num 53305881330006796 22)) (.mul (.rd (.var .T)) (.add (.num 25459075081415984 25) (.mul (.neg (.num 55508275995361342 29)) (.rd (.var .T)))))))))) (.div (.neg (.num 10186102099999998 12)) (.rd (.var .T)))) (.sub (.add (.add (.neg (.num 9790173996 9)) (.mul (.num 51010890999999958 17) (.rd (.var .logT)))) (.mul (.rd (.var .T)) (.add (.neg (.num 66425189845785145 20)) (.mul (.rd (.var .T)) (.add (.num 29436735230730079 23) (.mul (.rd (.var .T)) (.add (.neg (.num 50997417938737298 27)) (.mul (.num 33629701750901327 31) (.rd (.var .T)))))))))) (.div (.neg (.num 11349995079999999 12)) (.rd (.var .T)))),
  .set (.var .Kc) (.mul (.num 82057360967184814 18) (.exp (.rd (.var .Kc)))),
  .set (.arr .rev 34) (.div (.mul (.rd (.arr .C 15)) (.rd (.var .kf))) (.rd (.var .Kc)))]

/-- utilities/mechanisms/drm19/lib/src/rxn_rates.c:428-439 -/
def rate35 : List CStmt := [
  .set (.var .kf) (.exp (.sub (.add (.num 16951004773893423 15) (.mul (.num 105 2) (.rd (.var .logT)))) (.div (.num 16480440749137576 13) (.rd (.var .T))))),
  .set (.arr .fwd 35) (.mul (.mul (.rd (.arr .C 14)) (.rd (.arr .C 1))) (.rd (.var .kf))),
  .ite (.rd (.var .T)) (.num 1000 0) (.var .Kc) (.sub (.add (.add (.num 46494588109999997 16) (.mul (.neg (.num 72820618999999986 17)) (.rd (.var .logT)))) (.mul (.rd (.var .T)) (.add (.num 73224645596473327 19) (.mul (.rd (.var .T)) (.add (.neg (.num 71700345330006791 22)) (.mul (.rd (.var .T)) (.add (.num 37309438498082653 25) (.mul (.neg (.num 8107847079536134 28)) (.rd (.var .T)))))))))) (.div (.neg (.num 82430734129999983 13)) (.rd (.var .T)))) (.sub (.add (.add (.neg (.num 84650819659999996 16)) (.mul (.num 18487634900000005 16) (.rd (.var .logT)))) (.mul (.rd (.var .T)) (.add (.neg (.num 21462240050078513 19)) (.mul (.rd (.var .T)) (.add (.num 40626479364063411 23) (.mul (.rd (.var .T)) (.add (.neg (.num 49734727605403966 27)) (.mul (.num 27530115000901327 31) (.rd (.var .T)))))))))) (.div (.neg (.num 84160683719999979 13)) (.rd (.var .T)))),
  .set (.var .Kc) (.mul (.num 1 0) (.exp (.rd (.var .Kc)))),
  .set (.arr .rev 35) (.div (.mul (.mul (.rd (.arr .C 0)) (.rd (.arr .C 13))) (.rd (.var .kf))) (.rd (.var .Kc)))]

/-- utilities/mechanisms/drm19/lib/src/rxn_rates.c:440-451 -/
def rate36 : List CStmt := [
  .set (.var .kf) (.num 32000000000 0),
  .set (.arr .fwd 36) (.mul (.mul (.rd (.arr .C 1)) (.rd (.arr .C 15))) (.rd (.var .kf))),
  .ite (.rd (.var .T)) (.num 1000 0) (.var .Kc) (.sub (.add (.add (.neg (.num 14264257105 9)) (.mul (.num 30594018300000005 16) (.rd (.var .logT)))) (.mul (.rd (.var .T)) (.add (.neg (.num 38034803853526666 19)) (.mul (.rd (.var .T)) (.add (.num 8349474953326533 22) (.mul (.rd (.var .T)) (.add (.neg (.num 28122263185840126 26)) (.mul (.num 91618102046386605 30) (.rd (.var .T)))))))))) (.div (.neg (.num 63921816399999989 13)) (.rd (.var .T)))) (.sub (.add (.add (.num 11366069423999999 15) (.mul (.neg (.num 89219361999999958 17)) (.rd (.var .logT)))) (.mul (.rd (.var .T)) (.add (.neg (.num 41583445457851146 21)) (.mul (.rd (.var .T)) (.add (.neg (.num 34042378026032449 24)) (.mul (.rd (.var .T)) (.add (.num 94412827612626981 28) (.mul (.neg (.num 69240211490986809 32)) (.rd (.var .T)))))))))) (.div (.neg (.num 49672511200000008 13)) (.rd (.var .T)))),
  .set (.var .Kc) (.mul (.num 1 0) (.exp (.rd (.var .Kc)))),
  .set (.arr .rev 36) (.div (.mul (.mul (.rd (.arr .C 9)) (.rd (.arr .C 4))) (.rd (.var .kf))) (.rd (.var .Kc)))]

/-- utilities/mechanisms/drm19/lib/src/rxn_rates.c:452-463 -/
def rate37 : List CStmt := [
  .set (.var .kf) (.exp (.sub (.add (.num 2080022687808254 14) (.mul (.num 454 3) (.rd (.var .logT)))) (.div (.num 91585960804367608 14) (.rd (.var .T))))),
  .set (.arr .fwd 37) (.mul (.mul (.rd (.arr .C 1)) (.rd (.arr .C 16))) (.rd (.var .kf))),
  .ite (.rd (.var .T)) (.num 1000 0) (.var .Kc) (.sub (.add (.add (.num 32092969330000005 16) (.mul (.neg (.num 11527358000000003 16)) (.rd (.var .logT)))) (.mul (.rd (.var .T)) (.add (.num 16919667746473337 19) (.mul (.rd (.var .T)) (.add (.neg (.num 12307914163340125 22)) (.mul (.rd (.var .T)) (.add (.num 77051789147493195 26) (.mul (.neg (.num 19687684495361349 29)) (.rd (.var .T)))))))))) (.div (.neg (.num 17721809329999996 12)) (.rd (.var .T)))) (.sub (.add (.add (.num 61852026639999984 16) (.mul (.neg (.num 15814547499999998 16)) (.rd (.var .logT)))) (.mul (.rd (.var .T)) (.add (.num 13759285615421498 19) (.mul (.rd (.var .T)) (.add (.neg (.num 21188125769269901 23)) (.mul (.rd (.var .T)) (.add (.num 23328972061262663 27) (.mul (.neg (.num 11967757749098668 31)) (.rd (.var .T)))))))))) (.div (.neg (.num 17556026039999997 12)) (.rd (.var .T)))),
  .set (.var .Kc) (.mul (.num 82057360967184814 18) (.exp (.rd (.var .Kc)))),
  .set (.arr .rev 37) (.div (.mul (.rd (.arr .C 17)) (.rd (.var .kf))) (.rd (.var .Kc)))]

/-- utilities/mechanisms/drm19/lib/src/rxn_rates.c:464-475 -/
def rate38 : List CStmt := [
  .set (.var .kf) (.exp (.sub (.sub (.num 33886771157681913 15) (.mul (.num 99 2) (.rd (.var .logT)))) (.div (.num 79508691247747697 14) (.rd (.var .T))))),
  .set (.arr .fwd 38) (.mul (.mul (.rd (.arr .C 1)) (.rd (.arr .C 17))) (.rd (.var .kf))),
  .ite (.rd (.var .T)) (.num 1000 0) (.var .Kc) (.sub (.add (.add (.num 92133753299999954 17) (.mul (.neg (.num 15150407599999998 16)) (.rd (.var .logT)))) (.mul (.rd (.var .T)) (.add (.neg (.num 65747689035266588 20)) (.mul (.rd (.var .T)) (.add (.num 17049246836659875 22) (.mul (.rd (.var .T)) (.add (.neg (.num 91116399185840205 26)) (.mul (.num 1908838350463865 28) (.rd (.var .T)))))))))) (.div (.neg (.num 49837491899999994 12)) (.rd (.var .T)))) (.sub (.add (.add (.num 54826342439999998 16) (.mul (.neg (.num 23827749300000001 16)) (.rd (.var .logT)))) (.mul (.rd (.var .T)) (.add (.num 21439977615421487 19) (.mul (.rd (.var .T)) (.add (.neg (.num 34059000602603242 23)) (.mul (.rd (.var .T)) (.add (.num 38495260394596016 27) (.mul (.neg (.num 20180657249098672 31)) (.rd (.var .T)))))))))) (.div (.neg (.num 49757573099999994 12)) (.rd (.var .T)))),
  .set (.var .Kc) (.mul (.num 82057360967184814 18) (.exp (.rd (.var .Kc)))),
  .set (.arr .rev 38) (.div (.mul (.rd (.arr .C 18)) (.rd (.var .kf))) (.rd (.var .Kc)))]

/-- utilities/mechanisms/drm19/lib/src/rxn_rates.c:476-487 -/
def rate39 : List CStmt := [
  .set (.var .kf) (.exp (.sub (.add (.num 11652687407345388 15) (.mul (.num 19 1) (.rd (.var .logT)))) (.div (.num 37892433233894944 13) (.rd (.var .T))))),
  .set (.arr .fwd 39) (.mul (.mul (.rd (.arr .C 18)) (.rd (.arr .C 1))) (.rd (.var .kf))),
  .ite (.rd (.var .T)) (.num 1000 0) (.var .Kc) (.sub (.add (.add (.num 33107072910000004 16) (.mul (.neg (.num 14062811999999969 17)) (.rd (.var .logT)))) (.mul (.rd (.var .T)) (.add (.num 46477372646473326 19) (.mul (.rd (.var .T)) (.add (.neg (.num 49512831830006802 22)) (.mul (.rd (.var .T)) (.add (.num 2590931441474933 24) (.mul (.neg (.num 55968971545361332 29)) (.rd (.var .T)))))))))) (.div (.neg (.num 20277630729999983 13)) (.rd (.var .T)))) (.sub (.add (.add (.neg (.num 61315709060000012 16)) (.mul (.num 172005411 8) (.rd (.var .logT)))) (.mul (.rd (.var .T)) (.add (.neg (.num 21686989750078511 19)) (.mul (.rd (.var .T)) (.add (.num 42383279697396738 23) (.mul (.rd (.var .T)) (.add (.neg (.num 53459125772070642 27)) (.mul (.num 30193425550901323 31) (.rd (.var .T)))))))))) (.div (.neg (.num 21399056219999984 13)) (.rd (.var .T)))),
  .set (.var .Kc) (.mul (.num 1 0) (.exp (.rd (.var .Kc)))),
  .set (.arr .rev 39) (.div (.mul (.mul (.rd (.arr .C 0)) (.rd (.arr .C 17))) (.rd (.var .kf))) (.rd (.var .Kc)))]

/-- utilities/mechanisms/drm19/lib/src/rxn_rates.c:488-499 -/
def rate40 : List CStmt := [
  .set (.var .kf) (.exp (.sub (.add (.num 10668955394675699 15) (.mul (.num 15 1) (.rd (.var .logT)))) (.div (.num 40056277362789348 12) (.rd (.var .T))))),
  .set (.arr .fwd 40) (.mul (.mul (.rd (.arr .C 0)) (.rd (.arr .C 11))) (.rd (.var .kf))),
  .ite (.rd (.var .T)) (.num 1000 0) (.var .Kc) (.sub (.add (.add (.neg (.num 2458465178 9)) (.mul (.neg (.num 13014144000000005 17)) (.rd (.var .logT)))) (.mul (.rd (.var .T)) (.add (.neg (.num 86392503799999978 19)) (.mul (.rd (.var .T)) (.add (.num 92972229116666652 22) (.mul (.rd (.var .T)) (.add (.neg (.num 49160617820000005 25)) (.mul (.num 107289036545 23) (.rd (.var .T)))))))))) (.div (.num 95306447299999854 14) (.rd (.var .T)))) (.sub (.add (.add (.num 13334433319999999 15) (.mul (.neg (.num 32917747299999993 16)) (.rd (.var .logT)))) (.mul (.rd (.var .T)) (.add (.num 359343793155 14) (.mul (.rd (.var .T)) (.add (.neg (.num 65386985616666657 23)) (.mul (.rd (.var .T)) (.add (.num 79660458833333329 27) (.mul (.neg (.num 44023165000000007 31)) (.rd (.var .T)))))))))) (.div (.num 11061990220000007 13) (.rd (.var .T)))),
  .set (.var .Kc) (.mul (.num 82057360967184814 18) (.exp (.rd (.var .Kc)))),
  .set (.arr .rev 40) (.div (.mul (.rd (.arr .C 14)) (.rd (.var .kf))) (.rd (.var .Kc)))]

/-- utilities/mechanisms/drm19/lib/src/rxn_rates.c:500-511 -/
def rate41 : List CStmt := [
  .set (.var .kf) (.exp (.sub (.add (.num 12283033686666302 15) (.mul (.num 151 2) (.rd (.var .logT)))) (.div (.num 17260431074669279 13) (.rd (.var .T))))),
  .set (.arr .fwd 41) (.mul (.mul (.rd (.arr .C 0)) (.rd (.arr .C 4))) (.rd (.var .kf))),
  .ite (.rd (.var .T)) (.num 1000 0) (.var .Kc) (.sub (.add (.add (.neg (.num 2237093851 9)) (.mul (.num 36229401000000028 17) (.rd (.var .logT)))) (.mul (.rd (.var .T)) (.add (.neg (.num 38078186646473338 19)) (.mul (.rd (.var .T)) (.add (.num 35634357830006797 22) (.mul (.rd (.var .T)) (.add (.neg (.num 18136705573082654 25)) (.mul (.num 38919905395361339 29) (.rd (.var .T)))))))))) (.div (.neg (.num 7517212187000001 12)) (.rd (.var .T)))) (.sub (.add (.add (.num 4144588766 9) (.mul (.neg (.num 89617436999999978 17)) (.rd (.var .logT)))) (.mul (.rd (.var .T)) (.add (.num 83894538700785145 20) (.mul (.rd (.var .T)) (.add (.neg (.num 13167241797396752 23)) (.mul (.rd (.var .T)) (.add (.num 14205879822070639 27) (.mul (.neg (.num 74733377509013216 32)) (.rd (.var .T)))))))))) (.div (.neg (.num 74391352780000016 13)) (.rd (.var .T)))),
  .set (.var .Kc) (.mul (.num 1 0) (.exp (.rd (.var .Kc)))),
  .set (.arr .rev 41) (.div (.mul (.mul (.rd (.arr .C 1)) (.rd (.arr .C 5))) (.rd (.var .kf))) (.rd (.var .Kc)))]

/-- utilities/mechanisms/drm19/lib/src/rxn_rates.c:512-523 -/
def rate42 : List CStmt := [
  .set (.var .kf) (.exp (.sub (.add (.num 35751506887855933 16) (.mul (.num 24 1) (.rd (.var .logT)))) (.div (.neg (.num 10617932818528332 13)) (.rd (.var .T))))),
  .set (.arr .fwd 42) (.mul (.mul (.rd (.arr .C 4)) (.rd (.arr .C 4))) (.rd (.var .kf))),
  .ite (.rd (.var .T)) (.num 1000 0) (.var .Kc) (.sub (.add (.add (.num 20278753680000001 16) (.mul (.neg (.num 61712319999999909 17)) (.rd (.var .logT)))) (.mul (.rd (.var .T)) (.add (.neg (.num 25655894999999972 20)) (.mul (.rd (.var .T)) (.add (.num 65459820833333341 23) (.mul (.rd (.var .T)) (.add (.neg (.num 32114751666666654 26)) (.mul (.num 57820423999999999 30) (.rd (.var .T)))))))))) (.div (.neg (.num 84016286199999995 13)) (.rd (.var .T)))) (.sub (.add (.add (.num 13800786099999991 16) (.mul (.neg (.num 58236206999999984 17)) (.rd (.var .logT)))) (.mul (.rd (.var .T)) (.add (.num 49704224715000018 20) (.mul (.rd (.var .T)) (.add (.neg (.num 62522419183333327 24)) (.mul (.rd (.var .T)) (.add (.num 57360453583333335 28) (.mul (.neg (.num 27170195449999994 32)) (.rd (.var .T)))))))))) (.div (.neg (.num 85040320000000011 13)) (.rd (.var .T)))),
  .set (.var .Kc) (.mul (.num 1 0) (.exp (.rd (.var .Kc)))),
  .set (.arr .rev 42) (.div (.mul (.mul (.rd (.arr .C 5)) (.rd (.arr .C 2))) (.rd (.var .kf))) (.rd (.var .Kc)))]

/-- utilities/mechanisms/drm19/lib/src/rxn_rates.c:524-535 -/
def rate43 : List CStmt := [
  .set (.var .kf) (.exp (.sub (.num 24090561666932885 15) (.div (.neg (.num 25160978242958132 14)) (.rd (.var .T))))),
  .set (.arr .fwd 43) (.mul (.mul (.rd (.arr .C 6)) (.rd (.arr .C 4))) (.rd (.var .kf))),
  .ite (.rd (.var .T)) (.num 1000 0) (.var .Kc) (.sub (.add (.add (.neg (.num 49137695000000026 17)) (.mul (.neg (.num 31271651999999905 17)) (.rd (.var .logT)))) (.mul (.rd (.var .T)) (.add (.num 10586348849999999 19) (.mul (.rd (.var .T)) (.add (.neg (.num 15680872316666664 22)) (.mul (.rd (.var .T)) (.add (.num 10823547516666667 25) (.mul (.neg (.num 28203297000000007 29)) (.rd (.var .T)))))))))) (.div (.neg (.num 35267558859999997 12)) (.rd (.var .T)))) (.sub (.add (.add (.num 29517713799999998 16) (.mul (.neg (.num 79356824000000037 17)) (.rd (.var .logT)))) (.mul (.rd (.var .T)) (.add (.num 43587786700000021 20) (.mul (.rd (.var .T)) (.add (.neg (.num 69147710833333339 24)) (.mul (.rd (.var .T)) (.add (.num 71773627999999976 28) (.mul (.neg (.num 29010321499999993 32)) (.rd (.var .T)))))))))) (.div (.neg (.num 35063268533000002 12)) (.rd (.var .T)))),
  .set (.var .Kc) (.mul (.num 1 0) (.exp (.rd (.var .Kc)))),
  .set (.arr .rev 43) (.div (.mul (.mul (.rd (.arr .C 5)) (.rd (.arr .C 3))) (.rd (.var .kf))) (.rd (.var .Kc)))]

/-- utilities/mechanisms/drm19/lib/src/rxn_rates.c:536-547 -/
def rate44 : List CStmt := [
  .set (.var .kf) (.num 20000000000 0),
  .set (.arr .fwd 44) (.mul (.mul (.rd (.arr .C 7)) (.rd (.arr .C 4))) (.rd (.var .kf))),
  .ite (.rd (.var .T)) (.num 1000 0) (.var .Kc) (.sub (.add (.add (.neg (.num 84150539499999955 17)) (.mul (.neg (.num 4609709500000001 16)) (.rd (.var .logT)))) (.mul (.rd (.var .T)) (.add (.neg (.num 42379441561473333 19)) (.mul (.rd (.var .T)) (.add (.num 49848606630006789 22) (.mul (.rd (.var .T)) (.add (.neg (.num 25163734364749319 25)) (.mul (.num 50628666545361342 29) (.rd (.var .T)))))))))) (.div (.neg (.num 38454417460000004 12)) (.rd (.var .T)))) (.sub (.add (.add (.num 4268049456 9) (.mul (.neg (.num 17062987100000004 16)) (.rd (.var .logT)))) (.mul (.rd (.var .T)) (.add (.num 24975890804578519 19) (.mul (.rd (.var .T)) (.add (.neg (.num 52335789530730089 23)) (.mul (.rd (.var .T)) (.add (.num 69514893488737301 27) (.mul (.neg (.num 40677022200901327 31)) (.rd (.var .T)))))))))) (.div (.neg (.num 38644433400000002 12)) (.rd (.var .T)))),
  .set (.var .Kc) (.mul (.num 1 0) (.exp (.rd (.var .Kc)))),
  .set (.arr .rev 44) (.div (.mul (.mul (.rd (.arr .C 14)) (.rd (.arr .C 1))) (.rd (.var .kf))) (.rd (.var .Kc)))]

/-- utilities/mechanisms/drm19/lib/src/rxn_rates.c:548-559 -/
def rate45 : List CStmt := [
  .set (.var .kf) (.num 30000000000 0),
  .set (.arr .fwd 45) (.mul (.mul (.rd (.arr .C 8)) (.rd (.arr .C 4))) (.rd (.var .kf))),
  .ite (.rd (.var .T)) (.num 1000 0) (.var .Kc) (.sub (.add (.add (.num 19260708619999996 16) (.mul (.neg (.num 89689638999999977 17)) (.rd (.var .logT)))) (.mul (.rd (.var .T)) (.add (.neg (.num 25702009896473336 19)) (.mul (.rd (.var .T)) (.add (.num 40785166980006795 22) (.mul (.rd (.var .T)) (.add (.neg (.num 22799360798082651 25)) (.mul (.num 49350015645361341 29) (.rd (.var .T)))))))))) (.div (.neg (.num 42947193660000004 12)) (.rd (.var .T)))) (.sub (.add (.add (.num 12306782960000002 16) (.mul (.neg (.num 11242360000000002 16)) (.rd (.var .logT)))) (.mul (.rd (.var .T)) (.add (.num 19978423554578516 19) (.mul (.rd (.var .T)) (.add (.neg (.num 42286231197396754 23)) (.mul (.rd (.var .T)) (.add (.num 56371022572070625 27) (.mul (.neg (.num 33077582300901331 31)) (.rd (.var .T)))))))))) (.div (.neg (.num 43306829100000003 12)) (.rd (.var .T)))),
  .set (.var .Kc) (.mul (.num 1 0) (.exp (.rd (.var .Kc)))),
  .set (.arr .rev 45) (.div (.mul (.mul (.rd (.arr .C 14)) (.rd (.arr .C 1))) (.rd (.var .kf))) (.rd (.var .Kc)))]

/-- utilities/mechanisms/drm19/lib/src/rxn_rates.c:560-571 -/
def rate46 : List CStmt := [
  .set (.var .kf) (.exp (.sub (.add (.num 10933106969717286 15) (.mul (.num 16 1) (.rd (.var .logT)))) (.div (.num 27274500415366615 13) (.rd (.var .T))))),
  .set (.arr .fwd 46) (.mul (.mul (.rd (.arr .C 9)) (.rd (.arr .C 4))) (.rd (.var .kf))),
  .ite (.rd (.var .T)) (.num 1000 0) (.var .Kc) (.sub (.add (.add (.neg (.num 10828526300000005 16)) (.mul (.num 29571340000000079 17) (.rd (.var .logT)))) (.mul (.rd (.var .T)) (.add (.neg (.num 33859809349999991 20)) (.mul (.rd (.var .T)) (.add (.neg (.num 17214274166666665 23)) (.mul (.rd (.var .T)) (.add (.num 11778545249999987 26) (.mul (.neg (.num 22428833999999994 30)) (.rd (.var .T)))))))))) (.div (.neg (.num 43497659600000025 13)) (.rd (.var .T)))) (.sub (.add (.add (.neg (.num 234829278 8)) (.mul (.num 52948823000000012 17) (.rd (.var .logT)))) (.mul (.rd (.var .T)) (.add (.neg (.num 97750956300000002 20)) (.mul (.rd (.var .T)) (.add (.num 21460329399999999 23) (.mul (.rd (.var .T)) (.add (.neg (.num 28716743866666666 27)) (.mul (.num 16510772149999999 31) (.rd (.var .T)))))))))) (.div (.neg (.num 43749343999999992 13)) (.rd (.var .T)))),
  .set (.var .Kc) (.mul (.num 1 0) (.exp (.rd (.var .Kc)))),
  .set (.arr .rev 46) (.div (.mul (.mul (.rd (.arr .C 7)) (.rd (.arr .C 5))) (.rd (.var .kf))) (.rd (.var .Kc)))]

/-- utilities/mechanisms/drm19/lib/src/rxn_rates.c:572-583 -/
def rate47 : List CStmt := [
  .set (.var .kf) (.num 25010000000 0),
  .set (.arr .fwd 47) (.mul (.mul (.rd (.arr .C 9)) (.rd (.arr .C 4))) (.rd (.var .kf))),
  .ite (.rd (.var .T)) (.num 1000 0) (.var .Kc) (.sub (.add (.add (.neg (.num 38504288870000005 16)) (.mul (.num 73163884000000001 17) (.rd (.var .logT)))) (.mul (.rd (.var .T)) (.add (.neg (.num 20063412599999999 19)) (.mul (.rd (.var .T)) (.add (.num 73420122333333318 23) (.mul (.rd (.var .T)) (.add (.neg (.num 11865190416666688 26)) (.mul (.neg (.num 96423249999999889 31)) (.rd (.var .T)))))))))) (.div (.num 14301023999999825 14) (.rd (.var .T)))) (.sub (.add (.add (.num 68907837999999932 17) (.mul (.neg (.num 5257448000000009 17)) (.rd (.var .logT)))) (.mul (.rd (.var .T)) (.add (.neg (.num 47776283799999964 20)) (.mul (.rd (.var .T)) (.add (.num 11410771066666668 23) (.mul (.rd (.var .T)) (.add (.neg (.num 15572872949999997 27)) (.mul (.num 89113322500000016 32) (.rd (.var .T)))))))))) (.div (.num 28746130000000176 14) (.rd (.var .T)))),
  .set (.var .Kc) (.mul (.num 1 0) (.exp (.rd (.var .Kc)))),
  .set (.arr .rev 47) (.div (.mul (.mul (.rd (.arr .C 8)) (.rd (.arr .C 5))) (.rd (.var .kf))) (.rd (.var .Kc)))]

/-- utilities/mechanisms/drm19/lib/src/rxn_rates.c:584-595 -/
def rate48 : List CStmt := [
  .set (.var .kf) (.exp (.sub (.add (.num 11512925464970229 15) (.mul (.num 16 1) (.rd (.var .logT)))) (.div (.num 15700450423605873 13) (.rd (.var .T))))),
  .set (.arr .fwd 48) (.mul (.mul (.rd (.arr .C 10)) (.rd (.arr .C 4))) (.rd (.var .kf))),
  .ite (.rd (.var .T)) (.num 1000 0) (.var .Kc) (.sub (.add (.add (.num 67704219399999994 16) (.mul (.neg (.num 12696605999999995 16)) (.rd (.var .logT)))) (.mul (.rd (.var .T)) (.add (.num 80234069850000003 19) (.mul (.rd (.var .T)) (.add (.neg (.num 69245629400000004 22)) (.mul (.rd (.var .T)) (.add (.num 33330242550000006 25) (.mul (.neg (.num 68588373949999998 29)) (.rd (.var .T)))))))))) (.div (.neg (.num 72171608599999981 13)) (.rd (.var .T)))) (.sub (.add (.add (.neg (.num 11619143255000001 15)) (.mul (.num 21519710450000002 16) (.rd (.var .logT)))) (.mul (.rd (.var .T)) (.add (.neg (.num 22612790030000001 19)) (.mul (.rd (.var .T)) (.add (.num 40918947733333328 23) (.mul (.rd (.var .T)) (.add (.neg (.num 53028044783333337 27)) (.mul (.num 30089326100000001 31) (.rd (.var .T)))))))))) (.div (.neg (.num 76190252100000007 13)) (.rd (.var .T)))),
  .set (.var .Kc) (.mul (.num 1 0) (.exp (.rd (.var .Kc)))),
  .set (.arr .rev 48) (.div (.mul (.mul (.rd (.arr .C 5)) (.rd (.arr .C 9))) (.rd (.var .kf))) (.rd (.var .Kc)))]

/-- utilities/mechanisms/drm19/lib/src/rxn_rates.c:596-607 -/
def rate49 : List CStmt := [
  .set (.var .kf) (.exp (.sub (.add (.num 10770588040219511 15) (.mul (.num 1228 3) (.rd (.var .logT)))) (.div (.num 35225369540141386 15) (.rd (.var .T))))),
  .set (.arr .fwd 49) (.mul (.mul (.rd (.arr .C 11)) (.rd (.arr .C 4))) (.rd (.var .kf))),
  .ite (.rd (.var .T)) (.num 1000 0) (.var .Kc) (.sub (.add (.add (.num 87646609250000012 16) (.mul (.neg (.num 27147753799999998 16)) (.rd (.var .logT)))) (.mul (.rd (.var .T)) (.add (.num 59981339853526668 19) (.mul (.rd (.var .T)) (.add (.neg (.num 21263859053326532 22)) (.mul (.rd (.var .T)) (.add (.num 45277647235840138 26) (.mul (.neg (.num 30169487496386619 30)) (.rd (.var .T)))))))))) (.div (.neg (.num 12169304360000004 12)) (.rd (.var .T)))) (.sub (.add (.add (.neg (.num 11019815694 9)) (.mul (.num 54938701999999973 17) (.rd (.var .logT)))) (.mul (.rd (.var .T)) (.add (.num 90170654545785104 20) (.mul (.rd (.var .T)) (.add (.neg (.num 22374891347396751 23)) (.mul (.rd (.var .T)) (.add (.num 31781944238737311 27) (.mul (.neg (.num 19292440950901319 31)) (.rd (.var .T)))))))))) (.div (.neg (.num 12992290699999998 12)) (.rd (.var .T)))),
  .set (.var .Kc) (.mul (.num 1 0) (.exp (.rd (.var .Kc)))),
  .set (.arr .rev 49) (.div (.mul (.mul (.rd (.arr .C 1)) (.rd (.arr .C 12))) (.rd (.var .kf))) (.rd (.var .Kc)))]

/-- utilities/mechanisms/drm19/lib/src/rxn_rates.c:608-619 -/
def rate50 : List CStmt := [
  .set (.var .kf) (.num 50000000000 0),
  .set (.arr .fwd 50) (.mul (.mul (.rd (.arr .C 13)) (.rd (.arr .C 4))) (.rd (.var .kf))),
  .ite (.rd (.var .T)) (.num 1000 0) (.var .Kc) (.sub (.add (.add (.neg (.num 19604265999999893 17)) (.mul (.neg (.num 4350272399999997 16)) (.rd (.var .logT)))) (.mul (.rd (.var .T)) (.add (.num 14992275299999999 19) (.mul (.rd (.var .T)) (.add (.neg (.num 18101110949999999 22)) (.mul (.rd (.var .T)) (.add (.num 10512148244999999 25) (.mul (.neg (.num 24171248395000002 29)) (.rd (.var .T)))))))))) (.div (.neg (.num 5209245822 5)) (.rd (.var .T)))) (.sub (.add (.add (.neg (.num 137369925 8)) (.mul (.neg (.num 11588395000000018 17)) (.rd (.var .logT)))) (.mul (.rd (.var .T)) (.add (.neg (.num 63296975299999964 20)) (.mul (.rd (.var .T)) (.add (.num 1991754355 16) (.mul (.rd (.var .T)) (.add (.neg (.num 30683716783333336 27)) (.mul (.num 19032480549999999 31) (.rd (.var .T)))))))))) (.div (.neg (.num 52026744650000001 12)) (.rd (.var .T)))),
  .set (.var .Kc) (.mul (.num 1 0) (.exp (.rd (.var .Kc)))),
  .set (.arr .rev 50) (.div (.mul (.mul (.rd (.arr .C 5)) (.rd (.arr .C 11))) (.rd (.var .kf))) (.rd (.var .Kc)))]

/-- utilities/mechanisms/drm19/lib/src/rxn_rates.c:620-631 -/
def rate51 : List CStmt := [
  .set (.var .kf) (.exp (.sub (.add (.num 15048070819142122 15) (.mul (.num 118 2) (.rd (.var .logT)))) (.div (.neg (.num 2249391454920457 13)) (.rd (.var .T))))),
  .set (.arr .fwd 51) (.mul (.mul (.rd (.arr .C 14)) (.rd (.arr .C 4))) (.rd (.var .kf))),
  .ite (.rd (.var .T)) (.num 1000 0) (.var .Kc) (.sub (.add (.add (.num 24123649600000006 16) (.mul (.neg (.num 36591217999999914 17)) (.rd (.var .logT)))) (.mul (.rd (.var .T)) (.add (.num 35146458949999997 19) (.mul (.rd (.var .T)) (.add (.neg (.num 36065987499999994 22)) (.mul (.rd (.var .T)) (.add (.num 19172732924999999 25) (.mul (.neg (.num 42158565400000001 29)) (.rd (.var .T)))))))))) (.div (.neg (.num 15760285599999999 12)) (.rd (.var .T)))) (.sub (.add (.add (.neg (.num 43204932000000014 16)) (.mul (.num 95258912000000029 17) (.rd (.var .logT)))) (.mul (.rd (.var .T)) (.add (.neg (.num 13072786180000004 19)) (.mul (.rd (.var .T)) (.add (.num 27459237566666661 23) (.mul (.rd (.var .T)) (.add (.neg (.num 35528847783333325 27)) (.mul (.num 20056777250000003 31) (.rd (.var .T)))))))))) (.div (.neg (.num 15855203649999999 12)) (.rd (.var .T)))),
  .set (.var .Kc) (.mul (.num 1 0) (.exp (.rd (.var .Kc)))),
  .set (.arr .rev 51) (.div (.mul (.mul (.rd (.arr .C 5)) (.rd (.arr .C 13))) (.rd (.var .kf))) (.rd (.var .Kc)))]

/-- utilities/mechanisms/drm19/lib/src/rxn_rates.c:632-643 -/
def rate52 : List CStmt := [
  .set (.var .kf) (.exp (.sub (.add (.num 81718820061278201 16) (.mul (.num 212 2) (.rd (.var .logT)))) (.div (.num 43780102142747148 14) (.rd (.var .T))))),
  .set (.arr .fwd 52) (.mul (.mul (.rd (.arr .C 18)) (.rd (.arr .C 4))) (.rd (.var .kf))),
  .ite (.rd (.var .T)) (.num 1000 0) (.var .Kc) (.sub (.add (.add (.num 10736134400000008 16) (.mul (.num 22166589000000014 17) (.rd (.var .logT)))) (.mul (.rd (.var .T)) (.add (.num 83991859999999938 20) (.mul (.rd (.var .T)) (.add (.neg (.num 13878474000000013 22)) (.mul (.rd (.var .T)) (.add (.num 77726088416666721 26) (.mul (.neg (.num 17049066150000002 29)) (.rd (.var .T)))))))))) (.div (.neg (.num 95449752600000011 13)) (.rd (.var .T)))) (.sub (.add (.add (.neg (.num 19869821400000016 16)) (.mul (.num 82387974000000019 17) (.rd (.var .logT)))) (.mul (.rd (.var .T)) (.add (.neg (.num 13297535879999997 19)) (.mul (.rd (.var .T)) (.add (.num 29216037899999999 23) (.mul (.rd (.var .T)) (.add (.neg (.num 39253245950000014 27)) (.mul (.num 22720087799999998 31) (.rd (.var .T)))))))))) (.div (.neg (.num 95790409 4)) (.rd (.var .T)))),
  .set (.var .Kc) (.mul (.num 1 0) (.exp (.rd (.var .Kc)))),
  .set (.arr .rev 52) (.div (.mul (.mul (.rd (.arr .C 17)) (.rd (.arr .C 5))) (.rd (.var .kf))) (.rd (.var .Kc)))]

/-- utilities/mechanisms/drm19/lib/src/rxn_rates.c:644-655 -/
def rate53 : List CStmt := [
  .set (.var .kf) (.num 20000000000 0),
  .set (.arr .fwd 53) (.mul (.mul (.rd (.arr .C 7)) (.rd (.arr .C 6))) (.rd (.var .kf))),
  .ite (.rd (.var .T)) (.num 1000 0) (.var .Kc) (.sub (.add (.add (.neg (.num 55015687579999994 16)) (.mul (.num 7212619000000009 16) (.rd (.var .logT)))) (.mul (.rd (.var .T)) (.add (.neg (.num 42647014214999999 19)) (.mul (.rd (.var .T)) (.add (.num 29977919499999997 22) (.mul (.rd (.var .T)) (.add (.neg (.num 11401965416666665 25)) (.mul (.num 17808557350000002 29) (.rd (.var .T)))))))))) (.div (.neg (.num 56992724280000002 12)) (.rd (.var .T)))) (.sub (.add (.add (.num 10214457990000001 15) (.mul (.neg (.num 203773428 8)) (.rd (.var .logT)))) (.mul (.rd (.var .T)) (.add (.num 19261087430000004 19) (.mul (.rd (.var .T)) (.add (.neg (.num 37557979699999998 23)) (.mul (.rd (.var .T)) (.add (.num 45336670449999998 27) (.mul (.neg (.num 23540358100000002 31)) (.rd (.var .T)))))))))) (.div (.neg (.num 56512636012999996 12)) (.rd (.var .T)))),
  .set (.var .Kc) (.mul (.num 1 0) (.exp (.rd (.var .Kc)))),
  .set (.arr .rev 53) (.div (.mul (.mul (.rd (.arr .C 14)) (.rd (.arr .C 4))) (.rd (.var .kf))) (.rd (.var .Kc)))]

/-- utilities/mechanisms/drm19/lib/src/rxn_rates.c:656-667 -/
def rate54 : List CStmt := [
  .set (.var .kf) (.num 1000000000 0),
  .set (.arr .fwd 54) (.mul (.mul (.rd (.arr .C 9)) (.rd (.arr .C 6))) (.rd (.var .kf))),
  .ite (.rd (.var .T)) (.num 1000 0) (.var .Kc) (.sub (.add (.add (.neg (.num 72617988899999997 16)) (.mul (.num 95694408000000042 17) (.rd (.var .logT)))) (.mul (.rd (.var .T)) (.add (.neg (.num 69647721000000006 19)) (.mul (.rd (.var .T)) (.add (.num 53564757083333336 22) (.mul (.rd (.var .T)) (.add (.neg (.num 22506695033333343 25)) (.mul (.num 40385076950000006 29) (.rd (.var .T)))))))))) (.div (.neg (.num 28050398000000001 12)) (.rd (.var .T)))) (.sub (.add (.add (.num 14570914635000003 15) (.mul (.neg (.num 29455392850000006 16)) (.rd (.var .logT)))) (.mul (.rd (.var .T)) (.add (.num 269715687 11) (.mul (.rd (.var .T)) (.add (.neg (.num 47833718816666649 23)) (.mul (.rd (.var .T)) (.add (.num 60205407583333335 27) (.mul (.neg (.num 32990358250000004 31)) (.rd (.var .T)))))))))) (.div (.neg (.num 27444243323000002 12)) (.rd (.var .T)))),
  .set (.var .Kc) (.mul (.num 1 0) (.exp (.rd (.var .Kc)))),
  .set (.arr .rev 54) (.div (.mul (.mul (.rd (.arr .C 10)) (.rd (.arr .C 3))) (.rd (.var .kf))) (.rd (.var .Kc)))]

/-- utilities/mechanisms/drm19/lib/src/rxn_rates.c:668-679 -/
def rate55 : List CStmt := [
  .set (.var .kf) (.num 20000000000 0),
  .set (.arr .fwd 55) (.mul (.mul (.rd (.arr .C 9)) (.rd (.arr .C 6))) (.rd (.var .kf))),
  .ite (.rd (.var .T)) (.num 1000 0) (.var .Kc) (.sub (.add (.add (.num 96041937419999996 16) (.mul (.neg (.num 18771689799999995 16)) (.rd (.var .logT)))) (.mul (.rd (.var .T)) (.add (.num 37767231199999996 19) (.mul (.rd (.var .T)) (.add (.neg (.num 28220162083333331 22)) (.mul (.rd (.var .T)) (.add (.num 16573995266666667 25) (.mul (.neg (.num 41981919400000005 29)) (.rd (.var .T)))))))))) (.div (.neg (.num 12146125180000001 12)) (.rd (.var .T)))) (.sub (.add (.add (.neg (.num 54196608900000003 16)) (.mul (.num 56075804999999956 17) (.rd (.var .logT)))) (.mul (.rd (.var .T)) (.add (.neg (.num 52989689199999987 20)) (.mul (.rd (.var .T)) (.add (.num 1818204763333333 22) (.mul (.rd (.var .T)) (.add (.neg (.num 33619505800000002 27)) (.mul (.num 24060685249999999 31) (.rd (.var .T)))))))))) (.div (.neg (.num 12900951492999999 12)) (.rd (.var .T)))),
  .set (.var .Kc) (.mul (.num 1 0) (.exp (.rd (.var .Kc)))),
  .set (.arr .rev 55) (.div (.mul (.mul (.rd (.arr .C 15)) (.rd (.arr .C 4))) (.rd (.var .kf))) (.rd (.var .Kc)))]

/-- utilities/mechanisms/drm19/lib/src/rxn_rates.c:680-691 -/
def rate56 : List CStmt := [
  .set (.var .kf) (.exp (.sub (.num 25733901131042668 15) (.div (.num 11875981730676238 12) (.rd (.var .T))))),
  .set (.arr .fwd 56) (.mul (.mul (.rd (.arr .C 11)) (.rd (.arr .C 6))) (.rd (.var .kf))),
  .ite (.rd (.var .T)) (.num 1000 0) (.var .Kc) (.sub (.add (.add (.num 41045975620000004 16) (.mul (.neg (.num 15325425300000002 16)) (.rd (.var .logT)))) (.mul (.rd (.var .T)) (.add (.num 59713767200000002 19) (.mul (.rd (.var .T)) (.add (.neg (.num 41134546183333329 22)) (.mul (.rd (.var .T)) (.add (.num 18289533671666668 25) (.mul (.neg (.num 35837057945000006 29)) (.rd (.var .T)))))))))) (.div (.neg (.num 3070761118 5)) (.rd (.var .T)))) (.sub (.add (.add (.neg (.num 50734071600000004 16)) (.mul (.num 21795145000000016 17) (.rd (.var .logT)))) (.mul (.rd (.var .T)) (.add (.num 33022620799999991 20) (.mul (.rd (.var .T)) (.add (.neg (.num 75970815166666666 24)) (.mul (.rd (.var .T)) (.add (.num 76037212000000058 28) (.mul (.neg (.num 21557768500000007 32)) (.rd (.var .T)))))))))) (.div (.neg (.num 30860493312999999 12)) (.rd (.var .T)))),
  .set (.var .Kc) (.mul (.num 1 0) (.exp (.rd (.var .Kc)))),
  .set (.arr .rev 56) (.div (.mul (.mul (.rd (.arr .C 12)) (.rd (.arr .C 4))) (.rd (.var .kf))) (.rd (.var .Kc)))]

/-- utilities/mechanisms/drm19/lib/src/rxn_rates.c:692-703 -/
def rate57 : List CStmt := [
  .set (.var .kf) (.exp (.sub (.num 23303482666538738 15) (.div (.num 75482934728874397 14) (.rd (.var .T))))),
  .set (.arr .fwd 57) (.mul (.mul (.rd (.arr .C 7)) (.rd (.arr .C 3))) (.rd (.var .kf))),
  .ite (.rd (.var .T)) (.num 1000 0) (.var .Kc) (.sub (.add (.add (.neg (.num 25978268480000009 16)) (.mul (.num 66806624000000081 17) (.rd (.var .logT)))) (.mul (.rd (.var .T)) (.add (.neg (.num 18086904115 13)) (.mul (.rd (.var .T)) (.add (.num 95928043166666694 23) (.mul (.rd (.var .T)) (.add (.neg (.num 30527800083333327 26)) (.mul (.num 38532889499999976 30) (.rd (.var .T)))))))))) (.div (.neg (.num 3748545102 5)) (.rd (.var .T)))) (.sub (.add (.add (.num 29421934099999998 16) (.mul (.neg (.num 2915769199999998 16)) (.rd (.var .logT)))) (.mul (.rd (.var .T)) (.add (.num 18295225800000006 20) (.mul (.rd (.var .T)) (.add (.neg (.num 31839710500000008 24)) (.mul (.rd (.var .T)) (.add (.num 26304598666666752 28) (.mul (.neg (.num 5825487000000002 32)) (.rd (.var .T)))))))))) (.div (.neg (.num 37304571130000004 12)) (.rd (.var .T)))),
  .set (.var .Kc) (.mul (.num 1 0) (.exp (.rd (.var .Kc)))),
  .set (.arr .rev 57) (.div (.mul (.mul (.rd (.arr .C 13)) (.rd (.arr .C 4))) (.rd (.var .kf))) (.rd (.var .Kc)))]

/-- utilities/mechanisms/drm19/lib/src/rxn_rates.c:704-715 -/
def rate58 : List CStmt := [
  .set (.var .kf) (.exp (.sub (.add (.num 62146080984221914 16) (.mul (.num 2 0) (.rd (.var .logT)))) (.div (.num 36382774539317456 13) (.rd (.var .T))))),
  .set (.arr .fwd 58) (.mul (.mul (.rd (.arr .C 0)) (.rd (.arr .C 7))) (.rd (.var .kf))),
  .ite (.rd (.var .T)) (.num 1000 0) (.var .Kc) (.sub (.add (.add (.neg (.num 11542412209999999 16)) (.mul (.num 66580609999999929 18) (.rd (.var .logT)))) (.mul (.rd (.var .T)) (.add (.neg (.num 34692205711473328 19)) (.mul (.rd (.var .T)) (.add (.num 37355785246673471 22) (.mul (.rd (.var .T)) (.add (.neg (.num 19314560098082654 25)) (.mul (.num 41162788795361342 29) (.rd (.var .T)))))))))) (.div (.neg (.num 31674462270000004 13)) (.rd (.var .T)))) (.sub (.add (.add (.num 64928815460000013 16) (.mul (.neg (.num 14256625999999999 16)) (.rd (.var .logT)))) (.mul (.rd (.var .T)) (.add (.num 18164549500078511 19) (.mul (.rd (.var .T)) (.add (.neg (.num 34627571197396756 23)) (.mul (.rd (.var .T)) (.add (.num 42922623688737307 27) (.mul (.neg (.num 23984109900901322 31)) (.rd (.var .T)))))))))) (.div (.neg (.num 3064200877999996 12)) (.rd (.var .T)))),
  .set (.var .Kc) (.mul (.num 1 0) (.exp (.rd (.var .Kc)))),
  .set (.arr .rev 58) (.div (.mul (.mul (.rd (.arr .C 1)) (.rd (.arr .C 9))) (.rd (.var .kf))) (.rd (.var .Kc)))]

/-- utilities/mechanisms/drm19/lib/src/rxn_rates.c:716-727 -/
def rate59 : List CStmt := [
  .set (.var .kf) (.num 40000000000 0),
  .set (.arr .fwd 59) (.mul (.mul (.rd (.arr .C 7)) (.rd (.arr .C 9))) (.rd (.var .kf))),
  .ite (.rd (.var .T)) (.num 1000 0) (.var .Kc) (.sub (.add (.add (.num 1460619517 9) (.mul (.neg (.num 97706759000000032 17)) (.rd (.var .logT)))) (.mul (.rd (.var .T)) (.add (.neg (.num 52751731811473343 19)) (.mul (.rd (.var .T)) (.add (.num 80956520380006795 22) (.mul (.rd (.var .T)) (.add (.neg (.num 4869732459808265 24)) (.mul (.num 11378581384536135 28) (.rd (.var .T)))))))))) (.div (.neg (.num 31885603070000001 12)) (.rd (.var .T)))) (.sub (.add (.add (.neg (.num 41688709639999981 16)) (.mul (.neg (.num 62370768000000032 17)) (.rd (.var .logT)))) (.mul (.rd (.var .T)) (.add (.num 18745608934578519 19) (.mul (.rd (.var .T)) (.add (.neg (.num 3857816139739677 22)) (.mul (.rd (.var .T)) (.add (.num 51363752688737337 27) (.mul (.neg (.num 30108932200901318 31)) (.rd (.var .T)))))))))) (.div (.neg (.num 32625642260000001 12)) (.rd (.var .T)))),
  .set (.var .Kc) (.mul (.num 1 0) (.exp (.rd (.var .Kc)))),
  .set (.arr .rev 59) (.div (.mul (.mul (.rd (.arr .C 1)) (.rd (.arr .C 16))) (.rd (.var .kf))) (.rd (.var .Kc)))]

/-- utilities/mechanisms/drm19/lib/src/rxn_rates.c:728-739 -/
def rate60 : List CStmt := [
  .set (.var .kf) (.exp (.sub (.add (.num 78079166289264084 16) (.mul (.num 2 0) (.rd (.var .logT)))) (.div (.num 41616258013852748 13) (.rd (.var .T))))),
  .set (.arr .fwd 60) (.mul (.mul (.rd (.arr .C 7)) (.rd (.arr .C 10))) (.rd (.var .kf))),
  .ite (.rd (.var .T)) (.num 1000 0) (.var .Kc) (.sub (.add (.add (.num 78532745699999982 16) (.mul (.neg (.num 15653739999999998 16)) (.rd (.var .logT)))) (.mul (.rd (.var .T)) (.add (.num 83620050785000004 19) (.mul (.rd (.var .T)) (.add (.neg (.num 67524201983333334 22)) (.mul (.rd (.var .T)) (.add (.num 32152388025000006 25) (.mul (.neg (.num 66345490549999999 29)) (.rd (.var .T)))))))))) (.div (.neg (.num 28673948999999957 13)) (.rd (.var .T)))) (.sub (.add (.add (.neg (.num 92708504749999996 16)) (.mul (.num 16224828150000001 16) (.rd (.var .logT)))) (.mul (.rd (.var .T)) (.add (.neg (.num 12837694399999997 19)) (.mul (.rd (.var .T)) (.add (.num 19458618333333327 23) (.mul (.rd (.var .T)) (.add (.neg (.num 24311300916666658 27)) (.mul (.num 13578553950000004 31) (.rd (.var .T)))))))))) (.div (.neg (.num 32440908100000015 13)) (.rd (.var .T)))),
  .set (.var .Kc) (.mul (.num 1 0) (.exp (.rd (.var .Kc)))),
  .set (.arr .rev 60) (.div (.mul (.mul (.rd (.arr .C 9)) (.rd (.arr .C 9))) (.rd (.var .kf))) (.rd (.var .Kc)))]

/-- utilities/mechanisms/drm19/lib/src/rxn_rates.c:740-751 -/
def rate61 : List CStmt := [
  .set (.var .kf) (.exp (.sub (.num 23431316038048621 15) (.div (.num 30193173891549759 14) (.rd (.var .T))))),
  .set (.arr .fwd 61) (.mul (.mul (.rd (.arr .C 8)) (.rd (.arr .C 20))) (.rd (.var .kf))),
  .ite (.rd (.var .T)) (.num 1000 0) (.var .Kc) (.sub (.add (.add (.num 27675762569999995 16) (.mul (.neg (.num 43592543999999966 17)) (.rd (.var .logT)))) (.mul (.rd (.var .T)) (.add (.num 16677431665000002 19) (.mul (.rd (.var .T)) (.add (.neg (.num 90634396499999983 23)) (.mul (.rd (.var .T)) (.add (.num 23643735666666669 26) (.mul (.neg (.num 12786509000000005 30)) (.rd (.var .T)))))))))) (.div (.neg (.num 44927762000000002 13)) (.rd (.var .T)))) (.sub (.add (.add (.neg (.num 30373711599999997 16)) (.mul (.num 58206271000000021 17) (.rd (.var .logT)))) (.mul (.rd (.var .T)) (.add (.neg (.num 49974672500000005 20)) (.mul (.rd (.var .T)) (.add (.num 10049558333333332 23) (.mul (.rd (.var .T)) (.add (.neg (.num 13143870916666673 27)) (.mul (.num 75994398999999995 32) (.rd (.var .T)))))))))) (.div (.neg (.num 46623957000000009 13)) (.rd (.var .T)))),
  .set (.var .Kc) (.mul (.num 1 0) (.exp (.rd (.var .Kc)))),
  .set (.arr .rev 61) (.div (.mul (.mul (.rd (.arr .C 7)) (.rd (.arr .C 20))) (.rd (.var .kf))) (.rd (.var .Kc)))]

/-- utilities/mechanisms/drm19/lib/src/rxn_rates.c:752-763 -/
def rate62 : List CStmt := [
  .set (.var .kf) (.exp (.sub (.num 22920490414282632 15) (.div (.num 30193173891549759 14) (.rd (.var .T))))),
  .set (.arr .fwd 62) (.mul (.mul (.rd (.arr .C 8)) (.rd (.arr .C 19))) (.rd (.var .kf))),
  .ite (.rd (.var .T)) (.num 1000 0) (.var .Kc) (.sub (.add (.add (.num 27675762569999995 16) (.mul (.neg (.num 43592543999999966 17)) (.rd (.var .logT)))) (.mul (.rd (.var .T)) (.add (.num 16677431665000002 19) (.mul (.rd (.var .T)) (.add (.neg (.num 90634396499999983 23)) (.mul (.rd (.var .T)) (.add (.num 23643735666666669 26) (.mul (.neg (.num 12786509000000005 30)) (.rd (.var .T)))))))))) (.div (.neg (.num 44927762000000002 13)) (.rd (.var .T)))) (.sub (.add (.add (.neg (.num 30373711599999997 16)) (.mul (.num 58206271000000021 17) (.rd (.var .logT)))) (.mul (.rd (.var .T)) (.add (.neg (.num 49974672500000005 20)) (.mul (.rd (.var .T)) (.add (.num 10049558333333332 23) (.mul (.rd (.var .T)) (.add (.neg (.num 13143870916666673 27)) (.mul (.num 75994398999999995 32) (.rd (.var .T)))))))))) (.div (.neg (.num 46623957000000009 13)) (.rd (.var .T)))),
  .set (.var .Kc) (.mul (.num 1 0) (.exp (.rd (.var .Kc)))),
  .set (.arr .rev 62) (.div (.mul (.mul (.rd (.arr .C 7)) (.rd (.arr .C 19))) (.rd (.var .kf))) (.rd (.var .Kc)))]

/-- utilities/mechanisms/drm19/lib/src/rxn_rates.c:764-775 -/
def rate63 : List CStmt := [
  .set (.var .kf) (.num 28000000000 0),
  .set (.arr .fwd 63) (.mul (.mul (.rd (.arr .C 8)) (.rd (.arr .C 3))) (.rd (.var .kf))),
  .ite (.rd (.var .T)) (.num 1000 0) (.var .Kc) (.sub (.add (.add (.neg (.num 2021244224000001 15)) (.mul (.num 10904884300000002 16) (.rd (.var .logT)))) (.mul (.rd (.var .T)) (.add (.num 11758385753526663 19) (.mul (.rd (.var .T)) (.add (.neg (.num 20742519119993197 22)) (.mul (.rd (.var .T)) (.add (.num 11162772880250682 25) (.mul (.neg (.num 23635927699638663 29)) (.rd (.var .T)))))))))) (.div (.neg (.num 34688218280000001 12)) (.rd (.var .T)))) (.sub (.add (.add (.neg (.num 49645291040000004 16)) (.mul (.num 17334970299999997 16) (.rd (.var .logT)))) (.mul (.rd (.var .T)) (.add (.neg (.num 17640083935421486 19)) (.mul (.rd (.var .T)) (.add (.num 31626093535936575 23) (.mul (.rd (.var .T)) (.add (.neg (.num 40439142277929365 27)) (.mul (.num 23509941199098679 31) (.rd (.var .T)))))))))) (.div (.neg (.num 34657097480000004 12)) (.rd (.var .T)))),
  .set (.var .Kc) (.mul (.num 12186597134166982 15) (.exp (.rd (.var .Kc)))),
  .set (.arr .rev 63) (.div (.mul (.mul (.mul (.rd (.arr .C 1)) (.rd (.arr .C 11))) (.rd (.arr .C 4))) (.rd (.var .kf))) (.rd (.var .Kc)))]

/-- utilities/mechanisms/drm19/lib/src/rxn_rates.c:776-787 -/
def rate64 : List CStmt := [
  .set (.var .kf) (.num 12000000000 0),
  .set (.arr .fwd 64) (.mul (.mul (.rd (.arr .C 8)) (.rd (.arr .C 3))) (.rd (.var .kf))),
  .ite (.rd (.var .T)) (.num 1000 0) (.var .Kc) (.sub (.add (.add (.neg (.num 2629325100000024 17)) (.mul (.neg (.num 202886439999999 15)) (.rd (.var .logT)))) (.mul (.rd (.var .T)) (.add (.num 13582802849999998 19) (.mul (.rd (.var .T)) (.add (.neg (.num 1757174628333333 21)) (.mul (.rd (.var .T)) (.add (.num 98237418033333331 26) (.mul (.neg (.num 21596610345 23)) (.rd (.var .T)))))))))) (.div (.neg (.num 94070685439999987 12)) (.rd (.var .T)))) (.sub (.add (.add (.neg (.num 1468877 6)) (.mul (.num 17460184000000023 17) (.rd (.var .logT)))) (.mul (.rd (.var .T)) (.add (.neg (.num 94976421999999974 20)) (.mul (.rd (.var .T)) (.add (.num 26783130833333326 23) (.mul (.rd (.var .T)) (.add (.neg (.num 41197127833333337 27)) (.mul (.num 26049371749999998 31) (.rd (.var .T)))))))))) (.div (.neg (.num 93993711479999998 12)) (.rd (.var .T)))),
  .set (.var .Kc) (.mul (.num 1 0) (.exp (.rd (.var .Kc)))),
  .set (.arr .rev 64) (.div (.mul (.mul (.rd (.arr .C 5)) (.rd (.arr .C 11))) (.rd (.var .kf))) (.rd (.var .Kc)))]

/-- utilities/mechanisms/drm19/lib/src/rxn_rates.c:788-799 -/
def rate65 : List CStmt := [
  .set (.var .kf) (.num 70000000000 0),
  .set (.arr .fwd 65) (.mul (.mul (.rd (.arr .C 0)) (.rd (.arr .C 8))) (.rd (.var .kf))),
  .ite (.rd (.var .T)) (.num 1000 0) (.var .Kc) (.sub (.add (.add (.num 16133350359999996 16) (.mul (.neg (.num 36934482999999974 17)) (.rd (.var .logT)))) (.mul (.rd (.var .T)) (.add (.neg (.num 18014774046473329 19)) (.mul (.rd (.var .T)) (.add (.num 28292345596673472 22) (.mul (.rd (.var .T)) (.add (.neg (.num 16950186531415987 25)) (.mul (.num 39884137895361342 29) (.rd (.var .T)))))))))) (.div (.neg (.num 76602224270000006 13)) (.rd (.var .T)))) (.sub (.add (.add (.num 34555103860000012 16) (.mul (.neg (.num 84359988999999969 17)) (.rd (.var .logT)))) (.mul (.rd (.var .T)) (.add (.num 13167082250078511 19) (.mul (.rd (.var .T)) (.add (.neg (.num 24578012864063421 23)) (.mul (.rd (.var .T)) (.add (.num 29778752772070631 27) (.mul (.neg (.num 16384670000901324 31)) (.rd (.var .T)))))))))) (.div (.neg (.num 7726596577999997 12)) (.rd (.var .T)))),
  .set (.var .Kc) (.mul (.num 1 0) (.exp (.rd (.var .Kc)))),
  .set (.arr .rev 65) (.div (.mul (.mul (.rd (.arr .C 1)) (.rd (.arr .C 9))) (.rd (.var .kf))) (.rd (.var .Kc)))]

/-- utilities/mechanisms/drm19/lib/src/rxn_rates.c:800-811 -/
def rate66 : List CStmt := [
  .set (.var .kf) (.num 30000000000 0),
  .set (.arr .fwd 66) (.mul (.mul (.rd (.arr .C 8)) (.rd (.arr .C 5))) (.rd (.var .kf))),
  .ite (.rd (.var .T)) (.num 1000 0) (.var .Kc) (.sub (.add (.add (.num 27675762569999995 16) (.mul (.neg (.num 43592543999999966 17)) (.rd (.var .logT)))) (.mul (.rd (.var .T)) (.add (.num 16677431665000002 19) (.mul (.rd (.var .T)) (.add (.neg (.num 90634396499999983 23)) (.mul (.rd (.var .T)) (.add (.num 23643735666666669 26) (.mul (.neg (.num 12786509000000005 30)) (.rd (.var .T)))))))))) (.div (.neg (.num 44927762000000002 13)) (.rd (.var .T)))) (.sub (.add (.add (.neg (.num 30373711599999997 16)) (.mul (.num 58206271000000021 17) (.rd (.var .logT)))) (.mul (.rd (.var .T)) (.add (.neg (.num 49974672500000005 20)) (.mul (.rd (.var .T)) (.add (.num 10049558333333332 23) (.mul (.rd (.var .T)) (.add (.neg (.num 13143870916666673 27)) (.mul (.num 75994398999999995 32) (.rd (.var .T)))))))))) (.div (.neg (.num 46623957000000009 13)) (.rd (.var .T)))),
  .set (.var .Kc) (.mul (.num 1 0) (.exp (.rd (.var .Kc)))),
  .set (.arr .rev 66) (.div (.mul (.mul (.rd (.arr .C 7)) (.rd (.arr .C 5))) (.rd (.var .kf))) (.rd (.var .Kc)))]

/-- utilities/mechanisms/drm19/lib/src/rxn_rates.c:812-823 -/
def rate67 : List CStmt := [
  .set (.var .kf) (.exp (.sub (.num 23208172486734412 15) (.div (.neg (.num 28683515196972269 14)) (.rd (.var .T))))),
  .set (.arr .fwd 67) (.mul (.mul (.rd (.arr .C 8)) (.rd (.arr .C 9))) (.rd (.var .kf))),
  .ite (.rd (.var .T)) (.num 1000 0) (.var .Kc) (.sub (.add (.add (.num 42281957739999996 16) (.mul (.neg (.num 141299303 8)) (.rd (.var .logT)))) (.mul (.rd (.var .T)) (.add (.neg (.num 36074300146473337 19)) (.mul (.rd (.var .T)) (.add (.num 71893080730006792 22) (.mul (.rd (.var .T)) (.add (.neg (.num 46332951031415987 25)) (.mul (.num 11250716294536134 28) (.rd (.var .T)))))))))) (.div (.neg (.num 36378379270000005 12)) (.rd (.var .T)))) (.sub (.add (.add (.neg (.num 72062421239999983 16)) (.mul (.neg (.num 41644970000000114 18)) (.rd (.var .logT)))) (.mul (.rd (.var .T)) (.add (.num 13748141684578521 19) (.mul (.rd (.var .T)) (.add (.neg (.num 28528603064063429 23)) (.mul (.rd (.var .T)) (.add (.num 38219881772070655 27) (.mul (.neg (.num 22509492300901323 31)) (.rd (.var .T)))))))))) (.div (.neg (.num 37288037960000001 12)) (.rd (.var .T)))),
  .set (.var .Kc) (.mul (.num 1 0) (.exp (.rd (.var .Kc)))),
  .set (.arr .rev 67) (.div (.mul (.mul (.rd (.arr .C 1)) (.rd (.arr .C 16))) (.rd (.var .kf))) (.rd (.var .Kc)))]

/-- utilities/mechanisms/drm19/lib/src/rxn_rates.c:824-835 -/
def rate68 : List CStmt := [
  .set (.var .kf) (.exp (.sub (.num 23495854559186192 15) (.div (.neg (.num 28683515196972269 14)) (.rd (.var .T))))),
  .set (.arr .fwd 68) (.mul (.mul (.rd (.arr .C 8)) (.rd (.arr .C 10))) (.rd (.var .kf))),
  .ite (.rd (.var .T)) (.num 1000 0) (.var .Kc) (.sub (.add (.add (.num 10620850826999998 15) (.mul (.neg (.num 20012994399999995 16)) (.rd (.var .logT)))) (.mul (.rd (.var .T)) (.add (.num 10029748245000001 18) (.mul (.rd (.var .T)) (.add (.neg (.num 76587641633333328 22)) (.mul (.rd (.var .T)) (.add (.num 34516761591666673 25) (.mul (.neg (.num 6762414145 22)) (.rd (.var .T)))))))))) (.div (.neg (.num 73601710999999959 13)) (.rd (.var .T)))) (.sub (.add (.add (.neg (.num 12308221634999999 15)) (.mul (.num 22045455250000003 16) (.rd (.var .logT)))) (.mul (.rd (.var .T)) (.add (.neg (.num 17835161650000004 19)) (.mul (.rd (.var .T)) (.add (.num 29508176666666667 23) (.mul (.rd (.var .T)) (.add (.neg (.num 37455171833333327 27)) (.mul (.num 21177993849999999 31) (.rd (.var .T)))))))))) (.div (.neg (.num 79064865100000025 13)) (.rd (.var .T)))),
  .set (.var .Kc) (.mul (.num 1 0) (.exp (.rd (.var .Kc)))),
  .set (.arr .rev 68) (.div (.mul (.mul (.rd (.arr .C 9)) (.rd (.arr .C 9))) (.rd (.var .kf))) (.rd (.var .Kc)))]

/-- utilities/mechanisms/drm19/lib/src/rxn_rates.c:836-847 -/
def rate69 : List CStmt := [
  .set (.var .kf) (.num 9000000000 0),
  .set (.arr .fwd 69) (.mul (.mul (.rd (.arr .C 8)) (.rd (.arr .C 11))) (.rd (.var .kf))),
  .ite (.rd (.var .T)) (.num 1000 0) (.var .Kc) (.sub (.add (.add (.num 27675762569999995 16) (.mul (.neg (.num 43592543999999966 17)) (.rd (.var .logT)))) (.mul (.rd (.var .T)) (.add (.num 16677431665000002 19) (.mul (.rd (.var .T)) (.add (.neg (.num 90634396499999983 23)) (.mul (.rd (.var .T)) (.add (.num 23643735666666669 26) (.mul (.neg (.num 12786509000000005 30)) (.rd (.var .T)))))))))) (.div (.neg (.num 44927762000000002 13)) (.rd (.var .T)))) (.sub (.add (.add (.neg (.num 30373711599999997 16)) (.mul (.num 58206271000000021 17) (.rd (.var .logT)))) (.mul (.rd (.var .T)) (.add (.neg (.num 49974672500000005 20)) (.mul (.rd (.var .T)) (.add (.num 10049558333333332 23) (.mul (.rd (.var .T)) (.add (.neg (.num 13143870916666673 27)) (.mul (.num 75994398999999995 32) (.rd (.var .T)))))))))) (.div (.neg (.num 46623957000000009 13)) (.rd (.var .T)))),
  .set (.var .Kc) (.mul (.num 1 0) (.exp (.rd (.var .Kc)))),
  .set (.arr .rev 69) (.div (.mul (.mul (.rd (.arr .C 7)) (.rd (.arr .C 11))) (.rd (.var .kf))) (.rd (.var .Kc)))]

/-- utilities/mechanisms/drm19/lib/src/rxn_rates.c:848-859 -/
def rate70 : List CStmt := [
  .set (.var .kf) (.num 7000000000 0),
  .set (.arr .fwd 70) (.mul (.mul (.rd (.arr .C 8)) (.rd (.arr .C 12))) (.rd (.var .kf))),
  .ite (.rd (.var .T)) (.num 1000 0) (.var .Kc) (.sub (.add (.add (.num 27675762569999995 16) (.mul (.neg (.num 43592543999999966 17)) (.rd (.var .logT)))) (.mul (.rd (.var .T)) (.add (.num 16677431665000002 19) (.mul (.rd (.var .T)) (.add (.neg (.num 90634396499999983 23)) (.mul (.rd (.var .T)) (.add (.num 23643735666666669 26) (.mul (.neg (.num 12786509000000005 30)) (.rd (.var .T)))))))))) (.div (.neg (.num 44927762000000002 13)) (.rd (.var .T)))) (.sub (.add (.add (.neg (.num 30373711599999997 16)) (.mul (.num 58206271000000021 17) (.rd (.var .logT)))) (.mul (.rd (.var .T)) (.add (.neg (.num 49974672500000005 20)) (.mul (.rd (.var .T)) (.add (.num 10049558333333332 23) (.mul (.rd (.var .T)) (.add (.neg (.num 13143870916666673 27)) (.mul (.num 75994398999999995 32) (.rd (.var .T)))))))))) (.div (.neg (.num 46623957000000009 13)) (.rd (.var .T)))),
  .set (.var .Kc) (.mul (.num 1 0) (.exp (.rd (.var .Kc)))),
  .set (.arr .rev 70) (.div (.mul (.mul (.rd (.arr .C 7)) (.rd (.arr .C 12))) (.rd (.var .kf))) (.rd (.var .Kc)))]

/-- utilities/mechanisms/drm19/lib/src/rxn_rates.c:860-871 -/
def rate71 : List CStmt := [
  .set (.var .kf) (.num 14000000000 0),
  .set (.arr .fwd 71) (.mul (.mul (.rd (.arr .C 8)) (.rd (.arr .C 12))) (.rd (.var .kf))),
  .ite (.rd (.var .T)) (.num 1000 0) (.var .Kc) (.sub (.add (.add (.neg (.num 68385900630000007 16)) (.mul (.num 18178789899999996 16) (.rd (.var .logT)))) (.mul (.rd (.var .T)) (.add (.neg (.num 85683349750000012 19)) (.mul (.rd (.var .T)) (.add (.num 62049026033333328 22) (.mul (.rd (.var .T)) (.add (.neg (.num 27327125521666666 25)) (.mul (.num 52366964395000012 29) (.rd (.var .T)))))))))) (.div (.neg (.num 30777889299999995 12)) (.rd (.var .T)))) (.sub (.add (.add (.num 12250493990000001 15) (.mul (.neg (.num 16736230200000004 16)) (.rd (.var .logT)))) (.mul (.rd (.var .T)) (.add (.num 10961358100000005 19) (.mul (.rd (.var .T)) (.add (.neg (.num 19911339850000003 23)) (.mul (.rd (.var .T)) (.add (.num 24589078333333327 27) (.mul (.neg (.num 13785141350000008 31)) (.rd (.var .T)))))))))) (.div (.neg (.num 30314538400000005 12)) (.rd (.var .T)))),
  .set (.var .Kc) (.mul (.num 1 0) (.exp (.rd (.var .Kc)))),
  .set (.arr .rev 71) (.div (.mul (.mul (.rd (.arr .C 14)) (.rd (.arr .C 11))) (.rd (.var .kf))) (.rd (.var .Kc)))]

/-- utilities/mechanisms/drm19/lib/src/rxn_rates.c:872-883 -/
def rate72 : List CStmt := [
  .set (.var .kf) (.exp (.sub (.num 24009800310288426 15) (.div (.num 14492723467943884 12) (.rd (.var .T))))),
  .set (.arr .fwd 72) (.mul (.mul (.rd (.arr .C 9)) (.rd (.arr .C 3))) (.rd (.var .kf))),
  .ite (.rd (.var .T)) (.num 1000 0) (.var .Kc) (.sub (.add (.add (.num 12123446059999999 15) (.mul (.neg (.num 218157566 8)) (.rd (.var .logT)))) (.mul (.rd (.var .T)) (.add (.num 24615292849999998 19) (.mul (.rd (.var .T)) (.add (.neg (.num 59933076833333345 23)) (.mul (.rd (.var .T)) (.add (.num 25389725833333334 26) (.mul (.neg (.num 79965800000000011 30)) (.rd (.var .T)))))))))) (.div (.num 14719805059999999 12) (.rd (.var .T)))) (.sub (.add (.add (.neg (.num 69913536600000006 16)) (.mul (.num 77196422000000009 17) (.rd (.var .logT)))) (.mul (.rd (.var .T)) (.add (.neg (.num 46873251184999991 20)) (.mul (.rd (.var .T)) (.add (.num 1884457679833333 22) (.mul (.rd (.var .T)) (.add (.neg (.num 35060823241666667 27)) (.mul (.num 24244697855000003 31) (.rd (.var .T)))))))))) (.div (.num 13658285040000001 12) (.rd (.var .T)))),
  .set (.var .Kc) (.mul (.num 1 0) (.exp (.rd (.var .Kc)))),
  .set (.arr .rev 72) (.div (.mul (.mul (.rd (.arr .C 15)) (.rd (.arr .C 2))) (.rd (.var .kf))) (.rd (.var .Kc)))]

/-- utilities/mechanisms/drm19/lib/src/rxn_rates.c:884-895 -/
def rate73 : List CStmt := [
  .set (.var .kf) (.exp (.sub (.num 17399029496420383 15) (.div (.num 44987829098409138 13) (.rd (.var .T))))),
  .set (.arr .fwd 73) (.mul (.mul (.rd (.arr .C 9)) (.rd (.arr .C 3))) (.rd (.var .kf))),
  .ite (.rd (.var .T)) (.num 1000 0) (.var .Kc) (.sub (.add (.add (.neg (.num 60930444379999997 16)) (.mul (.num 13296918200000003 16) (.rd (.var .logT)))) (.mul (.rd (.var .T)) (.add (.neg (.num 56619343999999997 19)) (.mul (.rd (.var .T)) (.add (.num 439373644 14) (.mul (.rd (.var .T)) (.add (.neg (.num 21047658408333332 25)) (.mul (.num 43768970950000006 29) (.rd (.var .T)))))))))) (.div (.neg (.num 26074931380000002 12)) (.rd (.var .T)))) (.sub (.add (.add (.num 49143938300000007 16) (.mul (.neg (.num 71467780999999952 17)) (.rd (.var .logT)))) (.mul (.rd (.var .T)) (.add (.num 51272131300000021 20) (.mul (.rd (.var .T)) (.add (.neg (.num 91828792166666631 24)) (.mul (.rd (.var .T)) (.add (.num 94425637833333304 28) (.mul (.neg (.num 41285538000000041 32)) (.rd (.var .T)))))))))) (.div (.neg (.num 25824301879999999 12)) (.rd (.var .T)))),
  .set (.var .Kc) (.mul (.num 1 0) (.exp (.rd (.var .Kc)))),
  .set (.arr .rev 73) (.div (.mul (.mul (.rd (.arr .C 14)) (.rd (.arr .C 4))) (.rd (.var .kf))) (.rd (.var .Kc)))]

/-- utilities/mechanisms/drm19/lib/src/rxn_rates.c:896-907 -/
def rate74 : List CStmt := [
  .set (.var .kf) (.exp (.sub (.sub (.num 30685022297606515 15) (.mul (.num 97 2) (.rd (.var .logT)))) (.div (.num 31199613021268084 14) (.rd (.var .T))))),
  .set (.arr .fwd 74) (.mul (.mul (.rd (.arr .C 9)) (.rd (.arr .C 9))) (.rd (.var .kf))),
  .ite (.rd (.var .T)) (.num 1000 0) (.var .Kc) (.sub (.add (.add (.num 25134503800000001 16) (.mul (.neg (.num 20557558800000004 16)) (.rd (.var .logT)))) (.mul (.rd (.var .T)) (.add (.neg (.num 47617231000000003 19)) (.mul (.rd (.var .T)) (.add (.num 80805652800000013 22) (.mul (.rd (.var .T)) (.add (.neg (.num 47586900000000002 25)) (.mul (.num 10890431210000001 28) (.rd (.var .T)))))))))) (.div (.neg (.num 44412203099999999 12)) (.rd (.var .T)))) (.sub (.add (.add (.num 16550210599999993 16) (.mul (.neg (.num 24995539400000002 16)) (.rd (.var .logT)))) (.mul (.rd (.var .T)) (.add (.num 36027334800000001 19) (.mul (.rd (.var .T)) (.add (.neg (.num 67521995666666668 23)) (.mul (.rd (.var .T)) (.add (.num 85229226833333329 27) (.mul (.neg (.num 48286005599999995 31)) (.rd (.var .T)))))))))) (.div (.neg (.num 44977561799999996 12)) (.rd (.var .T)))),
  .set (.var .Kc) (.mul (.num 82057360967184814 18) (.exp (.rd (.var .Kc)))),
  .set (.arr .rev 74) (.div (.mul (.rd (.arr .C 18)) (.rd (.var .kf))) (.rd (.var .Kc)))]

/-- utilities/mechanisms/drm19/lib/src/rxn_rates.c:908-919 -/
def rate75 : List CStmt := [
  .set (.var .kf) (.exp (.sub (.add (.num 22330701746709838 15) (.mul (.num 1 1) (.rd (.var .logT)))) (.div (.num 53341273875071238 13) (.rd (.var .T))))),
  .set (.arr .fwd 75) (.mul (.mul (.rd (.arr .C 9)) (.rd (.arr .C 9))) (.rd (.var .kf))),
  .ite (.rd (.var .T)) (.num 1000 0) (.var .Kc) (.sub (.add (.add (.num 15921128470000006 16) (.mul (.neg (.num 54071512000000066 17)) (.rd (.var .logT)))) (.mul (.rd (.var .T)) (.add (.neg (.num 4104246209647334 18)) (.mul (.rd (.var .T)) (.add (.num 63756405963340138 22) (.mul (.rd (.var .T)) (.add (.neg (.num 38475260081415982 25)) (.mul (.num 89815928595361359 29) (.rd (.var .T)))))))))) (.div (.num 54252887999999948 13) (.rd (.var .T)))) (.sub (.add (.add (.neg (.num 38276131840000023 16)) (.mul (.neg (.num 11677901000000013 17)) (.rd (.var .logT)))) (.mul (.rd (.var .T)) (.add (.num 14587357184578514 19) (.mul (.rd (.var .T)) (.add (.neg (.num 33462995064063426 23)) (.mul (.rd (.var .T)) (.add (.num 46733966438737313 27) (.mul (.neg (.num 28105348350901323 31)) (.rd (.var .T)))))))))) (.div (.num 47800113000000056 13) (.rd (.var .T)))),
  .set (.var .Kc) (.mul (.num 1 0) (.exp (.rd (.var .Kc)))),
  .set (.arr .rev 75) (.div (.mul (.mul (.rd (.arr .C 1)) (.rd (.arr .C 17))) (.rd (.var .kf))) (.rd (.var .Kc)))]

/-- utilities/mechanisms/drm19/lib/src/rxn_rates.c:920-931 -/
def rate76 : List CStmt := [
  .set (.var .kf) (.num 26480000000 0),
  .set (.arr .fwd 76) (.mul (.mul (.rd (.arr .C 9)) (.rd (.arr .C 13))) (.rd (.var .kf))),
  .ite (.rd (.var .T)) (.num 1000 0) (.var .Kc) (.sub (.add (.add (.neg (.num 69664645999999983 16)) (.mul (.num 83463335999999977 17) (.rd (.var .logT)))) (.mul (.rd (.var .T)) (.add (.neg (.num 6524179455000001 18)) (.mul (.rd (.var .T)) (.add (.num 51144518450000005 22) (.mul (.rd (.var .T)) (.add (.neg (.num 22818094305000002 25)) (.mul (.num 44417125555000006 29) (.rd (.var .T)))))))))) (.div (.neg (.num 44875297360000004 12)) (.rd (.var .T)))) (.sub (.add (.add (.num 10245444005000003 15) (.mul (.neg (.num 22678549950000004 16)) (.rd (.var .logT)))) (.mul (.rd (.var .T)) (.add (.num 16283092500000004 19) (.mul (.rd (.var .T)) (.add (.neg (.num 2100140418333332 22)) (.mul (.rd (.var .T)) (.add (.num 22344327999999988 27) (.mul (.neg (.num 11056845550000002 31)) (.rd (.var .T)))))))))) (.div (.neg (.num 44407719440000001 12)) (.rd (.var .T)))),
  .set (.var .Kc) (.mul (.num 1 0) (.exp (.rd (.var .Kc)))),
  .set (.arr .rev 76) (.div (.mul (.mul (.rd (.arr .C 10)) (.rd (.arr .C 11))) (.rd (.var .kf))) (.rd (.var .Kc)))]

/-- utilities/mechanisms/drm19/lib/src/rxn_rates.c:932-943 -/
def rate77 : List CStmt := [
  .set (.var .kf) (.exp (.sub (.add (.num 1199964782928397 15) (.mul (.num 281 2) (.rd (.var .logT)))) (.div (.num 29488666500746931 13) (.rd (.var .T))))),
  .set (.arr .fwd 77) (.mul (.mul (.rd (.arr .C 14)) (.rd (.arr .C 9))) (.rd (.var .kf))),
  .ite (.rd (.var .T)) (.num 1000 0) (.var .Kc) (.sub (.add (.add (.neg (.num 43580569799999989 16)) (.mul (.num 90374842000000033 17) (.rd (.var .logT)))) (.mul (.rd (.var .T)) (.add (.neg (.num 45087610900000005 19)) (.mul (.rd (.var .T)) (.add (.num 3317964190000001 21) (.mul (.rd (.var .T)) (.add (.neg (.num 14157509625000007 25)) (.mul (.num 26429808550000006 29) (.rd (.var .T)))))))))) (.div (.neg (.num 85431247400000011 13)) (.rd (.var .T)))) (.sub (.add (.add (.num 72986500549999986 16) (.mul (.neg (.num 1199381925 9)) (.rd (.var .logT)))) (.mul (.rd (.var .T)) (.add (.num 95400038499999975 20) (.mul (.rd (.var .T)) (.add (.neg (.num 13459710166666672 23)) (.mul (.rd (.var .T)) (.add (.num 17499196999999993 27) (.mul (.neg (.num 1003254884999999 30)) (.rd (.var .T)))))))))) (.div (.neg (.num 82361784399999997 13)) (.rd (.var .T)))),
  .set (.var .Kc) (.mul (.num 1 0) (.exp (.rd (.var .Kc)))),
  .set (.arr .rev 77) (.div (.mul (.mul (.rd (.arr .C 10)) (.rd (.arr .C 13))) (.rd (.var .kf))) (.rd (.var .Kc)))]

/-- utilities/mechanisms/drm19/lib/src/rxn_rates.c:944-955 -/
def rate78 : List CStmt := [
  .set (.var .kf) (.exp (.sub (.add (.num 8722580021141189 15) (.mul (.num 174 2) (.rd (.var .logT)))) (.div (.num 52586444527782496 13) (.rd (.var .T))))),
  .set (.arr .fwd 78) (.mul (.mul (.rd (.arr .C 18)) (.rd (.arr .C 9))) (.rd (.var .kf))),
  .ite (.rd (.var .T)) (.num 1000 0) (.var .Kc) (.sub (.add (.add (.neg (.num 56968084999999977 16)) (.mul (.num 14913264899999996 16) (.rd (.var .logT)))) (.mul (.rd (.var .T)) (.add (.neg (.num 71834883850000007 19)) (.mul (.rd (.var .T)) (.add (.num 55367155399999999 22) (.mul (.rd (.var .T)) (.add (.neg (.num 25557633708333321 25)) (.mul (.num 51539307800000025 29) (.rd (.var .T)))))))))) (.div (.neg (.num 23278144000000011 13)) (.rd (.var .T)))) (.sub (.add (.add (.num 96321611149999988 16) (.mul (.neg (.num 13280913050000001 16)) (.rd (.var .logT)))) (.mul (.rd (.var .T)) (.add (.num 9315254150000004 19) (.mul (.rd (.var .T)) (.add (.neg (.num 11702909833333329 23)) (.mul (.rd (.var .T)) (.add (.num 13774798833333342 27) (.mul (.neg (.num 73692383000000025 32)) (.rd (.var .T)))))))))) (.div (.neg (.num 19600156899999984 13)) (.rd (.var .T)))),
  .set (.var .Kc) (.mul (.num 1 0) (.exp (.rd (.var .Kc)))),
  .set (.arr .rev 78) (.div (.mul (.mul (.rd (.arr .C 17)) (.rd (.arr .C 10))) (.rd (.var .kf))) (.rd (.var .Kc)))]

/-- utilities/mechanisms/drm19/lib/src/rxn_rates.c:956-967 -/
def rate79 : List CStmt := [
  .set (.var .kf) (.exp (.sub (.sub (.num 35347036382571133 15) (.mul (.num 1 0) (.rd (.var .logT)))) (.div (.num 85547326026057654 13) (.rd (.var .T))))),
  .set (.arr .fwd 79) (.mul (.mul (.rd (.arr .C 5)) (.rd (.arr .C 13))) (.rd (.var .kf))),
  .ite (.rd (.var .T)) (.num 1000 0) (.var .Kc) (.sub (.add (.add (.neg (.num 21909936329999997 16)) (.mul (.num 85834762999999903 17) (.rd (.var .logT)))) (.mul (.rd (.var .T)) (.add (.num 13167858203526664 19) (.mul (.rd (.var .T)) (.add (.neg (.num 21271883786659866 22)) (.mul (.rd (.var .T)) (.add (.num 11851179321917348 25) (.mul (.neg (.num 2621056574963866 28)) (.rd (.var .T)))))))))) (.div (.num 72900089399999997 13) (.rd (.var .T)))) (.sub (.add (.add (.neg (.num 4869351354 9)) (.mul (.num 14430112399999997 16) (.rd (.var .logT)))) (.mul (.rd (.var .T)) (.add (.neg (.num 14472139265421485 19)) (.mul (.rd (.var .T)) (.add (.num 24760506252603246 23) (.mul (.rd (.var .T)) (.add (.neg (.num 29925731227929364 27)) (.mul (.num 1649304999909868 30) (.rd (.var .T)))))))))) (.div (.num 7309869349999999 12) (.rd (.var .T)))),
  .set (.var .Kc) (.mul (.num 12186597134166982 15) (.exp (.rd (.var .Kc)))),
  .set (.arr .rev 79) (.div (.mul (.mul (.mul (.rd (.arr .C 1)) (.rd (.arr .C 5))) (.rd (.arr .C 11))) (.rd (.var .kf))) (.rd (.var .Kc)))]

/-- utilities/mechanisms/drm19/lib/src/rxn_rates.c:968-979 -/
def rate80 : List CStmt := [
  .set (.var .kf) (.exp (.sub (.sub (.num 32862129732783131 15) (.mul (.num 1 0) (.rd (.var .logT)))) (.div (.num 85547326026057654 13) (.rd (.var .T))))),
  .set (.arr .fwd 80) (.mul (.rd (.arr .C 13)) (.rd (.var .kf))),
  .ite (.rd (.var .T)) (.num 1000 0) (.var .Kc) (.sub (.add (.add (.neg (.num 21909936329999997 16)) (.mul (.num 85834762999999903 17) (.rd (.var .logT)))) (.mul (.rd (.var .T)) (.add (.num 13167858203526664 19) (.mul (.rd (.var .T)) (.add (.neg (.num 21271883786659866 22)) (.mul (.rd (.var .T)) (.add (.num 11851179321917348 25) (.mul (.neg (.num 2621056574963866 28)) (.rd (.var .T)))))))))) (.div (.num 72900089399999997 13) (.rd (.var .T)))) (.sub (.add (.add (.neg (.num 4869351354 9)) (.mul (.num 14430112399999997 16) (.rd (.var .logT)))) (.mul (.rd (.var .T)) (.add (.neg (.num 14472139265421485 19)) (.mul (.rd (.var .T)) (.add (.num 24760506252603246 23) (.mul (.rd (.var .T)) (.add (.neg (.num 29925731227929364 27)) (.mul (.num 1649304999909868 30) (.rd (.var .T)))))))))) (.div (.num 7309869349999999 12) (.rd (.var .T)))),
  .set (.var .Kc) (.mul (.num 12186597134166982 15) (.exp (.rd (.var .Kc)))),
  .set (.arr .rev 80) (.div (.mul (.mul (.rd (.arr .C 1)) (.rd (.arr .C 11))) (.rd (.var .kf))) (.rd (.var .Kc)))]

/-- utilities/mechanisms/drm19/lib/src/rxn_rates.c:980-991 -/
def rate81 : List CStmt := [
  .set (.var .kf) (.exp (.sub (.num 22751414084238696 15) (.div (.num 20128782594366504 14) (.rd (.var .T))))),
  .set (.arr .fwd 81) (.mul (.mul (.rd (.arr .C 13)) (.rd (.arr .C 3))) (.rd (.var .kf))),
  .ite (.rd (.var .T)) (.num 1000 0) (.var .Kc) (.sub (.add (.add (.num 29533429000000044 17) (.mul (.neg (.num 12231072000000021 17)) (.rd (.var .logT)))) (.mul (.rd (.var .T)) (.add (.num 44059264500000009 20) (.mul (.rd (.var .T)) (.add (.neg (.num 24202386333333375 23)) (.mul (.rd (.var .T)) (.add (.neg (.num 31139927166666888 27)) (.mul (.num 40320486050000074 30) (.rd (.var .T)))))))))) (.div (.neg (.num 16824899359999999 12)) (.rd (.var .T)))) (.sub (.add (.add (.neg (.num 43254706299999999 16)) (.mul (.num 67768429000000019 17) (.rd (.var .logT)))) (.mul (.rd (.var .T)) (.add (.neg (.num 10688476199999996 19)) (.mul (.rd (.var .T)) (.add (.num 26832314633333334 23) (.mul (.rd (.var .T)) (.add (.neg (.num 37861079583333334 27)) (.mul (.num 21933512699999998 31) (.rd (.var .T)))))))))) (.div (.neg (.num 16963476117000002 12)) (.rd (.var .T)))),
  .set (.var .Kc) (.mul (.num 1 0) (.exp (.rd (.var .Kc)))),
  .set (.arr .rev 81) (.div (.mul (.mul (.rd (.arr .C 11)) (.rd (.arr .C 6))) (.rd (.var .kf))) (.rd (.var .Kc)))]

/-- utilities/mechanisms/drm19/lib/src/rxn_rates.c:992-1003 -/
def rate82 : List CStmt := [
  .set (.var .kf) (.exp (.sub (.add (.neg (.num 35387408478311023 15)) (.mul (.num 76 1) (.rd (.var .logT)))) (.div (.neg (.num 17763650639528441 13)) (.rd (.var .T))))),
  .set (.arr .fwd 82) (.mul (.mul (.rd (.arr .C 15)) (.rd (.arr .C 3))) (.rd (.var .kf))),
  .ite (.rd (.var .T)) (.num 1000 0) (.var .Kc) (.sub (.add (.add (.neg (.num 15697238179999999 15)) (.mul (.num 32068607999999998 16) (.rd (.var .logT)))) (.mul (.rd (.var .T)) (.add (.neg (.num 94386575199999993 19)) (.mul (.rd (.var .T)) (.add (.num 72157526483333326 22) (.mul (.rd (.var .T)) (.add (.neg (.num 37621653674999999 25)) (.mul (.num 85750890350000001 29) (.rd (.var .T)))))))))) (.div (.neg (.num 13928806200000001 12)) (.rd (.var .T)))) (.sub (.add (.add (.num 10334054720000001 15) (.mul (.neg (.num 12754358599999995 16)) (.rd (.var .logT)))) (.mul (.rd (.var .T)) (.add (.num 10426182050000004 19) (.mul (.rd (.var .T)) (.add (.neg (.num 27364926849999996 23)) (.mul (.rd (.var .T)) (.add (.num 43062069583333329 27) (.mul (.neg (.num 28189239050000005 31)) (.rd (.var .T)))))))))) (.div (.neg (.num 12923350387 6)) (.rd (.var .T)))),
  .set (.var .Kc) (.mul (.num 1 0) (.exp (.rd (.var .Kc)))),
  .set (.arr .rev 82) (.div (.mul (.mul (.rd (.arr .C 14)) (.rd (.arr .C 6))) (.rd (.var .kf))) (.rd (.var .Kc)))]

/-- utilities/mechanisms/drm19/lib/src/rxn_rates.c:1004-1015 -/
def rate83 : List CStmt := [
  .set (.var .kf) (.exp (.sub (.num 20548912449801634 15) (.div (.num 19499758138292552 13) (.rd (.var .T))))),
  .set (.arr .fwd 83) (.mul (.mul (.rd (.arr .C 17)) (.rd (.arr .C 3))) (.rd (.var .kf))),
  .ite (.rd (.var .T)) (.num 1000 0) (.var .Kc) (.sub (.add (.add (.neg (.num 72296901000000036 17)) (.mul (.num 17207745000000019 17) (.rd (.var .logT)))) (.mul (.rd (.var .T)) (.add (.neg (.num 25681599499999992 19)) (.mul (.rd (.var .T)) (.add (.num 31159559316666656 22) (.mul (.rd (.var .T)) (.add (.neg (.num 19867757508333331 25)) (.mul (.num 49930298850000008 29) (.rd (.var .T)))))))))) (.div (.neg (.num 63930989700000009 13)) (.rd (.var .T)))) (.sub (.add (.add (.neg (.num 56413219399999974 16)) (.mul (.num 81612780000000029 17) (.rd (.var .logT)))) (.mul (.rd (.var .T)) (.add (.neg (.num 9975622550000003 19)) (.mul (.rd (.var .T)) (.add (.num 23259934149999997 23) (.mul (.rd (.var .T)) (.add (.neg (.num 31264320416666646 27)) (.mul (.num 17408220449999992 31) (.rd (.var .T)))))))))) (.div (.neg (.num 67173194270000004 13)) (.rd (.var .T)))),
  .set (.var .Kc) (.mul (.num 1 0) (.exp (.rd (.var .Kc)))),
  .set (.arr .rev 83) (.div (.mul (.mul (.rd (.arr .C 16)) (.rd (.arr .C 6))) (.rd (.var .kf))) (.rd (.var .Kc)))]

/-- The blocks of `void eval_rxn_rates`, one per reaction: utilities/mechanisms/drm19/lib/src/rxn_rates.c:3-1015 -/
def rateBlocks : List (List CStmt) := [
  rate0, rate1, rate2, rate3, rate4, rate5, rate6, rate7, rate8, rate9, rate10, rate11, rate12, rate13, rate14, rate15, rate16, rate17, rate18, rate19, rate20, rate21, rate22, rate23, rate24, rate25, rate26, rate27, rate28, rate29, rate30, rate31, rate32, rate33, rate34, rate35, rate36, rate37, rate38, rate39, rate40, rate41, rate42, rate43, rate44, rate45, rate46, rate47, rate48, rate49, rate50, rate51, rate52, rate53, rate54, rate55, rate56, rate57, rate58, rate59, rate60, rate61, rate62, rate63, rate64, rate65, rate66, rate67, rate68, rate69, rate70, rate71, rate72, rate73, rate74, rate75, rate76, rate77, rate78, rate79, rate80, rate81, rate82, rate83]

end DLB.Mech.Drm19
