/- Generated by tools/gen_mechanisms.py from utilities/mechanisms/gri30/lib/src/rxn_rates.c. Do not edit. -/
import Verif.Model.CLang
set_option autoImplicit false

namespace DLB.Mech.Gri30
open DLB

/-- utilities/mechanisms/gri30/lib/src/rxn_rates.c:3-7 -/
def rateStart : List CStmt := [
  .set (.var .logT) (.log (.rd (.var .T)))]

/-- utilities/mechanisms/gri30/lib/src/rxn_rates.c:8-19 -/
def rate0 : List CStmt := [
  .set (.var .kf) (.exp (.sub (.num 25510757579728459 15) (.mul (.num 1 0) (.rd (.var .logT))))),
  .set (.arr .fwd 0) (.mul (.mul (.rd (.arr .C 2)) (.rd (.arr .C 2))) (.rd (.var .kf))),
  .ite (.rd (.var .T)) (.num 1000 0) (.var .Kc) (.sub (.add (.add (.num 21078866500000002 16) (.mul (.neg (.num 15540778400000002 16)) (.rd (.var .logT)))) (.mul (.rd (.var .T)) (.add (.num 178095176 11) (.mul (.rd (.var .T)) (.add (.neg (.num 57313765166666677 23)) (.mul (.rd (.var .T)) (.add (.num 21456978249999992 26) (.mul (.neg (.num 49079552499999993 30)) (.rd (.var .T)))))))))) (.div (.neg (.num 59308461960000001 12)) (.rd (.var .T)))) (.sub (.add (.add (.neg (.num 2259142269999999 15)) (.mul (.neg (.num 85630372000000055 17)) (.rd (.var .logT)))) (.mul (.rd (.var .T)) (.add (.num 82751788369999995 20) (.mul (.rd (.var .T)) (.add (.neg (.num 1403105978 16)) (.mul (.rd (.var .T)) (.add (.num 19125509566666665 27) (.mul (.neg (.num 12064226609999998 31)) (.rd (.var .T)))))))))) (.div (.neg (.num 59523615919999997 12)) (.rd (.var .T)))),
  .set (.var .Kc) (.mul (.num 82057360967184814 18) (.exp (.rd (.var .Kc)))),
  .set (.arr .rev 0) (.div (.mul (.rd (.arr .C 3)) (.rd (.var .kf))) (.rd (.var .Kc)))]

/-- utilities/mechanisms/gri30/lib/src/rxn_rates.c:20-31 -/
def rate1 : List CStmt := [
  .set (.var .kf) (.exp (.sub (.num 26937873935368604 15) (.mul (.num 1 0) (.rd (.var .logT))))),
  .set (.arr .fwd 1) (.mul (.mul (.rd (.arr .C 1)) (.rd (.arr .C 2))) (.rd (.var .kf))),
  .ite (.rd (.var .T)) (.num 1000 0) (.var .Kc) (.sub (.add (.add (.neg (.num 32924395000000217 18)) (.mul (.neg (.num 67625167000000008 17)) (.rd (.var .logT)))) (.mul (.rd (.var .T)) (.add (.num 43900065964733344 20) (.mul (.rd (.var .T)) (.add (.neg (.num 3375209246673468 22)) (.mul (.rd (.var .T)) (.add (.num 18724440897493195 26) (.mul (.neg (.num 37427250453613386 30)) (.rd (.var .T)))))))))) (.div (.neg (.num 50980838539999997 12)) (.rd (.var .T)))) (.sub (.add (.add (.num 21155734939999999 16) (.mul (.neg (.num 97653312000000003 17)) (.rd (.var .logT)))) (.mul (.rd (.var .T)) (.add (.num 31720192639214862 20) (.mul (.rd (.var .T)) (.add (.num 14092792157300863 24) (.mul (.rd (.var .T)) (.add (.neg (.num 64940309137373039 28)) (.mul (.num 52564500959013221 32) (.rd (.var .T)))))))))) (.div (.neg (.num 50832581999999995 12)) (.rd (.var .T)))),
  .set (.var .Kc) (.mul (.num 82057360967184814 18) (.exp (.rd (.var .Kc)))),
  .set (.arr .rev 1) (.div (.mul (.rd (.arr .C 4)) (.rd (.var .kf))) (.rd (.var .Kc)))]

/-- utilities/mechanisms/gri30/lib/src/rxn_rates.c:32-43 -/
def rate2 : List CStmt := [
  .set (.var .kf) (.exp (.sub (.add (.num 3655839600035736 15) (.mul (.num 27 1) (.rd (.var .logT)))) (.div (.num 31501544760183583 13) (.rd (.var .T))))),
  .set (.arr .fwd 2) (.mul (.mul (.rd (.arr .C 0)) (.rd (.arr .C 2))) (.rd (.var .kf))),
  .ite (.rd (.var .T)) (.num 1000 0) (.var .Kc) (.sub (.add (.add (.neg (.num 42649692189999993 16)) (.mul (.num 97941721000000026 17) (.rd (.var .logT)))) (.mul (.rd (.var .T)) (.add (.neg (.num 35512597146473337 19)) (.mul (.rd (.var .T)) (.add (.num 29088375746673461 22) (.mul (.rd (.var .T)) (.add (.neg (.num 14925230406415985 25)) (.mul (.num 33137862995361342 29) (.rd (.var .T)))))))))) (.div (.num 88441643299999851 14) (.rd (.var .T)))) (.sub (.add (.add (.num 27645101560000005 16) (.mul (.neg (.num 31381229999999993 17)) (.rd (.var .logT)))) (.mul (.rd (.var .T)) (.add (.num 34190313985785133 20) (.mul (.rd (.var .T)) (.add (.neg (.num 69149998790634198 24)) (.mul (.rd (.var .T)) (.add (.num 84698344637373057 28) (.mul (.neg (.num 47563182059013212 32)) (.rd (.var .T)))))))))) (.div (.num 10648967219999977 13) (.rd (.var .T)))),
  .set (.var .Kc) (.mul (.num 1 0) (.exp (.rd (.var .Kc)))),
  .set (.arr .rev 2) (.div (.mul (.mul (.rd (.arr .C 1)) (.rd (.arr .C 4))) (.rd (.var .kf))) (.rd (.var .Kc)))]

/-- utilities/mechanisms/gri30/lib/src/rxn_rates.c:44-55 -/
def rate3 : List CStmt := [
  .set (.var .kf) (.num 20000000000 0),
  .set (.arr .fwd 3) (.mul (.mul (.rd (.arr .C 6)) (.rd (.arr .C 2))) (.rd (.var .kf))),
  .ite (.rd (.var .T)) (.num 1000 0) (.var .Kc) (.sub (.add (.add (.neg (.num 25192523180000004 16)) (.mul (.num 30440668000000004 17) (.rd (.var .logT)))) (.mul (.rd (.var .T)) (.add (.num 13151938349999998 19) (.mul (.rd (.var .T)) (.add (.neg (.num 22226854399999996 22)) (.mul (.rd (.var .T)) (.add (.num 14035022683333336 25) (.mul (.neg (.num 33985339400000004 29)) (.rd (.var .T)))))))))) (.div (.neg (.num 26865930240000002 12)) (.rd (.var .T)))) (.sub (.add (.add (.num 15716927700000003 16) (.mul (.neg (.num 21120617000000097 17)) (.rd (.var .logT)))) (.mul (.rd (.var .T)) (.add (.neg (.num 6116438015000002 20)) (.mul (.rd (.var .T)) (.add (.neg (.num 66252916499999951 25)) (.mul (.rd (.var .T)) (.add (.num 14413174416666637 28) (.mul (.neg (.num 18401260499999932 33)) (.rd (.var .T)))))))))) (.div (.neg (.num 26559236532999999 12)) (.rd (.var .T)))),
  .set (.var .Kc) (.mul (.num 1 0) (.exp (.rd (.var .Kc)))),
  .set (.arr .rev 3) (.div (.mul (.mul (.rd (.arr .C 3)) (.rd (.arr .C 4))) (.rd (.var .kf))) (.rd (.var .Kc)))]

/-- utilities/mechanisms/gri30/lib/src/rxn_rates.c:56-67 -/
def rate4 : List CStmt := [
  .set (.var .kf) (.exp (.sub (.add (.num 91726385047921717 16) (.mul (.num 2 0) (.rd (.var .logT)))) (.div (.num 20128782594366505 13) (.rd (.var .T))))),
  .set (.arr .fwd 4) (.mul (.mul (.rd (.arr .C 7)) (.rd (.arr .C 2))) (.rd (.var .kf))),
  .ite (.rd (.var .T)) (.num 1000 0) (.var .Kc) (.sub (.add (.add (.neg (.num 27236808580000007 16)) (.mul (.num 84943364999999948 17) (.rd (.var .logT)))) (.mul (.rd (.var .T)) (.add (.neg (.num 16641483864999998 19)) (.mul (.rd (.var .T)) (.add (.num 39993224166666568 23) (.mul (.rd (.var .T)) (.add (.neg (.num 37697932500000338 27)) (.mul (.neg (.num 40418699999999293 31)) (.rd (.var .T)))))))))) (.div (.neg (.num 75097885000000024 13)) (.rd (.var .T)))) (.sub (.add (.add (.num 1856280499999996 16) (.mul (.num 37567494000000012 17) (.rd (.var .logT)))) (.mul (.rd (.var .T)) (.add (.neg (.num 10170464901500002 19)) (.mul (.rd (.var .T)) (.add (.num 22538181151666665 23) (.mul (.rd (.var .T)) (.add (.neg (.num 27905665974999997 27)) (.mul (.num 14256438845 25) (.rd (.var .T)))))))))) (.div (.neg (.num 7385277686999998 12)) (.rd (.var .T)))),
  .set (.var .Kc) (.mul (.num 1 0) (.exp (.rd (.var .Kc)))),
  .set (.arr .rev 4) (.div (.mul (.mul (.rd (.arr .C 6)) (.rd (.arr .C 4))) (.rd (.var .kf))) (.rd (.var .Kc)))]

/-- utilities/mechanisms/gri30/lib/src/rxn_rates.c:68-79 -/
def rate5 : List CStmt := [
  .set (.var .kf) (.num 57000000000 0),
  .set (.arr .fwd 5) (.mul (.mul (.rd (.arr .C 9)) (.rd (.arr .C 2))) (.rd (.var .kf))),
  .ite (.rd (.var .T)) (.num 1000 0) (.var .Kc) (.sub (.add (.add (.neg (.num 49566783299999972 17)) (.mul (.neg (.num 57855028000000042 17)) (.rd (.var .logT)))) (.mul (.rd (.var .T)) (.add (.num 11725648098526663 19) (.mul (.rd (.var .T)) (.add (.neg (.num 65620983033265328 23)) (.mul (.rd (.var .T)) (.add (.num 32274157135840136 26) (.mul (.neg (.num 8054967699638661 29)) (.rd (.var .T)))))))))) (.div (.neg (.num 88789978699999992 12)) (.rd (.var .T)))) (.sub (.add (.add (.neg (.num 26646139339999997 16)) (.mul (.neg (.num 23269989000000058 17)) (.rd (.var .logT)))) (.mul (.rd (.var .T)) (.add (.num 58879391980785141 20) (.mul (.rd (.var .T)) (.add (.neg (.num 19753664479063422 23)) (.mul (.rd (.var .T)) (.add (.num 3089655268040397 26) (.mul (.neg (.num 19600523155901322 31)) (.rd (.var .T)))))))))) (.div (.neg (.num 88908228000000003 12)) (.rd (.var .T)))),
  .set (.var .Kc) (.mul (.num 1 0) (.exp (.rd (.var .Kc)))),
  .set (.arr .rev 5) (.div (.mul (.mul (.rd (.arr .C 1)) (.rd (.arr .C 14))) (.rd (.var .kf))) (.rd (.var .Kc)))]

/-- utilities/mechanisms/gri30/lib/src/rxn_rates.c:80-91 -/
def rate6 : List CStmt := [
  .set (.var .kf) (.num 80000000000 0),
  .set (.arr .fwd 6) (.mul (.mul (.rd (.arr .C 10)) (.rd (.arr .C 2))) (.rd (.var .kf))),
  .ite (.rd (.var .T)) (.num 1000 0) (.var .Kc) (.sub (.add (.add (.neg (.num 457015803 9)) (.mul (.neg (.num 20975992999999971 17)) (.rd (.var .logT)))) (.mul (.rd (.var .T)) (.add (.neg (.num 46673931114733346 20)) (.mul (.rd (.var .T)) (.add (.num 72366370466734677 23) (.mul (.rd (.var .T)) (.add (.neg (.num 27795262730826525 26)) (.mul (.num 26880587453613382 30) (.rd (.var .T)))))))))) (.div (.neg (.num 45813074439999997 12)) (.rd (.var .T)))) (.sub (.add (.add (.neg (.num 14325223539999996 16)) (.mul (.neg (.num 17134752000000031 17)) (.rd (.var .logT)))) (.mul (.rd (.var .T)) (.add (.num 69326821530785122 20) (.mul (.rd (.var .T)) (.add (.neg (.num 18624310045730086 23)) (.mul (.rd (.var .T)) (.add (.num 28250000347070641 27) (.mul (.neg (.num 17903225405901321 31)) (.rd (.var .T)))))))))) (.div (.neg (.num 45995605049999998 12)) (.rd (.var .T)))),
  .set (.var .Kc) (.mul (.num 1 0) (.exp (.rd (.var .Kc)))),
  .set (.arr .rev 6) (.div (.mul (.mul (.rd (.arr .C 1)) (.rd (.arr .C 16))) (.rd (.var .kf))) (.rd (.var .Kc)))]

/-- utilities/mechanisms/gri30/lib/src/rxn_rates.c:92-103 -/
def rate7 : List CStmt := [
  .set (.var .kf) (.num 15000000000 0),
  .set (.arr .fwd 7) (.mul (.mul (.rd (.arr .C 11)) (.rd (.arr .C 2))) (.rd (.var .kf))),
  .ite (.rd (.var .T)) (.num 1000 0) (.var .Kc) (.sub (.add (.add (.num 43516116450000002 16) (.mul (.neg (.num 14430066199999998 16)) (.rd (.var .logT)))) (.mul (.rd (.var .T)) (.add (.num 65080500499999994 19) (.mul (.rd (.var .T)) (.add (.neg (.num 55562271383333331 22)) (.mul (.rd (.var .T)) (.add (.num 28233701111666669 25) (.mul (.neg (.num 61681745945000004 29)) (.rd (.var .T)))))))))) (.div (.neg (.num 94881096672999993 12)) (.rd (.var .T)))) (.sub (.add (.add (.neg (.num 99881815299999985 16)) (.mul (.num 11910056099999999 16) (.rd (.var .logT)))) (.mul (.rd (.var .T)) (.add (.neg (.num 12783936497 13)) (.mul (.rd (.var .T)) (.add (.num 24510033634999999 23) (.mul (.rd (.var .T)) (.add (.neg (.num 29783467175000008 27)) (.mul (.num 16202032794999998 31) (.rd (.var .T)))))))))) (.div (.neg (.num 95245610121999998 12)) (.rd (.var .T)))),
  .set (.var .Kc) (.mul (.num 1 0) (.exp (.rd (.var .Kc)))),
  .set (.arr .rev 7) (.div (.mul (.mul (.rd (.arr .C 0)) (.rd (.arr .C 14))) (.rd (.var .kf))) (.rd (.var .Kc)))]

/-- utilities/mechanisms/gri30/lib/src/rxn_rates.c:104-115 -/
def rate8 : List CStmt := [
  .set (.var .kf) (.num 15000000000 0),
  .set (.arr .fwd 8) (.mul (.mul (.rd (.arr .C 11)) (.rd (.arr .C 2))) (.rd (.var .kf))),
  .ite (.rd (.var .T)) (.num 1000 0) (.var .Kc) (.sub (.add (.add (.num 23105604539999995 16) (.mul (.neg (.num 64568536999999937 17)) (.rd (.var .logT)))) (.mul (.rd (.var .T)) (.add (.num 12010038553526665 19) (.mul (.rd (.var .T)) (.add (.neg (.num 18268026033265306 23)) (.mul (.rd (.var .T)) (.add (.neg (.num 41515270641598609 27)) (.mul (.num 14094078453613377 30) (.rd (.var .T)))))))))) (.div (.neg (.num 50305850640000004 12)) (.rd (.var .T)))) (.sub (.add (.add (.neg (.num 44698935139999989 16)) (.mul (.num 4107151899999999 16) (.rd (.var .logT)))) (.mul (.rd (.var .T)) (.add (.num 19352149030785112 20) (.mul (.rd (.var .T)) (.add (.neg (.num 85747517123967536 24)) (.mul (.rd (.var .T)) (.add (.num 15106129430403969 27) (.mul (.neg (.num 10303785505901323 31)) (.rd (.var .T)))))))))) (.div (.neg (.num 50658000749999999 12)) (.rd (.var .T)))),
  .set (.var .Kc) (.mul (.num 1 0) (.exp (.rd (.var .Kc)))),
  .set (.arr .rev 8) (.div (.mul (.mul (.rd (.arr .C 1)) (.rd (.arr .C 16))) (.rd (.var .kf))) (.rd (.var .Kc)))]

/-- utilities/mechanisms/gri30/lib/src/rxn_rates.c:116-127 -/
def rate9 : List CStmt := [
  .set (.var .kf) (.num 50600000000 0),
  .set (.arr .fwd 9) (.mul (.mul (.rd (.arr .C 12)) (.rd (.arr .C 2))) (.rd (.var .kf))),
  .ite (.rd (.var .T)) (.num 1000 0) (.var .Kc) (.sub (.add (.add (.neg (.num 39522333930000006 16)) (.mul (.num 45186564999999979 17) (.rd (.var .logT)))) (.mul (.rd (.var .T)) (.add (.neg (.num 43199832996473333 19)) (.mul (.rd (.var .T)) (.add (.num 41581197130006792 22) (.mul (.rd (.var .T)) (.add (.neg (.num 2077440467308265 24)) (.mul (.num 42603740745361341 29) (.rd (.var .T)))))))))) (.div (.neg (.num 34402554800000005 12)) (.rd (.var .T)))) (.sub (.add (.add (.num 53967806600000001 17) (.mul (.neg (.num 59444841000000048 17)) (.rd (.var .logT)))) (.mul (.rd (.var .T)) (.add (.num 10230372703078517 19) (.mul (.rd (.var .T)) (.add (.neg (.num 24623218212396754 23)) (.mul (.rd (.var .T)) (.add (.num 35062104263737296 27) (.mul (.neg (.num 21449230505901326 31)) (.rd (.var .T)))))))))) (.div (.neg (.num 34515335800000001 12)) (.rd (.var .T)))),
  .set (.var .Kc) (.mul (.num 1 0) (.exp (.rd (.var .Kc)))),
  .set (.arr .rev 9) (.div (.mul (.mul (.rd (.arr .C 17)) (.rd (.arr .C 1))) (.rd (.var .kf))) (.rd (.var .Kc)))]

/-- utilities/mechanisms/gri30/lib/src/rxn_rates.c:128-139 -/
def rate10 : List CStmt := [
  .set (.var .kf) (.exp (.sub (.add (.num 13835313185260453 15) (.mul (.num 15 1) (.rd (.var .logT)))) (.div (.num 43276882577887991 13) (.rd (.var .T))))),
  .set (.arr .fwd 10) (.mul (.mul (.rd (.arr .C 13)) (.rd (.arr .C 2))) (.rd (.var .kf))),
  .ite (.rd (.var .T)) (.num 1000 0) (.var .Kc) (.sub (.add (.add (.num 47425465719999984 16) (.mul (.neg (.num 65253739999999949 17)) (.rd (.var .logT)))) (.mul (.rd (.var .T)) (.add (.num 82799659350000013 19) (.mul (.rd (.var .T)) (.add (.neg (.num 7579161148333334 21)) (.mul (.rd (.var .T)) (.add (.num 3654171771666667 24) (.mul (.neg (.num 7437041635 22)) (.rd (.var .T)))))))))) (.div (.num 11844677599999995 13) (.rd (.var .T)))) (.sub (.add (.add (.neg (.num 12999221865000001 15)) (.mul (.num 27343331149999996 16) (.rd (.var .logT)))) (.mul (.rd (.var .T)) (.add (.neg (.num 27583212501499999 19)) (.mul (.rd (.var .T)) (.add (.num 47171189651666662 23) (.mul (.rd (.var .T)) (.add (.neg (.num 58764090141666669 27)) (.mul (.num 32806345645000004 31) (.rd (.var .T)))))))))) (.div (.num 88500678999999946 14) (.rd (.var .T)))),
  .set (.var .Kc) (.mul (.num 1 0) (.exp (.rd (.var .Kc)))),
  .set (.arr .rev 10) (.div (.mul (.mul (.rd (.arr .C 12)) (.rd (.arr .C 4))) (.rd (.var .kf))) (.rd (.var .Kc)))]

/-- utilities/mechanisms/gri30/lib/src/rxn_rates.c:140-151 -/
def rate11 : List CStmt := [
  .set (.var .kf) (.exp (.sub (.num 16705882315860439 15) (.div (.num 12001786621891029 13) (.rd (.var .T))))),
  .set (.arr .fwd 11) (.mul (.mul (.rd (.arr .C 14)) (.rd (.arr .C 2))) (.rd (.var .kf))),
  .ite (.rd (.var .T)) (.num 1000 0) (.var .Kc) (.sub (.add (.add (.num 87317365300000009 16) (.mul (.neg (.num 33910270499999999 16)) (.rd (.var .logT)))) (.mul (.rd (.var .T)) (.add (.num 64371346450000002 19) (.mul (.rd (.var .T)) (.add (.neg (.num 24639068299999998 22)) (.mul (.rd (.var .T)) (.add (.num 64002088133333328 26) (.mul (.neg (.num 67596737950000005 30)) (.rd (.var .T)))))))))) (.div (.neg (.num 63150142900000006 12)) (.rd (.var .T)))) (.sub (.add (.add (.neg (.num 89042422000000006 16)) (.mul (.neg (.num 42714609999999986 17)) (.rd (.var .logT)))) (.mul (.rd (.var .T)) (.add (.num 12189084718499997 19) (.mul (.rd (.var .T)) (.add (.neg (.num 20965612131666668 23)) (.mul (.rd (.var .T)) (.add (.num 25287913325000004 27) (.mul (.neg (.num 14035990855000001 31)) (.rd (.var .T)))))))))) (.div (.neg (.num 63824872699999993 12)) (.rd (.var .T)))),
  .set (.var .Kc) (.mul (.num 82057360967184814 18) (.exp (.rd (.var .Kc)))),
  .set (.arr .rev 11) (.div (.mul (.rd (.arr .C 15)) (.rd (.var .kf))) (.rd (.var .Kc)))]

/-- utilities/mechanisms/gri30/lib/src/rxn_rates.c:152-163 -/
def rate12 : List CStmt := [
  .set (.var .kf) (.num 30000000000 0),
  .set (.arr .fwd 12) (.mul (.mul (.rd (.arr .C 16)) (.rd (.arr .C 2))) (.rd (.var .kf))),
  .ite (.rd (.var .T)) (.num 1000 0) (.var .Kc) (.sub (.add (.add (.neg (.num 22239180279999999 16)) (.mul (.num 18209595999999939 17) (.rd (.var .logT)))) (.mul (.rd (.var .T)) (.add (.num 17557864799999999 19) (.mul (.rd (.var .T)) (.add (.neg (.num 24647093033333336 22)) (.mul (.rd (.var .T)) (.add (.num 13723623411666668 25) (.mul (.neg (.num 29953290795 23)) (.rd (.var .T)))))))))) (.div (.neg (.num 43690829599999997 12)) (.rd (.var .T)))) (.sub (.add (.add (.neg (.num 275377786 8)) (.mul (.num 46647811999999966 17) (.rd (.var .logT)))) (.mul (.rd (.var .T)) (.add (.neg (.num 11300120001499999 19)) (.mul (.rd (.var .T)) (.add (.num 26169785468333331 23) (.mul (.rd (.var .T)) (.add (.neg (.num 36419762141666674 27)) (.mul (.num 21749500095000002 31) (.rd (.var .T)))))))))) (.div (.neg (.num 43522712650000001 12)) (.rd (.var .T)))),
  .set (.var .Kc) (.mul (.num 1 0) (.exp (.rd (.var .Kc)))),
  .set (.arr .rev 12) (.div (.mul (.mul (.rd (.arr .C 14)) (.rd (.arr .C 4))) (.rd (.var .kf))) (.rd (.var .Kc)))]

/-- utilities/mechanisms/gri30/lib/src/rxn_rates.c:164-175 -/
def rate13 : List CStmt := [
  .set (.var .kf) (.num 30000000000 0),
  .set (.arr .fwd 13) (.mul (.mul (.rd (.arr .C 16)) (.rd (.arr .C 2))) (.rd (.var .kf))),
  .ite (.rd (.var .T)) (.num 1000 0) (.var .Kc) (.sub (.add (.add (.num 65407428970000012 16) (.mul (.neg (.num 25326794200000005 16)) (.rd (.var .logT)))) (.mul (.rd (.var .T)) (.add (.num 77539204653526671 19) (.mul (.rd (.var .T)) (.add (.neg (.num 45910952086659868 22)) (.mul (.rd (.var .T)) (.add (.num 18251388135250679 25) (.mul (.neg (.num 3297023954463866 28)) (.rd (.var .T)))))))))) (.div (.neg (.num 55860133960000006 12)) (.rd (.var .T)))) (.sub (.add (.add (.neg (.num 13773593554000001 15)) (.mul (.num 10158651399999994 16) (.rd (.var .logT)))) (.mul (.rd (.var .T)) (.add (.neg (.num 22830545469214872 20)) (.mul (.rd (.var .T)) (.add (.num 37948941209365814 24) (.mul (.rd (.var .T)) (.add (.neg (.num 46378179029293617 28)) (.mul (.num 24570591440986795 32) (.rd (.var .T)))))))))) (.div (.neg (.num 56515003349999999 12)) (.rd (.var .T)))),
  .set (.var .Kc) (.mul (.num 1 0) (.exp (.rd (.var .Kc)))),
  .set (.arr .rev 13) (.div (.mul (.mul (.rd (.arr .C 1)) (.rd (.arr .C 15))) (.rd (.var .kf))) (.rd (.var .Kc)))]

/-- utilities/mechanisms/gri30/lib/src/rxn_rates.c:176-187 -/
def rate14 : List CStmt := [
  .set (.var .kf) (.exp (.sub (.num 24386827483076058 15) (.div (.num 17813972596014357 13) (.rd (.var .T))))),
  .set (.arr .fwd 14) (.mul (.mul (.rd (.arr .C 17)) (.rd (.arr .C 2))) (.rd (.var .kf))),
  .ite (.rd (.var .T)) (.num 1000 0) (.var .Kc) (.sub (.add (.add (.num 3844895919999991 16) (.mul (.num 25121102000000084 17) (.rd (.var .logT)))) (.mul (.rd (.var .T)) (.add (.num 37712048449999999 19) (.mul (.rd (.var .T)) (.add (.neg (.num 4261196958333333 21)) (.mul (.rd (.var .T)) (.add (.num 22384208091666663 25) (.mul (.neg (.num 47940607800000004 29)) (.rd (.var .T)))))))))) (.div (.neg (.num 73586569799999997 13)) (.rd (.var .T)))) (.sub (.add (.add (.neg (.num 57005718100000013 16)) (.mul (.num 15349511899999997 16) (.rd (.var .logT)))) (.mul (.rd (.var .T)) (.add (.neg (.num 18043208651500001 19)) (.mul (.rd (.var .T)) (.add (.num 33711479484999995 23) (.mul (.rd (.var .T)) (.add (.neg (.num 41264893141666657 27)) (.mul (.num 22773796795000006 31) (.rd (.var .T)))))))))) (.div (.neg (.num 73511716500000002 13)) (.rd (.var .T)))),
  .set (.var .Kc) (.mul (.num 1 0) (.exp (.rd (.var .Kc)))),
  .set (.arr .rev 14) (.div (.mul (.mul (.rd (.arr .C 16)) (.rd (.arr .C 4))) (.rd (.var .kf))) (.rd (.var .Kc)))]

/-- utilities/mechanisms/gri30/lib/src/rxn_rates.c:188-199 -/
def rate15 : List CStmt := [
  .set (.var .kf) (.num 10000000000 0),
  .set (.arr .fwd 15) (.mul (.mul (.rd (.arr .C 18)) (.rd (.arr .C 2))) (.rd (.var .kf))),
  .ite (.rd (.var .T)) (.num 1000 0) (.var .Kc) (.sub (.add (.add (.neg (.num 87796507479999981 16)) (.mul (.num 17535823000000001 16) (.rd (.var .logT)))) (.mul (.rd (.var .T)) (.add (.neg (.num 73135277049999996 19)) (.mul (.rd (.var .T)) (.add (.num 48940262233333329 22) (.mul (.rd (.var .T)) (.add (.neg (.num 21023659991666664 25)) (.mul (.num 40295237050000001 29) (.rd (.var .T)))))))))) (.div (.neg (.num 36622221669999999 12)) (.rd (.var .T)))) (.sub (.add (.add (.num 89467570300000006 16) (.mul (.neg (.num 14085087199999999 16)) (.rd (.var .logT)))) (.mul (.rd (.var .T)) (.add (.num 59431833984999974 20) (.mul (.rd (.var .T)) (.add (.neg (.num 97836693483333255 24)) (.mul (.rd (.var .T)) (.add (.num 11770759024999992 27) (.mul (.neg (.num 65086216050000015 32)) (.rd (.var .T)))))))))) (.div (.neg (.num 3611224813 5)) (.rd (.var .T)))),
  .set (.var .Kc) (.mul (.num 1 0) (.exp (.rd (.var .Kc)))),
  .set (.arr .rev 15) (.div (.mul (.mul (.rd (.arr .C 17)) (.rd (.arr .C 4))) (.rd (.var .kf))) (.rd (.var .Kc)))]

/-- utilities/mechanisms/gri30/lib/src/rxn_rates.c:200-211 -/
def rate16 : List CStmt := [
  .set (.var .kf) (.num 10000000000 0),
  .set (.arr .fwd 16) (.mul (.mul (.rd (.arr .C 19)) (.rd (.arr .C 2))) (.rd (.var .kf))),
  .ite (.rd (.var .T)) (.num 1000 0) (.var .Kc) (.sub (.add (.add (.neg (.num 18216490497999999 15)) (.mul (.num 35112674800000003 16) (.rd (.var .logT)))) (.mul (.rd (.var .T)) (.add (.neg (.num 81234636850000003 19)) (.mul (.rd (.var .T)) (.add (.num 4993067208333333 21) (.mul (.rd (.var .T)) (.add (.neg (.num 23586630991666664 25)) (.mul (.num 51765550950000007 29) (.rd (.var .T)))))))))) (.div (.neg (.num 40794736440000001 12)) (.rd (.var .T)))) (.sub (.add (.add (.num 11905747490000001 15) (.mul (.neg (.num 14866420299999996 16)) (.rd (.var .logT)))) (.mul (.rd (.var .T)) (.add (.num 98145382485000012 20) (.mul (.rd (.var .T)) (.add (.neg (.num 28027456014999993 23)) (.mul (.rd (.var .T)) (.add (.num 44503387024999995 27) (.mul (.neg (.num 28373251655000005 31)) (.rd (.var .T)))))))))) (.div (.neg (.num 39482586920000002 12)) (.rd (.var .T)))),
  .set (.var .Kc) (.mul (.num 1 0) (.exp (.rd (.var .Kc)))),
  .set (.arr .rev 16) (.div (.mul (.mul (.rd (.arr .C 17)) (.rd (.arr .C 4))) (.rd (.var .kf))) (.rd (.var .Kc)))]

/-- utilities/mechanisms/gri30/lib/src/rxn_rates.c:212-223 -/
def rate17 : List CStmt := [
  .set (.var .kf) (.exp (.sub (.add (.num 59610053396232736 16) (.mul (.num 25 1) (.rd (.var .logT)))) (.div (.num 15599806510634041 13) (.rd (.var .T))))),
  .set (.arr .fwd 17) (.mul (.mul (.rd (.arr .C 20)) (.rd (.arr .C 2))) (.rd (.var .kf))),
  .ite (.rd (.var .T)) (.num 1000 0) (.var .Kc) (.sub (.add (.add (.num 58490200520000002 16) (.mul (.neg (.num 10277583100000007 16)) (.rd (.var .logT)))) (.mul (.rd (.var .T)) (.add (.num 1085281863 11) (.mul (.rd (.var .T)) (.add (.neg (.num 10222753856666666 21)) (.mul (.rd (.var .T)) (.add (.num 52395350508333331 25) (.mul (.neg (.num 11257071015 22)) (.rd (.var .T)))))))))) (.div (.neg (.num 30583267100000012 13)) (.rd (.var .T)))) (.sub (.add (.add (.neg (.num 1142599736 8)) (.mul (.num 24264246699999998 16) (.rd (.var .logT)))) (.mul (.rd (.var .T)) (.add (.neg (.num 24068287001499994 19)) (.mul (.rd (.var .T)) (.add (.num 44975898651666659 23) (.mul (.rd (.var .T)) (.add (.neg (.num 56033715808333333 27)) (.mul (.num 31358850294999997 31) (.rd (.var .T)))))))))) (.div (.neg (.num 32265536699999975 13)) (.rd (.var .T)))),
  .set (.var .Kc) (.mul (.num 1 0) (.exp (.rd (.var .Kc)))),
  .set (.arr .rev 17) (.div (.mul (.mul (.rd (.arr .C 18)) (.rd (.arr .C 4))) (.rd (.var .kf))) (.rd (.var .Kc)))]

/-- utilities/mechanisms/gri30/lib/src/rxn_rates.c:224-235 -/
def rate18 : List CStmt := [
  .set (.var .kf) (.exp (.sub (.add (.num 48675344504555822 16) (.mul (.num 25 1) (.rd (.var .logT)))) (.div (.num 25160978242958131 13) (.rd (.var .T))))),
  .set (.arr .fwd 18) (.mul (.mul (.rd (.arr .C 20)) (.rd (.arr .C 2))) (.rd (.var .kf))),
  .ite (.rd (.var .T)) (.num 1000 0) (.var .Kc) (.sub (.add (.add (.num 15285859802000001 15) (.mul (.neg (.num 278544349 8)) (.rd (.var .logT)))) (.mul (.rd (.var .T)) (.add (.num 11662754610000001 18) (.mul (.rd (.var .T)) (.add (.neg (.num 10321794841666667 21)) (.mul (.rd (.var .T)) (.add (.num 54958321508333335 25) (.mul (.neg (.num 12404102405 22)) (.rd (.var .T)))))))))) (.div (.num 11141880600000004 13) (.rd (.var .T)))) (.sub (.add (.add (.neg (.num 14384987819999999 15)) (.mul (.num 250455798 8) (.rd (.var .logT)))) (.mul (.rd (.var .T)) (.add (.neg (.num 27939641851499998 19)) (.mul (.rd (.var .T)) (.add (.num 63219685318333327 23) (.mul (.rd (.var .T)) (.add (.neg (.num 88766343808333338 27)) (.mul (.num 53223480345 25) (.rd (.var .T)))))))))) (.div (.num 14378512000000046 14) (.rd (.var .T)))),
  .set (.var .Kc) (.mul (.num 1 0) (.exp (.rd (.var .Kc)))),
  .set (.arr .rev 18) (.div (.mul (.mul (.rd (.arr .C 19)) (.rd (.arr .C 4))) (.rd (.var .kf))) (.rd (.var .Kc)))]

/-- utilities/mechanisms/gri30/lib/src/rxn_rates.c:236-247 -/
def rate19 : List CStmt := [
  .set (.var .kf) (.num 50000000000 0),
  .set (.arr .fwd 19) (.mul (.mul (.rd (.arr .C 21)) (.rd (.arr .C 2))) (.rd (.var .kf))),
  .ite (.rd (.var .T)) (.num 1000 0) (.var .Kc) (.sub (.add (.add (.neg (.num 36939031699999991 16)) (.mul (.num 10114256899999994 16) (.rd (.var .logT)))) (.mul (.rd (.var .T)) (.add (.neg (.num 52085801994999998 19)) (.mul (.rd (.var .T)) (.add (.num 35269516366666664 22) (.mul (.rd (.var .T)) (.add (.neg (.num 16068215921666667 25)) (.mul (.num 32549881104999994 29) (.rd (.var .T)))))))))) (.div (.neg (.num 39508445000000007 12)) (.rd (.var .T)))) (.sub (.add (.add (.num 20270112800000004 16) (.mul (.neg (.num 14357696000000031 17)) (.rd (.var .logT)))) (.mul (.rd (.var .T)) (.add (.neg (.num 81640189764999981 20)) (.mul (.rd (.var .T)) (.add (.num 1569236991833333 22) (.mul (.rd (.var .T)) (.add (.neg (.num 16233942758333336 27)) (.mul (.num 68690533949999995 32) (.rd (.var .T)))))))))) (.div (.neg (.num 39478080099999992 12)) (.rd (.var .T)))),
  .set (.var .Kc) (.mul (.num 1 0) (.exp (.rd (.var .Kc)))),
  .set (.arr .rev 19) (.div (.mul (.mul (.rd (.arr .C 9)) (.rd (.arr .C 14))) (.rd (.var .kf))) (.rd (.var .Kc)))]

/-- utilities/mechanisms/gri30/lib/src/rxn_rates.c:248-259 -/
def rate20 : List CStmt := [
  .set (.var .kf) (.exp (.sub (.add (.num 95104449644265205 16) (.mul (.num 2 0) (.rd (.var .logT)))) (.div (.num 95611717323240896 14) (.rd (.var .T))))),
  .set (.arr .fwd 20) (.mul (.mul (.rd (.arr .C 22)) (.rd (.arr .C 2))) (.rd (.var .kf))),
  .ite (.rd (.var .T)) (.num 1000 0) (.var .Kc) (.sub (.add (.add (.neg (.num 47226776189999988 16)) (.mul (.num 77477320600000033 17) (.rd (.var .logT)))) (.mul (.rd (.var .T)) (.add (.neg (.num 12136115296473345 19)) (.mul (.rd (.var .T)) (.add (.num 85750275633401335 23) (.mul (.rd (.var .T)) (.add (.neg (.num 38428487147493181 26)) (.mul (.num 66079446453613315 30) (.rd (.var .T)))))))))) (.div (.neg (.num 10018131000000001 12)) (.rd (.var .T)))) (.sub (.add (.add (.neg (.num 93422152339999975 16)) (.mul (.num 14112153899999993 16) (.rd (.var .logT)))) (.mul (.rd (.var .T)) (.add (.neg (.num 89517622469214859 20)) (.mul (.rd (.var .T)) (.add (.num 12292422954269918 23) (.mul (.rd (.var .T)) (.add (.neg (.num 1426115631959603 26)) (.mul (.num 77436764440986807 32) (.rd (.var .T)))))))))) (.div (.neg (.num 10352703400000002 12)) (.rd (.var .T)))),
  .set (.var .Kc) (.mul (.num 1 0) (.exp (.rd (.var .Kc)))),
  .set (.arr .rev 20) (.div (.mul (.mul (.rd (.arr .C 1)) (.rd (.arr .C 27))) (.rd (.var .kf))) (.rd (.var .Kc)))]

/-- utilities/mechanisms/gri30/lib/src/rxn_rates.c:260-271 -/
def rate21 : List CStmt := [
  .set (.var .kf) (.exp (.sub (.sub (.num 38367417791399781 15) (.mul (.num 141 2) (.rd (.var .logT)))) (.div (.num 14568206402672758 12) (.rd (.var .T))))),
  .set (.arr .fwd 21) (.mul (.mul (.rd (.arr .C 22)) (.rd (.arr .C 2))) (.rd (.var .kf))),
  .ite (.rd (.var .T)) (.num 1000 0) (.var .Kc) (.sub (.add (.add (.neg (.num 12777324203999999 15)) (.mul (.num 29047245660000001 16) (.rd (.var .logT)))) (.mul (.rd (.var .T)) (.add (.neg (.num 45368002400000005 19)) (.mul (.rd (.var .T)) (.add (.num 83585097499999984 23) (.mul (.rd (.var .T)) (.add (.num 3092328091666668 25) (.mul (.neg (.num 15904831849999996 29)) (.rd (.var .T)))))))))) (.div (.num 14903233860000008 12) (.rd (.var .T)))) (.sub (.add (.add (.num 80148296499999994 16) (.mul (.neg (.num 45629622999999997 17)) (.rd (.var .logT)))) (.mul (.rd (.var .T)) (.add (.neg (.num 28752189514999986 20)) (.mul (.rd (.var .T)) (.add (.num 10327241985000004 23) (.mul (.rd (.var .T)) (.add (.neg (.num 20095857891666669 27)) (.mul (.num 14456572494999999 31) (.rd (.var .T)))))))))) (.div (.num 15826143700000011 12) (.rd (.var .T)))),
  .set (.var .Kc) (.mul (.num 1 0) (.exp (.rd (.var .Kc)))),
  .set (.arr .rev 21) (.div (.mul (.mul (.rd (.arr .C 21)) (.rd (.arr .C 4))) (.rd (.var .kf))) (.rd (.var .Kc)))]

/-- utilities/mechanisms/gri30/lib/src/rxn_rates.c:272-283 -/
def rate22 : List CStmt := [
  .set (.var .kf) (.exp (.sub (.add (.num 88450570535008506 16) (.mul (.num 2 0) (.rd (.var .logT)))) (.div (.num 95611717323240896 14) (.rd (.var .T))))),
  .set (.arr .fwd 22) (.mul (.mul (.rd (.arr .C 22)) (.rd (.arr .C 2))) (.rd (.var .kf))),
  .ite (.rd (.var .T)) (.num 1000 0) (.var .Kc) (.sub (.add (.add (.neg (.num 14285961375999998 15)) (.mul (.num 33652639460000002 16) (.rd (.var .logT)))) (.mul (.rd (.var .T)) (.add (.neg (.num 98618627984999995 19)) (.mul (.rd (.var .T)) (.add (.num 544763838 14) (.mul (.rd (.var .T)) (.add (.neg (.num 20692569254999999 25)) (.mul (.num 35855313604999996 29) (.rd (.var .T)))))))))) (.div (.neg (.num 23891285800000001 12)) (.rd (.var .T)))) (.sub (.add (.add (.num 1156352721 8) (.mul (.neg (.num 11277036800000007 16)) (.rd (.var .logT)))) (.mul (.rd (.var .T)) (.add (.neg (.num 78386088149999999 21)) (.mul (.rd (.var .T)) (.add (.neg (.num 12795279983333339 24)) (.mul (.rd (.var .T)) (.add (.num 27365138249999962 28) (.mul (.neg (.num 2121171955000002 31)) (.rd (.var .T)))))))))) (.div (.neg (.num 23041846699999998 12)) (.rd (.var .T)))),
  .set (.var .Kc) (.mul (.num 1 0) (.exp (.rd (.var .Kc)))),
  .set (.arr .rev 22) (.div (.mul (.mul (.rd (.arr .C 10)) (.rd (.arr .C 14))) (.rd (.var .kf))) (.rd (.var .Kc)))]

/-- utilities/mechanisms/gri30/lib/src/rxn_rates.c:284-295 -/
def rate23 : List CStmt := [
  .set (.var .kf) (.num 30000000000 0),
  .set (.arr .fwd 23) (.mul (.mul (.rd (.arr .C 23)) (.rd (.arr .C 2))) (.rd (.var .kf))),
  .ite (.rd (.var .T)) (.num 1000 0) (.var .Kc) (.sub (.add (.add (.num 29513886870000001 16) (.mul (.neg (.num 17448972500000002 16)) (.rd (.var .logT)))) (.mul (.rd (.var .T)) (.add (.num 99416996603526649 19) (.mul (.rd (.var .T)) (.add (.neg (.num 83264587603326529 22)) (.mul (.rd (.var .T)) (.add (.num 42698188851917346 25) (.mul (.neg (.num 94211615804638671 29)) (.rd (.var .T)))))))))) (.div (.neg (.num 45551364140000005 12)) (.rd (.var .T)))) (.sub (.add (.add (.neg (.num 13811250679 9)) (.mul (.num 14251525499999995 16) (.rd (.var .logT)))) (.mul (.rd (.var .T)) (.add (.neg (.num 62032882969214893 20)) (.mul (.rd (.var .T)) (.add (.num 78246449542699077 24) (.mul (.rd (.var .T)) (.add (.neg (.num 70224352362626939 28)) (.mul (.num 27742737940986773 32) (.rd (.var .T)))))))))) (.div (.neg (.num 45907846210000003 12)) (.rd (.var .T)))),
  .set (.var .Kc) (.mul (.num 1 0) (.exp (.rd (.var .Kc)))),
  .set (.arr .rev 23) (.div (.mul (.mul (.rd (.arr .C 1)) (.rd (.arr .C 28))) (.rd (.var .kf))) (.rd (.var .Kc)))]

/-- utilities/mechanisms/gri30/lib/src/rxn_rates.c:296-307 -/
def rate24 : List CStmt := [
  .set (.var .kf) (.exp (.sub (.add (.num 94334839232903924 16) (.mul (.num 183 2) (.rd (.var .logT)))) (.div (.num 11070830426901578 14) (.rd (.var .T))))),
  .set (.arr .fwd 24) (.mul (.mul (.rd (.arr .C 24)) (.rd (.arr .C 2))) (.rd (.var .kf))),
  .ite (.rd (.var .T)) (.num 1000 0) (.var .Kc) (.sub (.add (.add (.neg (.num 191763532 8)) (.mul (.num 76730766000000061 17) (.rd (.var .logT)))) (.mul (.rd (.var .T)) (.add (.num 480843387 11) (.mul (.rd (.var .T)) (.add (.neg (.num 73719883333333335 22)) (.mul (.rd (.var .T)) (.add (.num 45917798324999999 25) (.mul (.neg (.num 11109775510000001 28)) (.rd (.var .T)))))))))) (.div (.neg (.num 13927471369999999 12)) (.rd (.var .T)))) (.sub (.add (.add (.num 2736348609999999 15) (.mul (.num 45236016000000001 17) (.rd (.var .logT)))) (.mul (.rd (.var .T)) (.add (.neg (.num 11812926781500001 19)) (.mul (.rd (.var .T)) (.add (.num 1995385135166667 22) (.mul (.rd (.var .T)) (.add (.neg (.num 23113752341666686 27)) (.mul (.num 12205706794999998 31) (.rd (.var .T)))))))))) (.div (.neg (.num 13369962789999998 12)) (.rd (.var .T)))),
  .set (.var .Kc) (.mul (.num 1 0) (.exp (.rd (.var .Kc)))),
  .set (.arr .rev 24) (.div (.mul (.mul (.rd (.arr .C 12)) (.rd (.arr .C 16))) (.rd (.var .kf))) (.rd (.var .Kc)))]

/-- utilities/mechanisms/gri30/lib/src/rxn_rates.c:308-319 -/
def rate25 : List CStmt := [
  .set (.var .kf) (.num 22400000000 0),
  .set (.arr .fwd 25) (.mul (.mul (.rd (.arr .C 25)) (.rd (.arr .C 2))) (.rd (.var .kf))),
  .ite (.rd (.var .T)) (.num 1000 0) (.var .Kc) (.sub (.add (.add (.neg (.num 55443462399999994 16)) (.mul (.num 99258077000000045 17) (.rd (.var .logT)))) (.mul (.rd (.var .T)) (.add (.neg (.num 21573708999999977 20)) (.mul (.rd (.var .T)) (.add (.neg (.num 22175208833333346 22)) (.mul (.rd (.var .T)) (.add (.num 17700855408333336 25) (.mul (.neg (.num 47212187850000007 29)) (.rd (.var .T)))))))))) (.div (.neg (.num 398278436 4)) (.rd (.var .T)))) (.sub (.add (.add (.num 4367291250000001 15) (.mul (.neg (.num 47766940000000035 17)) (.rd (.var .logT)))) (.mul (.rd (.var .T)) (.add (.neg (.num 43569844814999968 20)) (.mul (.rd (.var .T)) (.add (.num 88397768516666726 24) (.mul (.rd (.var .T)) (.add (.neg (.num 11671862174999995 27)) (.mul (.num 66561178449999901 32) (.rd (.var .T)))))))))) (.div (.neg (.num 39295347099999999 12)) (.rd (.var .T)))),
  .set (.var .Kc) (.mul (.num 1 0) (.exp (.rd (.var .Kc)))),
  .set (.arr .rev 25) (.div (.mul (.mul (.rd (.arr .C 17)) (.rd (.arr .C 12))) (.rd (.var .kf))) (.rd (.var .Kc)))]

/-- utilities/mechanisms/gri30/lib/src/rxn_rates.c:320-331 -/
def rate26 : List CStmt := [
  .set (.var .kf) (.exp (.sub (.add (.num 11405340254290291 15) (.mul (.num 192 2) (.rd (.var .logT)))) (.div (.num 28633193240486353 13) (.rd (.var .T))))),
  .set (.arr .fwd 26) (.mul (.mul (.rd (.arr .C 26)) (.rd (.arr .C 2))) (.rd (.var .kf))),
  .ite (.rd (.var .T)) (.num 1000 0) (.var .Kc) (.sub (.add (.add (.neg (.num 95426192799999976 17)) (.mul (.num 83878908999999924 17) (.rd (.var .logT)))) (.mul (.rd (.var .T)) (.add (.num 10964775499999993 19) (.mul (.rd (.var .T)) (.add (.neg (.num 2042445608333335 21)) (.mul (.rd (.var .T)) (.add (.num 10984084008333345 25) (.mul (.neg (.num 22831108549999995 29)) (.rd (.var .T)))))))))) (.div (.neg (.num 11433466399999998 13)) (.rd (.var .T)))) (.sub (.add (.add (.neg (.num 33670607499999998 16)) (.mul (.num 140624181 8) (.rd (.var .logT)))) (.mul (.rd (.var .T)) (.add (.neg (.num 18267958351500004 19)) (.mul (.rd (.var .T)) (.add (.num 35468279818333322 23) (.mul (.rd (.var .T)) (.add (.neg (.num 44989291308333346 27)) (.mul (.num 25437107345000002 31) (.rd (.var .T)))))))))) (.div (.neg (.num 10750088999999971 13)) (.rd (.var .T)))),
  .set (.var .Kc) (.mul (.num 1 0) (.exp (.rd (.var .Kc)))),
  .set (.arr .rev 26) (.div (.mul (.mul (.rd (.arr .C 25)) (.rd (.arr .C 4))) (.rd (.var .kf))) (.rd (.var .Kc)))]

/-- utilities/mechanisms/gri30/lib/src/rxn_rates.c:332-343 -/
def rate27 : List CStmt := [
  .set (.var .kf) (.num 100000000000 0),
  .set (.arr .fwd 27) (.mul (.mul (.rd (.arr .C 27)) (.rd (.arr .C 2))) (.rd (.var .kf))),
  .ite (.rd (.var .T)) (.num 1000 0) (.var .Kc) (.sub (.add (.add (.neg (.num 12211293192999999 15)) (.mul (.num 32390784399999997 16) (.rd (.var .logT)))) (.mul (.rd (.var .T)) (.add (.neg (.num 77982047596473342 19)) (.mul (.rd (.var .T)) (.add (.num 31866109496673467 22) (.mul (.rd (.var .T)) (.add (.neg (.num 77780674914159882 26)) (.mul (.num 57248619553613431 30) (.rd (.var .T)))))))))) (.div (.neg (.num 52396220300000001 12)) (.rd (.var .T)))) (.sub (.add (.add (.num 14603868735999999 15) (.mul (.neg (.num 12672553500000006 16)) (.rd (.var .logT)))) (.mul (.rd (.var .T)) (.add (.num 62844425307851325 21) (.mul (.rd (.var .T)) (.add (.neg (.num 74357547457300893 24)) (.mul (.rd (.var .T)) (.add (.num 153219392637373 25) (.mul (.neg (.num 11275023805901323 31)) (.rd (.var .T)))))))))) (.div (.neg (.num 51374879000000001 12)) (.rd (.var .T)))),
  .set (.var .Kc) (.mul (.num 12186597134166982 15) (.exp (.rd (.var .Kc)))),
  .set (.arr .rev 27) (.div (.mul (.mul (.mul (.rd (.arr .C 1)) (.rd (.arr .C 14))) (.rd (.arr .C 14))) (.rd (.var .kf))) (.rd (.var .Kc)))]

/-- utilities/mechanisms/gri30/lib/src/rxn_rates.c:344-355 -/
def rate28 : List CStmt := [
  .set (.var .kf) (.exp (.sub (.num 23025850929940457 15) (.div (.num 4025756518873301 12) (.rd (.var .T))))),
  .set (.arr .fwd 28) (.mul (.mul (.rd (.arr .C 28)) (.rd (.arr .C 2))) (.rd (.var .kf))),
  .ite (.rd (.var .T)) (.num 1000 0) (.var .Kc) (.sub (.add (.add (.neg (.num 28207233480000009 16)) (.mul (.num 93963342999999977 17) (.rd (.var .logT)))) (.mul (.rd (.var .T)) (.add (.num 20707511000000057 20) (.mul (.rd (.var .T)) (.add (.neg (.num 1393246525 15)) (.mul (.rd (.var .T)) (.add (.num 84822635250000012 26) (.mul (.neg (.num 19002249800000002 29)) (.rd (.var .T)))))))))) (.div (.num 15951883999999991 13) (.rd (.var .T)))) (.sub (.add (.add (.neg (.num 65105246149999996 16)) (.mul (.num 16403753699999997 16) (.rd (.var .logT)))) (.mul (.rd (.var .T)) (.add (.neg (.num 21419267601499995 19)) (.mul (.rd (.var .T)) (.add (.num 4434164031833333 22) (.mul (.rd (.var .T)) (.add (.neg (.num 59584478141666664 27)) (.mul (.num 35294444394999998 31) (.rd (.var .T)))))))))) (.div (.num 15193460100000011 13) (.rd (.var .T)))),
  .set (.var .Kc) (.mul (.num 1 0) (.exp (.rd (.var .Kc)))),
  .set (.arr .rev 28) (.div (.mul (.mul (.rd (.arr .C 27)) (.rd (.arr .C 4))) (.rd (.var .kf))) (.rd (.var .Kc)))]

/-- utilities/mechanisms/gri30/lib/src/rxn_rates.c:356-367 -/
def rate29 : List CStmt := [
  .set (.var .kf) (.exp (.sub (.num 21282881624881835 15) (.div (.num 67934641255986958 14) (.rd (.var .T))))),
  .set (.arr .fwd 29) (.mul (.mul (.rd (.arr .C 28)) (.rd (.arr .C 2))) (.rd (.var .kf))),
  .ite (.rd (.var .T)) (.num 1000 0) (.var .Kc) (.sub (.add (.add (.neg (.num 36193461799999995 16)) (.mul (.num 81534879000000071 17) (.rd (.var .logT)))) (.mul (.rd (.var .T)) (.add (.neg (.num 24430421734999994 19)) (.mul (.rd (.var .T)) (.add (.num 10705031933333333 22) (.mul (.rd (.var .T)) (.add (.neg (.num 38396922916666666 26)) (.mul (.num 72281704100000014 30) (.rd (.var .T)))))))))) (.div (.neg (.num 24447270760000003 12)) (.rd (.var .T)))) (.sub (.add (.add (.num 33754021350000003 16) (.mul (.neg (.num 34915667999999966 17)) (.rd (.var .logT)))) (.mul (.rd (.var .T)) (.add (.neg (.num 42343007815000012 20)) (.mul (.rd (.var .T)) (.add (.num 83947980183333226 24) (.mul (.rd (.var .T)) (.add (.neg (.num 10804863758333335 27)) (.mul (.num 6137155045 25) (.rd (.var .T)))))))))) (.div (.neg (.num 24162087989999996 12)) (.rd (.var .T)))),
  .set (.var .Kc) (.mul (.num 1 0) (.exp (.rd (.var .Kc)))),
  .set (.arr .rev 29) (.div (.mul (.mul (.rd (.arr .C 10)) (.rd (.arr .C 15))) (.rd (.var .kf))) (.rd (.var .Kc)))]

/-- utilities/mechanisms/gri30/lib/src/rxn_rates.c:368-379 -/
def rate30 : List CStmt := [
  .set (.var .kf) (.exp (.sub (.num 21639556568820566 15) (.div (.num 24053895200267973 12) (.rd (.var .T))))),
  .set (.arr .fwd 30) (.mul (.mul (.rd (.arr .C 14)) (.rd (.arr .C 3))) (.rd (.var .kf))),
  .ite (.rd (.var .T)) (.num 1000 0) (.var .Kc) (.sub (.add (.add (.num 66238498800000007 16) (.mul (.neg (.num 18369492099999998 16)) (.rd (.var .logT)))) (.mul (.rd (.var .T)) (.add (.num 46561828850000004 19) (.mul (.rd (.var .T)) (.add (.neg (.num 18907691783333333 22)) (.mul (.rd (.var .T)) (.add (.num 42545109883333335 26) (.mul (.neg (.num 18517185450000013 30)) (.rd (.var .T)))))))))) (.div (.neg (.num 3841680940000002 12)) (.rd (.var .T)))) (.sub (.add (.add (.neg (.num 66450999300000007 16)) (.mul (.num 42915762000000068 17) (.rd (.var .logT)))) (.mul (.rd (.var .T)) (.add (.num 39139058814999987 20) (.mul (.rd (.var .T)) (.add (.neg (.num 6934552351666668 23)) (.mul (.rd (.var .T)) (.add (.num 61624037583333416 28) (.mul (.neg (.num 19717642450000007 32)) (.rd (.var .T)))))))))) (.div (.neg (.num 43012567799999979 13)) (.rd (.var .T)))),
  .set (.var .Kc) (.mul (.num 1 0) (.exp (.rd (.var .Kc)))),
  .set (.arr .rev 30) (.div (.mul (.mul (.rd (.arr .C 15)) (.rd (.arr .C 2))) (.rd (.var .kf))) (.rd (.var .Kc)))]

/-- utilities/mechanisms/gri30/lib/src/rxn_rates.c:380-391 -/
def rate31 : List CStmt := [
  .set (.var .kf) (.exp (.sub (.num 25328436022934504 15) (.div (.num 20128782594366505 12) (.rd (.var .T))))),
  .set (.arr .fwd 31) (.mul (.mul (.rd (.arr .C 17)) (.rd (.arr .C 3))) (.rd (.var .kf))),
  .ite (.rd (.var .T)) (.num 1000 0) (.var .Kc) (.sub (.add (.add (.num 29037419099999999 16) (.mul (.neg (.num 53195659999999645 18)) (.rd (.var .logT)))) (.mul (.rd (.var .T)) (.add (.num 24560110100000001 19) (.mul (.rd (.var .T)) (.add (.neg (.num 20385115183333334 22)) (.mul (.rd (.var .T)) (.add (.num 83491854083333324 26) (.mul (.neg (.num 13955268399999999 29)) (.rd (.var .T)))))))))) (.div (.num 19507273260000002 12) (.rd (.var .T)))) (.sub (.add (.add (.neg (.num 72722645800000008 16)) (.mul (.num 17461573600000007 16) (.rd (.var .logT)))) (.mul (.rd (.var .T)) (.add (.neg (.num 17431564849999998 19)) (.mul (.rd (.var .T)) (.add (.num 34374008649999998 23) (.mul (.rd (.var .T)) (.add (.neg (.num 42706210583333322 27)) (.mul (.num 22957809400000002 31) (.rd (.var .T)))))))))) (.div (.num 19208064882999999 12) (.rd (.var .T)))),
  .set (.var .Kc) (.mul (.num 1 0) (.exp (.rd (.var .Kc)))),
  .set (.arr .rev 31) (.div (.mul (.mul (.rd (.arr .C 6)) (.rd (.arr .C 16))) (.rd (.var .kf))) (.rd (.var .Kc)))]

/-- utilities/mechanisms/gri30/lib/src/rxn_rates.c:392-403 -/
def rate32 : List CStmt := [
  .set (.var .kf) (.exp (.sub (.num 28660640533109706 15) (.mul (.num 86 2) (.rd (.var .logT))))),
  .set (.arr .fwd 32) (.mul (.mul (.rd (.arr .C 1)) (.rd (.arr .C 3))) (.rd (.var .kf))),
  .ite (.rd (.var .T)) (.num 1000 0) (.var .Kc) (.sub (.add (.add (.num 24863279230000002 16) (.mul (.neg (.num 98065835000000012 17)) (.rd (.var .logT)))) (.mul (.rd (.var .T)) (.add (.neg (.num 87619317535266614 20)) (.mul (.rd (.var .T)) (.add (.num 18851645153326528 22) (.mul (.rd (.var .T)) (.add (.neg (.num 12162578593584016 25)) (.mul (.num 3024261435463867 28) (.rd (.var .T)))))))))) (.div (.neg (.num 24114908299999999 12)) (.rd (.var .T)))) (.sub (.add (.add (.num 54388072400000009 17) (.mul (.neg (.num 76532694999999951 17)) (.rd (.var .logT)))) (.mul (.rd (.var .T)) (.add (.num 37836630654214875 20) (.mul (.rd (.var .T)) (.add (.num 20718083807300866 24) (.mul (.rd (.var .T)) (.add (.neg (.num 79353483554039681 28)) (.mul (.num 54404627009013211 32) (.rd (.var .T)))))))))) (.div (.neg (.num 24273345466999999 12)) (.rd (.var .T)))),
  .set (.var .Kc) (.mul (.num 82057360967184814 18) (.exp (.rd (.var .Kc)))),
  .set (.arr .rev 32) (.div (.mul (.rd (.arr .C 6)) (.rd (.var .kf))) (.rd (.var .Kc)))]

/-- utilities/mechanisms/gri30/lib/src/rxn_rates.c:404-415 -/
def rate33 : List CStmt := [
  .set (.var .kf) (.exp (.sub (.num 30665974102635822 15) (.mul (.num 124 2) (.rd (.var .logT))))),
  .set (.arr .fwd 33) (.mul (.mul (.mul (.rd (.arr .C 1)) (.rd (.arr .C 3))) (.rd (.arr .C 3))) (.rd (.var .kf))),
  .ite (.rd (.var .T)) (.num 1000 0) (.var .Kc) (.sub (.add (.add (.num 24863279230000002 16) (.mul (.neg (.num 98065835000000012 17)) (.rd (.var .logT)))) (.mul (.rd (.var .T)) (.add (.neg (.num 87619317535266624 20)) (.mul (.rd (.var .T)) (.add (.num 1885164515332653 21) (.mul (.rd (.var .T)) (.add (.neg (.num 12162578593584016 25)) (.mul (.num 3024261435463867 28) (.rd (.var .T)))))))))) (.div (.neg (.num 24114908299999999 12)) (.rd (.var .T)))) (.sub (.add (.add (.num 54388072400000009 17) (.mul (.neg (.num 76532694999999951 17)) (.rd (.var .logT)))) (.mul (.rd (.var .T)) (.add (.num 37836630654214864 20) (.mul (.rd (.var .T)) (.add (.num 20718083807300862 24) (.mul (.rd (.var .T)) (.add (.neg (.num 79353483554039681 28)) (.mul (.num 54404627009013211 32) (.rd (.var .T)))))))))) (.div (.neg (.num 24273345466999999 12)) (.rd (.var .T)))),
  .set (.var .Kc) (.mul (.num 82057360967184814 18) (.exp (.rd (.var .Kc)))),
  .set (.arr .rev 33) (.div (.mul (.mul (.rd (.arr .C 6)) (.rd (.arr .C 3))) (.rd (.var .kf))) (.rd (.var .Kc)))]

/-- utilities/mechanisms/gri30/lib/src/rxn_rates.c:416-427 -/
def rate34 : List CStmt := [
  .set (.var .kf) (.exp (.sub (.num 30052277738640093 15) (.mul (.num 76 2) (.rd (.var .logT))))),
  .set (.arr .fwd 34) (.mul (.mul (.mul (.rd (.arr .C 1)) (.rd (.arr .C 5))) (.rd (.arr .C 3))) (.rd (.var .kf))),
  .ite (.rd (.var .T)) (.num 1000 0) (.var .Kc) (.sub (.add (.add (.num 24863279230000002 16) (.mul (.neg (.num 98065835000000012 17)) (.rd (.var .logT)))) (.mul (.rd (.var .T)) (.add (.neg (.num 87619317535266614 20)) (.mul (.rd (.var .T)) (.add (.num 18851645153326528 22) (.mul (.rd (.var .T)) (.add (.neg (.num 12162578593584016 25)) (.mul (.num 3024261435463867 28) (.rd (.var .T)))))))))) (.div (.neg (.num 24114908299999999 12)) (.rd (.var .T)))) (.sub (.add (.add (.num 54388072400000009 17) (.mul (.neg (.num 76532694999999951 17)) (.rd (.var .logT)))) (.mul (.rd (.var .T)) (.add (.num 37836630654214875 20) (.mul (.rd (.var .T)) (.add (.num 20718083807300866 24) (.mul (.rd (.var .T)) (.add (.neg (.num 79353483554039681 28)) (.mul (.num 54404627009013211 32) (.rd (.var .T)))))))))) (.div (.neg (.num 24273345466999999 12)) (.rd (.var .T)))),
  .set (.var .Kc) (.mul (.num 82057360967184814 18) (.exp (.rd (.var .Kc)))),
  .set (.arr .rev 34) (.div (.mul (.mul (.rd (.arr .C 5)) (.rd (.arr .C 6))) (.rd (.var .kf))) (.rd (.var .Kc)))]

/-- utilities/mechanisms/gri30/lib/src/rxn_rates.c:428-439 -/
def rate35 : List CStmt := [
  .set (.var .kf) (.exp (.sub (.num 30889117653950031 15) (.mul (.num 124 2) (.rd (.var .logT))))),
  .set (.arr .fwd 35) (.mul (.mul (.mul (.rd (.arr .C 1)) (.rd (.arr .C 52))) (.rd (.arr .C 3))) (.rd (.var .kf))),
  .ite (.rd (.var .T)) (.num 1000 0) (.var .Kc) (.sub (.add (.add (.num 24863279230000002 16) (.mul (.neg (.num 98065835000000012 17)) (.rd (.var .logT)))) (.mul (.rd (.var .T)) (.add (.neg (.num 87619317535266614 20)) (.mul (.rd (.var .T)) (.add (.num 18851645153326528 22) (.mul (.rd (.var .T)) (.add (.neg (.num 12162578593584016 25)) (.mul (.num 3024261435463867 28) (.rd (.var .T)))))))))) (.div (.neg (.num 24114908299999999 12)) (.rd (.var .T)))) (.sub (.add (.add (.num 54388072400000009 17) (.mul (.neg (.num 76532694999999951 17)) (.rd (.var .logT)))) (.mul (.rd (.var .T)) (.add (.num 37836630654214875 20) (.mul (.rd (.var .T)) (.add (.num 20718083807300866 24) (.mul (.rd (.var .T)) (.add (.neg (.num 79353483554039681 28)) (.mul (.num 54404627009013211 32) (.rd (.var .T)))))))))) (.div (.neg (.num 24273345466999999 12)) (.rd (.var .T)))),
  .set (.var .Kc) (.mul (.num 82057360967184814 18) (.exp (.rd (.var .Kc)))),
  .set (.arr .rev 35) (.div (.mul (.mul (.rd (.arr .C 52)) (.rd (.arr .C 6))) (.rd (.var .kf))) (.rd (.var .Kc)))]

/-- utilities/mechanisms/gri30/lib/src/rxn_rates.c:440-451 -/
def rate36 : List CStmt := [
  .set (.var .kf) (.exp (.sub (.num 27274346171989816 15) (.mul (.num 8 1) (.rd (.var .logT))))),
  .set (.arr .fwd 36) (.mul (.mul (.mul (.rd (.arr .C 1)) (.rd (.arr .C 47))) (.rd (.arr .C 3))) (.rd (.var .kf))),
  .ite (.rd (.var .T)) (.num 1000 0) (.var .Kc) (.sub (.add (.add (.num 24863279230000002 16) (.mul (.neg (.num 98065835000000012 17)) (.rd (.var .logT)))) (.mul (.rd (.var .T)) (.add (.neg (.num 87619317535266614 20)) (.mul (.rd (.var .T)) (.add (.num 18851645153326528 22) (.mul (.rd (.var .T)) (.add (.neg (.num 12162578593584016 25)) (.mul (.num 3024261435463867 28) (.rd (.var .T)))))))))) (.div (.neg (.num 24114908299999999 12)) (.rd (.var .T)))) (.sub (.add (.add (.num 54388072400000009 17) (.mul (.neg (.num 76532694999999951 17)) (.rd (.var .logT)))) (.mul (.rd (.var .T)) (.add (.num 37836630654214875 20) (.mul (.rd (.var .T)) (.add (.num 20718083807300866 24) (.mul (.rd (.var .T)) (.add (.neg (.num 79353483554039681 28)) (.mul (.num 54404627009013211 32) (.rd (.var .T)))))))))) (.div (.neg (.num 24273345466999999 12)) (.rd (.var .T)))),
  .set (.var .Kc) (.mul (.num 82057360967184814 18) (.exp (.rd (.var .Kc)))),
  .set (.arr .rev 36) (.div (.mul (.mul (.rd (.arr .C 47)) (.rd (.arr .C 6))) (.rd (.var .kf))) (.rd (.var .Kc)))]

/-- utilities/mechanisms/gri30/lib/src/rxn_rates.c:452-463 -/
def rate37 : List CStmt := [
  .set (.var .kf) (.exp (.sub (.sub (.num 30908165848920724 15) (.mul (.num 6707 4) (.rd (.var .logT)))) (.div (.num 85753646047649909 13) (.rd (.var .T))))),
  .set (.arr .fwd 37) (.mul (.mul (.rd (.arr .C 1)) (.rd (.arr .C 3))) (.rd (.var .kf))),
  .ite (.rd (.var .T)) (.num 1000 0) (.var .Kc) (.sub (.add (.add (.neg (.num 2140811045 9)) (.mul (.num 87782617000000007 17) (.rd (.var .logT)))) (.mul (.rd (.var .T)) (.add (.neg (.num 13419511003526661 19)) (.mul (.rd (.var .T)) (.add (.num 23561672699931997 23) (.mul (.rd (.var .T)) (.add (.neg (.num 27325373525067921 27)) (.mul (.num 1165230204638662 29) (.rd (.var .T)))))))))) (.div (.num 83276234199999999 13) (.rd (.var .T)))) (.sub (.add (.add (.num 43747157639999994 16) (.mul (.neg (.num 12022939999999949 17)) (.rd (.var .logT)))) (.mul (.rd (.var .T)) (.add (.neg (.num 51031595730785138 20)) (.mul (.rd (.var .T)) (.add (.num 15440338995730085 23) (.mul (.rd (.var .T)) (.add (.neg (.num 25619540480403969 27)) (.mul (.num 1732067670590132 30) (.rd (.var .T)))))))))) (.div (.num 86910339200000035 13) (.rd (.var .T)))),
  .set (.var .Kc) (.mul (.num 1 0) (.exp (.rd (.var .Kc)))),
  .set (.arr .rev 37) (.div (.mul (.mul (.rd (.arr .C 2)) (.rd (.arr .C 4))) (.rd (.var .kf))) (.rd (.var .Kc)))]

/-- utilities/mechanisms/gri30/lib/src/rxn_rates.c:464-475 -/
def rate38 : List CStmt := [
  .set (.var .kf) (.exp (.sub (.num 27631021115928547 15) (.mul (.num 1 0) (.rd (.var .logT))))),
  .set (.arr .fwd 38) (.mul (.mul (.rd (.arr .C 1)) (.rd (.arr .C 1))) (.rd (.var .kf))),
  .ite (.rd (.var .T)) (.num 1000 0) (.var .Kc) (.sub (.add (.add (.num 42320448239999999 16) (.mul (.neg (.num 16556688799999999 16)) (.rd (.var .logT)))) (.mul (.rd (.var .T)) (.add (.num 39902603742946671 19) (.mul (.rd (.var .T)) (.add (.neg (.num 32463584993346931 22)) (.mul (.rd (.var .T)) (.add (.num 16797674496165307 25) (.mul (.neg (.num 36880588040722682 29)) (.rd (.var .T)))))))))) (.div (.neg (.num 51865254972999996 12)) (.rd (.var .T)))) (.sub (.add (.add (.neg (.num 64893666199999966 17)) (.mul (.neg (.num 6627208200000001 16)) (.rd (.var .logT)))) (.mul (.rd (.var .T)) (.add (.neg (.num 24701213465702698 21)) (.mul (.rd (.var .T)) (.add (.num 83242790947935064 24) (.mul (.rd (.var .T)) (.add (.neg (.num 1496386537747461 26)) (.mul (.num 10012768301802643 31) (.rd (.var .T)))))))))) (.div (.neg (.num 51897478722 6)) (.rd (.var .T)))),
  .set (.var .Kc) (.mul (.num 82057360967184814 18) (.exp (.rd (.var .Kc)))),
  .set (.arr .rev 38) (.div (.mul (.rd (.arr .C 0)) (.rd (.var .kf))) (.rd (.var .Kc)))]

/-- utilities/mechanisms/gri30/lib/src/rxn_rates.c:476-487 -/
def rate39 : List CStmt := [
  .set (.var .kf) (.exp (.sub (.num 25223075507276675 15) (.mul (.num 6 1) (.rd (.var .logT))))),
  .set (.arr .fwd 39) (.mul (.mul (.mul (.rd (.arr .C 0)) (.rd (.arr .C 1))) (.rd (.arr .C 1))) (.rd (.var .kf))),
  .ite (.rd (.var .T)) (.num 1000 0) (.var .Kc) (.sub (.add (.add (.num 42320448239999999 16) (.mul (.neg (.num 16556688799999999 16)) (.rd (.var .logT)))) (.mul (.rd (.var .T)) (.add (.num 39902603742946671 19) (.mul (.rd (.var .T)) (.add (.neg (.num 32463584993346931 22)) (.mul (.rd (.var .T)) (.add (.num 16797674496165307 25) (.mul (.neg (.num 36880588040722682 29)) (.rd (.var .T)))))))))) (.div (.neg (.num 51865254972999996 12)) (.rd (.var .T)))) (.sub (.add (.add (.neg (.num 64893666199999966 17)) (.mul (.neg (.num 6627208200000001 16)) (.rd (.var .logT)))) (.mul (.rd (.var .T)) (.add (.neg (.num 24701213465702698 21)) (.mul (.rd (.var .T)) (.add (.num 83242790947935064 24) (.mul (.rd (.var .T)) (.add (.neg (.num 1496386537747461 26)) (.mul (.num 10012768301802643 31) (.rd (.var .T)))))))))) (.div (.neg (.num 51897478722 6)) (.rd (.var .T)))),
  .set (.var .Kc) (.mul (.num 82057360967184814 18) (.exp (.rd (.var .Kc)))),
  .set (.arr .rev 39) (.div (.mul (.mul (.rd (.arr .C 0)) (.rd (.arr .C 0))) (.rd (.var .kf))) (.rd (.var .Kc)))]

/-- utilities/mechanisms/gri30/lib/src/rxn_rates.c:488-499 -/
def rate40 : List CStmt := [
  .set (.var .kf) (.exp (.sub (.num 31725365678150649 15) (.mul (.num 125 2) (.rd (.var .logT))))),
  .set (.arr .fwd 40) (.mul (.mul (.mul (.rd (.arr .C 1)) (.rd (.arr .C 1))) (.rd (.arr .C 5))) (.rd (.var .kf))),
  .ite (.rd (.var .T)) (.num 1000 0) (.var .Kc) (.sub (.add (.add (.num 42320448239999999 16) (.mul (.neg (.num 16556688799999999 16)) (.rd (.var .logT)))) (.mul (.rd (.var .T)) (.add (.num 39902603742946671 19) (.mul (.rd (.var .T)) (.add (.neg (.num 32463584993346931 22)) (.mul (.rd (.var .T)) (.add (.num 16797674496165307 25) (.mul (.neg (.num 36880588040722682 29)) (.rd (.var .T)))))))))) (.div (.neg (.num 51865254972999996 12)) (.rd (.var .T)))) (.sub (.add (.add (.neg (.num 64893666199999966 17)) (.mul (.neg (.num 6627208200000001 16)) (.rd (.var .logT)))) (.mul (.rd (.var .T)) (.add (.neg (.num 24701213465702698 21)) (.mul (.rd (.var .T)) (.add (.num 83242790947935064 24) (.mul (.rd (.var .T)) (.add (.neg (.num 1496386537747461 26)) (.mul (.num 10012768301802643 31) (.rd (.var .T)))))))))) (.div (.neg (.num 51897478722 6)) (.rd (.var .T)))),
  .set (.var .Kc) (.mul (.num 82057360967184814 18) (.exp (.rd (.var .Kc)))),
  .set (.arr .rev 40) (.div (.mul (.mul (.rd (.arr .C 0)) (.rd (.arr .C 5))) (.rd (.var .kf))) (.rd (.var .Kc)))]

/-- utilities/mechanisms/gri30/lib/src/rxn_rates.c:500-511 -/
def rate41 : List CStmt := [
  .set (.var .kf) (.exp (.sub (.num 33940939394155066 15) (.mul (.num 2 0) (.rd (.var .logT))))),
  .set (.arr .fwd 41) (.mul (.mul (.mul (.rd (.arr .C 1)) (.rd (.arr .C 1))) (.rd (.arr .C 15))) (.rd (.var .kf))),
  .ite (.rd (.var .T)) (.num 1000 0) (.var .Kc) (.sub (.add (.add (.num 42320448239999999 16) (.mul (.neg (.num 16556688799999999 16)) (.rd (.var .logT)))) (.mul (.rd (.var .T)) (.add (.num 39902603742946671 19) (.mul (.rd (.var .T)) (.add (.neg (.num 32463584993346931 22)) (.mul (.rd (.var .T)) (.add (.num 16797674496165307 25) (.mul (.neg (.num 36880588040722682 29)) (.rd (.var .T)))))))))) (.div (.neg (.num 51865254972999996 12)) (.rd (.var .T)))) (.sub (.add (.add (.neg (.num 64893666199999966 17)) (.mul (.neg (.num 6627208200000001 16)) (.rd (.var .logT)))) (.mul (.rd (.var .T)) (.add (.neg (.num 24701213465702698 21)) (.mul (.rd (.var .T)) (.add (.num 83242790947935064 24) (.mul (.rd (.var .T)) (.add (.neg (.num 1496386537747461 26)) (.mul (.num 10012768301802643 31) (.rd (.var .T)))))))))) (.div (.neg (.num 51897478722 6)) (.rd (.var .T)))),
  .set (.var .Kc) (.mul (.num 82057360967184814 18) (.exp (.rd (.var .Kc)))),
  .set (.arr .rev 41) (.div (.mul (.mul (.rd (.arr .C 0)) (.rd (.arr .C 15))) (.rd (.var .kf))) (.rd (.var .Kc)))]

/-- utilities/mechanisms/gri30/lib/src/rxn_rates.c:512-523 -/
def rate42 : List CStmt := [
  .set (.var .kf) (.exp (.sub (.num 37629818848269004 15) (.mul (.num 2 0) (.rd (.var .logT))))),
  .set (.arr .fwd 42) (.mul (.mul (.rd (.arr .C 1)) (.rd (.arr .C 4))) (.rd (.var .kf))),
  .ite (.rd (.var .T)) (.num 1000 0) (.var .Kc) (.sub (.add (.add (.num 19949509730000003 16) (.mul (.neg (.num 12933748699999996 16)) (.rd (.var .logT)))) (.mul (.rd (.var .T)) (.add (.num 1824417096473335 19) (.mul (.rd (.var .T)) (.add (.num 31707728366598672 23) (.mul (.rd (.var .T)) (.add (.neg (.num 13390310769173469 26)) (.mul (.num 20393173546386613 30) (.rd (.var .T)))))))))) (.div (.neg (.num 5938246716 5)) (.rd (.var .T)))) (.sub (.add (.add (.num 34956521039999999 16) (.mul (.neg (.num 15588951899999999 16)) (.rd (.var .logT)))) (.mul (.rd (.var .T)) (.add (.num 81424417354214885 20) (.mul (.rd (.var .T)) (.add (.neg (.num 4842962702603246 23)) (.mul (.rd (.var .T)) (.add (.neg (.num 75798555540397048 29)) (.mul (.num 25394305509013217 32) (.rd (.var .T)))))))))) (.div (.neg (.num 59336613999999994 12)) (.rd (.var .T)))),
  .set (.var .Kc) (.mul (.num 82057360967184814 18) (.exp (.rd (.var .Kc)))),
  .set (.arr .rev 42) (.div (.mul (.rd (.arr .C 5)) (.rd (.var .kf))) (.rd (.var .Kc)))]

/-- utilities/mechanisms/gri30/lib/src/rxn_rates.c:524-535 -/
def rate43 : List CStmt := [
  .set (.var .kf) (.exp (.sub (.num 22102031931645509 15) (.div (.num 33766032802049813 14) (.rd (.var .T))))),
  .set (.arr .fwd 43) (.mul (.mul (.rd (.arr .C 1)) (.rd (.arr .C 6))) (.rd (.var .kf))),
  .ite (.rd (.var .T)) (.num 1000 0) (.var .Kc) (.sub (.add (.add (.neg (.num 26321879950000007 16)) (.mul (.num 56510965000000102 17) (.rd (.var .logT)))) (.mul (.rd (.var .T)) (.add (.neg (.num 28331621535266629 20)) (.mul (.rd (.var .T)) (.add (.neg (.num 13324705046673464 22)) (.mul (.rd (.var .T)) (.add (.num 10550293781415989 25) (.mul (.neg (.num 27038066795361348 29)) (.rd (.var .T)))))))))) (.div (.neg (.num 26939935439999997 12)) (.rd (.var .T)))) (.sub (.add (.add (.num 73264871439999988 16) (.mul (.neg (.num 91379763999999986 17)) (.rd (.var .logT)))) (.mul (.rd (.var .T)) (.add (.neg (.num 74438090307851063 21)) (.mul (.rd (.var .T)) (.add (.num 85255679123967526 24) (.mul (.rd (.var .T)) (.add (.neg (.num 18442177680403972 27)) (.mul (.num 14419644555901321 31) (.rd (.var .T)))))))))) (.div (.neg (.num 26372234613000001 12)) (.rd (.var .T)))),
  .set (.var .Kc) (.mul (.num 1 0) (.exp (.rd (.var .Kc)))),
  .set (.arr .rev 43) (.div (.mul (.mul (.rd (.arr .C 5)) (.rd (.arr .C 2))) (.rd (.var .kf))) (.rd (.var .Kc)))]

/-- utilities/mechanisms/gri30/lib/src/rxn_rates.c:536-547 -/
def rate44 : List CStmt := [
  .set (.var .kf) (.exp (.sub (.num 24525473976367351 15) (.div (.num 5374384952695857 13) (.rd (.var .T))))),
  .set (.arr .fwd 44) (.mul (.mul (.rd (.arr .C 1)) (.rd (.arr .C 6))) (.rd (.var .kf))),
  .ite (.rd (.var .T)) (.num 1000 0) (.var .Kc) (.sub (.add (.add (.num 17457169009999998 16) (.mul (.neg (.num 67501052999999978 17)) (.rd (.var .logT)))) (.mul (.rd (.var .T)) (.add (.num 48664535496473326 19) (.mul (.rd (.var .T)) (.add (.neg (.num 51315230146673457 22)) (.mul (.rd (.var .T)) (.add (.num 28960253089749321 25) (.mul (.neg (.num 67123202395361351 29)) (.rd (.var .T)))))))))) (.div (.neg (.num 27750346673 6)) (.rd (.var .T)))) (.sub (.add (.add (.neg (.num 11928173859999998 16)) (.mul (.num 10260612999999896 17) (.rd (.var .logT)))) (.mul (.rd (.var .T)) (.add (.neg (.num 40306752000785135 20)) (.mul (.rd (.var .T)) (.add (.num 62524707140634199 24) (.mul (.rd (.var .T)) (.add (.neg (.num 70285170220706416 28)) (.mul (.num 45723056009013213 32) (.rd (.var .T)))))))))) (.div (.neg (.num 27624133255000001 12)) (.rd (.var .T)))),
  .set (.var .Kc) (.mul (.num 1 0) (.exp (.rd (.var .Kc)))),
  .set (.arr .rev 44) (.div (.mul (.mul (.rd (.arr .C 0)) (.rd (.arr .C 3))) (.rd (.var .kf))) (.rd (.var .Kc)))]

/-- utilities/mechanisms/gri30/lib/src/rxn_rates.c:548-559 -/
def rate45 : List CStmt := [
  .set (.var .kf) (.exp (.sub (.num 25154082635789724 15) (.div (.num 31954442368556829 14) (.rd (.var .T))))),
  .set (.arr .fwd 45) (.mul (.mul (.rd (.arr .C 1)) (.rd (.arr .C 6))) (.rd (.var .kf))),
  .ite (.rd (.var .T)) (.num 1000 0) (.var .Kc) (.sub (.add (.add (.neg (.num 46600633630000008 16)) (.mul (.num 11822328500000001 16) (.rd (.var .logT)))) (.mul (.rd (.var .T)) (.add (.neg (.num 26757265352666572 21)) (.mul (.rd (.var .T)) (.add (.neg (.num 19870687130006796 22)) (.mul (.rd (.var .T)) (.add (.num 13761768948082653 25) (.mul (.neg (.num 32820109195361345 29)) (.rd (.var .T)))))))))) (.div (.neg (.num 18538306819999998 12)) (.rd (.var .T)))) (.sub (.add (.add (.num 59464085339999997 16) (.mul (.neg (.num 33143557000000001 17)) (.rd (.var .logT)))) (.mul (.rd (.var .T)) (.add (.neg (.num 57148033745785135 20)) (.mul (.rd (.var .T)) (.add (.num 14777809830730085 23) (.mul (.rd (.var .T)) (.add (.neg (.num 24178223038737304 27)) (.mul (.num 1713666410090132 30) (.rd (.var .T)))))))))) (.div (.neg (.num 17868202613000001 12)) (.rd (.var .T)))),
  .set (.var .Kc) (.mul (.num 1 0) (.exp (.rd (.var .Kc)))),
  .set (.arr .rev 45) (.div (.mul (.mul (.rd (.arr .C 4)) (.rd (.arr .C 4))) (.rd (.var .kf))) (.rd (.var .Kc)))]

/-- utilities/mechanisms/gri30/lib/src/rxn_rates.c:560-571 -/
def rate46 : List CStmt := [
  .set (.var .kf) (.exp (.sub (.add (.num 94009607315848331 16) (.mul (.num 2 0) (.rd (.var .logT)))) (.div (.num 26167417372676459 13) (.rd (.var .T))))),
  .set (.arr .fwd 46) (.mul (.mul (.rd (.arr .C 1)) (.rd (.arr .C 7))) (.rd (.var .kf))),
  .ite (.rd (.var .T)) (.num 1000 0) (.var .Kc) (.sub (.add (.add (.num 15412883609999999 16) (.mul (.neg (.num 12998355999999944 17)) (.rd (.var .logT)))) (.mul (.rd (.var .T)) (.add (.num 18871113281473334 19) (.mul (.rd (.var .T)) (.add (.neg (.num 25089053330006806 22)) (.mul (.rd (.var .T)) (.add (.num 14548251081415985 25) (.mul (.neg (.num 33542049995361335 29)) (.rd (.var .T)))))))))) (.div (.neg (.num 83942049330000009 13)) (.rd (.var .T)))) (.sub (.add (.add (.neg (.num 25788821060000005 16)) (.mul (.num 68948724000000006 17) (.rd (.var .logT)))) (.mul (.rd (.var .T)) (.add (.neg (.num 13589496300078514 19)) (.mul (.rd (.var .T)) (.add (.num 29453181030730083 23) (.mul (.rd (.var .T)) (.add (.neg (.num 36375500438737303 27)) (.mul (.num 19012757050901321 31) (.rd (.var .T)))))))))) (.div (.neg (.num 84501744089999993 13)) (.rd (.var .T)))),
  .set (.var .Kc) (.mul (.num 1 0) (.exp (.rd (.var .Kc)))),
  .set (.arr .rev 46) (.div (.mul (.mul (.rd (.arr .C 0)) (.rd (.arr .C 6))) (.rd (.var .kf))) (.rd (.var .Kc)))]

/-- utilities/mechanisms/gri30/lib/src/rxn_rates.c:572-583 -/
def rate47 : List CStmt := [
  .set (.var .kf) (.exp (.sub (.num 23025850929940457 15) (.div (.num 18115904334929855 13) (.rd (.var .T))))),
  .set (.arr .fwd 47) (.mul (.mul (.rd (.arr .C 1)) (.rd (.arr .C 7))) (.rd (.var .kf))),
  .ite (.rd (.var .T)) (.num 1000 0) (.var .Kc) (.sub (.add (.add (.neg (.num 53558688529999987 16)) (.mul (.num 14145433000000001 16) (.rd (.var .logT)))) (.mul (.rd (.var .T)) (.add (.neg (.num 19474646018526665 19)) (.mul (.rd (.var .T)) (.add (.neg (.num 93253826300068034 23)) (.mul (.rd (.var .T)) (.add (.num 10173314456415985 25) (.mul (.neg (.num 27442253795361335 29)) (.rd (.var .T)))))))))) (.div (.neg (.num 34449723939999996 12)) (.rd (.var .T)))) (.sub (.add (.add (.num 75121151939999997 16) (.mul (.neg (.num 53812269999999884 17)) (.rd (.var .logT)))) (.mul (.rd (.var .T)) (.add (.neg (.num 10914845804578513 19)) (.mul (.rd (.var .T)) (.add (.num 31063749064063419 23) (.mul (.rd (.var .T)) (.add (.neg (.num 46347843655403966 27)) (.mul (.num 28676083400901321 31) (.rd (.var .T)))))))))) (.div (.neg (.num 33757512300000002 12)) (.rd (.var .T)))),
  .set (.var .Kc) (.mul (.num 1 0) (.exp (.rd (.var .Kc)))),
  .set (.arr .rev 47) (.div (.mul (.mul (.rd (.arr .C 5)) (.rd (.arr .C 4))) (.rd (.var .kf))) (.rd (.var .Kc)))]

/-- utilities/mechanisms/gri30/lib/src/rxn_rates.c:584-595 -/
def rate48 : List CStmt := [
  .set (.var .kf) (.num 165000000000 0),
  .set (.arr .fwd 48) (.mul (.mul (.rd (.arr .C 1)) (.rd (.arr .C 9))) (.rd (.var .kf))),
  .ite (.rd (.var .T)) (.num 1000 0) (.var .Kc) (.sub (.add (.add (.num 46682364710000002 16) (.mul (.neg (.num 10912459799999996 16)) (.rd (.var .logT)))) (.mul (.rd (.var .T)) (.add (.num 36675737421473335 19) (.mul (.rd (.var .T)) (.add (.neg (.num 28425613505006802 22)) (.mul (.rd (.var .T)) (.add (.num 13552334365582656 25) (.mul (.neg (.num 28517527465361337 29)) (.rd (.var .T)))))))))) (.div (.neg (.num 11745005273000002 12)) (.rd (.var .T)))) (.sub (.add (.add (.neg (.num 38932999959999997 16)) (.mul (.num 45148333999999979 17) (.rd (.var .logT)))) (.mul (.rd (.var .T)) (.add (.neg (.num 48616360130785134 20)) (.mul (.rd (.var .T)) (.add (.num 47096267473967532 24) (.mul (.rd (.var .T)) (.add (.neg (.num 9541197804039724 28)) (.mul (.neg (.num 12275900640986782 32)) (.rd (.var .T)))))))))) (.div (.neg (.num 11984959922000009 12)) (.rd (.var .T)))),
  .set (.var .Kc) (.mul (.num 1 0) (.exp (.rd (.var .Kc)))),
  .set (.arr .rev 48) (.div (.mul (.mul (.rd (.arr .C 0)) (.rd (.arr .C 8))) (.rd (.var .kf))) (.rd (.var .Kc)))]

/-- utilities/mechanisms/gri30/lib/src/rxn_rates.c:596-607 -/
def rate49 : List CStmt := [
  .set (.var .kf) (.num 600000000000 0),
  .set (.arr .fwd 49) (.mul (.mul (.rd (.arr .C 1)) (.rd (.arr .C 10))) (.rd (.var .kf))),
  .ite (.rd (.var .T)) (.num 1000 0) (.var .Kc) (.sub (.add (.add (.num 3077803603 9) (.mul (.neg (.num 158908827 8)) (.rd (.var .logT)))) (.mul (.rd (.var .T)) (.add (.num 52103980314733352 20) (.mul (.rd (.var .T)) (.add (.num 48922002533265336 23) (.mul (.rd (.var .T)) (.add (.neg (.num 25168856019173461 26)) (.mul (.num 4282200754638662 29) (.rd (.var .T)))))))))) (.div (.neg (.num 55032701199999996 12)) (.rd (.var .T)))) (.sub (.add (.add (.num 58439448840000008 16) (.mul (.neg (.num 208838342 8)) (.rd (.var .logT)))) (.mul (.rd (.var .T)) (.add (.num 17917537365421488 19) (.mul (.rd (.var .T)) (.add (.neg (.num 26303292102603245 23)) (.mul (.rd (.var .T)) (.add (.num 27958758311262697 27) (.mul (.neg (.num 1397134159909868 30)) (.rd (.var .T)))))))))) (.div (.neg (.num 54961679600000003 12)) (.rd (.var .T)))),
  .set (.var .Kc) (.mul (.num 82057360967184814 18) (.exp (.rd (.var .Kc)))),
  .set (.arr .rev 49) (.div (.mul (.rd (.arr .C 12)) (.rd (.var .kf))) (.rd (.var .Kc)))]

/-- utilities/mechanisms/gri30/lib/src/rxn_rates.c:608-619 -/
def rate50 : List CStmt := [
  .set (.var .kf) (.num 30000000000 0),
  .set (.arr .fwd 50) (.mul (.mul (.rd (.arr .C 11)) (.rd (.arr .C 1))) (.rd (.var .kf))),
  .ite (.rd (.var .T)) (.num 1000 0) (.var .Kc) (.sub (.add (.add (.num 4847279477999999 15) (.mul (.neg (.num 86445633999999982 17)) (.rd (.var .logT)))) (.mul (.rd (.var .T)) (.add (.num 53354852401473326 19) (.mul (.rd (.var .T)) (.add (.neg (.num 49000173080006795 22)) (.mul (.rd (.var .T)) (.add (.num 25006285398082653 25) (.mul (.neg (.num 53626778245361335 29)) (.rd (.var .T)))))))))) (.div (.neg (.num 60911179730000076 13)) (.rd (.var .T)))) (.sub (.add (.add (.neg (.num 73235675959999993 16)) (.mul (.num 14237055000000005 16) (.rd (.var .logT)))) (.mul (.rd (.var .T)) (.add (.neg (.num 18671875695078512 19)) (.mul (.rd (.var .T)) (.add (.num 44263698114063416 23) (.mul (.rd (.var .T)) (.add (.neg (.num 60680019855403985 27)) (.mul (.num 35802555950901316 31) (.rd (.var .T)))))))))) (.div (.neg (.num 63373821219999954 13)) (.rd (.var .T)))),
  .set (.var .Kc) (.mul (.num 1 0) (.exp (.rd (.var .Kc)))),
  .set (.arr .rev 50) (.div (.mul (.mul (.rd (.arr .C 0)) (.rd (.arr .C 9))) (.rd (.var .kf))) (.rd (.var .Kc)))]

/-- utilities/mechanisms/gri30/lib/src/rxn_rates.c:620-631 -/
def rate51 : List CStmt := [
  .set (.var .kf) (.exp (.sub (.sub (.num 30262909956065194 15) (.mul (.num 534 3) (.rd (.var .logT)))) (.div (.num 26972568676451118 14) (.rd (.var .T))))),
  .set (.arr .fwd 51) (.mul (.mul (.rd (.arr .C 1)) (.rd (.arr .C 12))) (.rd (.var .kf))),
  .ite (.rd (.var .T)) (.num 1000 0) (.var .Kc) (.sub (.add (.add (.neg (.num 47754709669999986 16)) (.mul (.neg (.num 23714270000000148 18)) (.rd (.var .logT)))) (.mul (.rd (.var .T)) (.add (.neg (.num 78409652753526661 19)) (.mul (.rd (.var .T)) (.add (.num 72416402236659874 22) (.mul (.rd (.var .T)) (.add (.neg (.num 3466927362691735 24)) (.mul (.num 70627691304638665 29) (.rd (.var .T)))))))))) (.div (.neg (.num 52165306299999997 12)) (.rd (.var .T)))) (.sub (.add (.add (.num 15114795359000002 15) (.mul (.neg (.num 37108662350000001 16)) (.rd (.var .logT)))) (.mul (.rd (.var .T)) (.add (.num 30755231765421482 19) (.mul (.rd (.var .T)) (.add (.neg (.num 45761910435936572 23)) (.mul (.rd (.var .T)) (.add (.num 52270059227929359 27) (.mul (.neg (.num 27549895549098682 31)) (.rd (.var .T)))))))))) (.div (.neg (.num 51717588789999994 12)) (.rd (.var .T)))),
  .set (.var .Kc) (.mul (.num 82057360967184814 18) (.exp (.rd (.var .Kc)))),
  .set (.arr .rev 51) (.div (.mul (.rd (.arr .C 13)) (.rd (.var .kf))) (.rd (.var .Kc)))]

/-- utilities/mechanisms/gri30/lib/src/rxn_rates.c:632-643 -/
def rate52 : List CStmt := [
  .set (.var .kf) (.exp (.sub (.add (.num 13399995114002609 15) (.mul (.num 162 2) (.rd (.var .logT)))) (.div (.num 5454900083073323 12) (.rd (.var .T))))),
  .set (.arr .fwd 52) (.mul (.mul (.rd (.arr .C 1)) (.rd (.arr .C 13))) (.rd (.var .kf))),
  .ite (.rd (.var .T)) (.num 1000 0) (.var .Kc) (.sub (.add (.add (.num 90075157909999994 16) (.mul (.neg (.num 16319546100000002 16)) (.rd (.var .logT)))) (.mul (.rd (.var .T)) (.add (.num 11831225649647333 18) (.mul (.rd (.var .T)) (.add (.neg (.num 10487998723000681 21)) (.mul (.rd (.var .T)) (.add (.num 51466948123082656 25) (.mul (.neg (.num 10750827934536134 28)) (.rd (.var .T)))))))))) (.div (.num 30005132700000286 14) (.rd (.var .T)))) (.sub (.add (.add (.neg (.num 15763732020999999 15)) (.mul (.num 3048145415 9) (.rd (.var .logT)))) (.mul (.rd (.var .T)) (.add (.neg (.num 3100224390007851 18)) (.mul (.rd (.var .T)) (.add (.num 54086189530730073 23) (.mul (.rd (.var .T)) (.add (.neg (.num 67233924605403965 27)) (.mul (.num 37562663850901325 31) (.rd (.var .T)))))))))) (.div (.neg (.num 17988993200000004 14)) (.rd (.var .T)))),
  .set (.var .Kc) (.mul (.num 1 0) (.exp (.rd (.var .Kc)))),
  .set (.arr .rev 52) (.div (.mul (.mul (.rd (.arr .C 0)) (.rd (.arr .C 12))) (.rd (.var .kf))) (.rd (.var .Kc)))]

/-- utilities/mechanisms/gri30/lib/src/rxn_rates.c:644-655 -/
def rate53 : List CStmt := [
  .set (.var .kf) (.exp (.sub (.add (.num 20809443533187462 15) (.mul (.num 48 2) (.rd (.var .logT)))) (.div (.neg (.num 1308370868633823 13)) (.rd (.var .T))))),
  .set (.arr .fwd 53) (.mul (.mul (.rd (.arr .C 1)) (.rd (.arr .C 16))) (.rd (.var .kf))),
  .ite (.rd (.var .T)) (.num 1000 0) (.var .Kc) (.sub (.add (.add (.neg (.num 41741398699999976 17)) (.mul (.neg (.num 92746269000000048 17)) (.rd (.var .logT)))) (.mul (.rd (.var .T)) (.add (.neg (.num 33322041853526664 19)) (.mul (.rd (.var .T)) (.add (.num 39236760336659864 22) (.mul (.rd (.var .T)) (.add (.neg (.num 20511764001917343 25)) (.mul (.num 44197882754638669 29) (.rd (.var .T)))))))))) (.div (.neg (.num 43622181560000005 12)) (.rd (.var .T)))) (.sub (.add (.add (.num 78161453040000017 16) (.mul (.neg (.num 25114843100000002 16)) (.rd (.var .logT)))) (.mul (.rd (.var .T)) (.add (.num 21215227915421485 19) (.mul (.rd (.var .T)) (.add (.neg (.num 32302200269269904 23)) (.mul (.rd (.var .T)) (.add (.num 34770862227929353 27) (.mul (.neg (.num 17517346699098684 31)) (.rd (.var .T)))))))))) (.div (.neg (.num 43481410349999998 12)) (.rd (.var .T)))),
  .set (.var .Kc) (.mul (.num 82057360967184814 18) (.exp (.rd (.var .Kc)))),
  .set (.arr .rev 53) (.div (.mul (.rd (.arr .C 17)) (.rd (.var .kf))) (.rd (.var .Kc)))]

/-- utilities/mechanisms/gri30/lib/src/rxn_rates.c:656-667 -/
def rate54 : List CStmt := [
  .set (.var .kf) (.num 73400000000 0),
  .set (.arr .fwd 54) (.mul (.mul (.rd (.arr .C 1)) (.rd (.arr .C 16))) (.rd (.var .kf))),
  .ite (.rd (.var .T)) (.num 1000 0) (.var .Kc) (.sub (.add (.add (.num 20410511910000002 16) (.mul (.neg (.num 79732125000000043 17)) (.rd (.var .logT)))) (.mul (.rd (.var .T)) (.add (.num 53070461946473331 19) (.mul (.rd (.var .T)) (.add (.neg (.num 53735468780006796 22)) (.mul (.rd (.var .T)) (.add (.num 28648853818082653 25) (.mul (.neg (.num 63091153790361341 29)) (.rd (.var .T)))))))))) (.div (.neg (.num 44575246033000003 12)) (.rd (.var .T)))) (.sub (.add (.add (.neg (.num 55182880159999996 16)) (.mul (.num 78029042000000004 17) (.rd (.var .logT)))) (.mul (.rd (.var .T)) (.add (.neg (.num 14719151400078511 19)) (.mul (.rd (.var .T)) (.add (.num 33084785347396752 23) (.mul (.rd (.var .T)) (.add (.neg (.num 44889596605403977 27)) (.mul (.num 26505818300901323 31) (.rd (.var .T)))))))))) (.div (.neg (.num 44587609371999999 12)) (.rd (.var .T)))),
  .set (.var .Kc) (.mul (.num 1 0) (.exp (.rd (.var .Kc)))),
  .set (.arr .rev 54) (.div (.mul (.mul (.rd (.arr .C 0)) (.rd (.arr .C 14))) (.rd (.var .kf))) (.rd (.var .Kc)))]

/-- utilities/mechanisms/gri30/lib/src/rxn_rates.c:668-679 -/
def rate55 : List CStmt := [
  .set (.var .kf) (.exp (.sub (.add (.num 20107079697522593 15) (.mul (.num 454 3) (.rd (.var .logT)))) (.div (.num 18115904334929855 13) (.rd (.var .T))))),
  .set (.arr .fwd 55) (.mul (.mul (.rd (.arr .C 17)) (.rd (.arr .C 1))) (.rd (.var .kf))),
  .ite (.rd (.var .T)) (.num 1000 0) (.var .Kc) (.sub (.add (.add (.num 87467263529999997 16) (.mul (.neg (.num 24298339699999998 16)) (.rd (.var .logT)))) (.mul (.rd (.var .T)) (.add (.num 77525283646473339 19) (.mul (.rd (.var .T)) (.add (.neg (.num 52315471480006795 22)) (.mul (.rd (.var .T)) (.add (.num 22896104081415984 25) (.mul (.neg (.num 44037962095361336 29)) (.rd (.var .T)))))))))) (.div (.neg (.num 14358616869999998 12)) (.rd (.var .T)))) (.sub (.add (.add (.neg (.num 68311835360000019 16)) (.mul (.num 43197560000000013 17) (.rd (.var .logT)))) (.mul (.rd (.var .T)) (.add (.neg (.num 27711641345785096 20)) (.mul (.rd (.var .T)) (.add (.num 11192948564063413 23) (.mul (.rd (.var .T)) (.add (.neg (.num 18264789938737294 27)) (.mul (.num 11765071700901325 31) (.rd (.var .T)))))))))) (.div (.neg (.num 14720333869999999 12)) (.rd (.var .T)))),
  .set (.var .Kc) (.mul (.num 82057360967184814 18) (.exp (.rd (.var .Kc)))),
  .set (.arr .rev 55) (.div (.mul (.rd (.arr .C 18)) (.rd (.var .kf))) (.rd (.var .Kc)))]

/-- utilities/mechanisms/gri30/lib/src/rxn_rates.c:680-691 -/
def rate56 : List CStmt := [
  .set (.var .kf) (.exp (.sub (.add (.num 20107079697522593 15) (.mul (.num 454 3) (.rd (.var .logT)))) (.div (.num 1308370868633823 12) (.rd (.var .T))))),
  .set (.arr .fwd 56) (.mul (.mul (.rd (.arr .C 17)) (.rd (.arr .C 1))) (.rd (.var .kf))),
  .ite (.rd (.var .T)) (.num 1000 0) (.var .Kc) (.sub (.add (.add (.num 18183566103 9) (.mul (.neg (.num 418751915 8)) (.rd (.var .logT)))) (.mul (.rd (.var .T)) (.add (.num 85624643446473338 19) (.mul (.rd (.var .T)) (.add (.neg (.num 53305881330006796 22)) (.mul (.rd (.var .T)) (.add (.num 25459075081415984 25) (.mul (.neg (.num 55508275995361342 29)) (.rd (.var .T)))))))))) (.div (.neg (.num 10186102099999998 12)) (.rd (.var .T)))) (.sub (.add (.add (.neg (.num 9790173996 9)) (.mul (.num 51010890999999958 17) (.rd (.var .logT)))) (.mul (.rd (.var .T)) (.add (.neg (.num 66425189845785145 20)) (.mul (.rd (.var .T)) (.add (.num 29436735230730079 23) (.mul (.rd (.var .T)) (.add (.neg (.num 50997417938737298 27)) (.mul (.num 33629701750901327 31) (.rd (.var .T)))))))))) (.div (.neg (.num 11349995079999999 12)) (.rd (.var .T)))),
  .set (.var .Kc) (.mul (.num 82057360967184814 18) (.exp (.rd (.var .Kc)))),
  .set (.arr .rev 56) (.div (.mul (.rd (.arr .C 19)) (.rd (.var .kf))) (.rd (.var .Kc)))]

/-- utilities/mechanisms/gri30/lib/src/rxn_rates.c:692-703 -/
def rate57 : List CStmt := [
  .set (.var .kf) (.exp (.sub (.add (.num 10957799582307658 15) (.mul (.num 19 1) (.rd (.var .logT)))) (.div (.num 1379828046843824 12) (.rd (.var .T))))),
  .set (.arr .fwd 57) (.mul (.mul (.rd (.arr .C 17)) (.rd (.arr .C 1))) (.rd (.var .kf))),
  .ite (.rd (.var .T)) (.num 1000 0) (.var .Kc) (.sub (.add (.add (.num 46494588109999997 16) (.mul (.neg (.num 72820618999999986 17)) (.rd (.var .logT)))) (.mul (.rd (.var .T)) (.add (.num 73224645596473327 19) (.mul (.rd (.var .T)) (.add (.neg (.num 71700345330006791 22)) (.mul (.rd (.var .T)) (.add (.num 37309438498082653 25) (.mul (.neg (.num 8107847079536134 28)) (.rd (.var .T)))))))))) (.div (.neg (.num 82430734129999983 13)) (.rd (.var .T)))) (.sub (.add (.add (.neg (.num 84650819659999996 16)) (.mul (.num 18487634900000005 16) (.rd (.var .logT)))) (.mul (.rd (.var .T)) (.add (.neg (.num 21462240050078513 19)) (.mul (.rd (.var .T)) (.add (.num 40626479364063411 23) (.mul (.rd (.var .T)) (.add (.neg (.num 49734727605403966 27)) (.mul (.num 27530115000901327 31) (.rd (.var .T)))))))))) (.div (.neg (.num 84160683719999979 13)) (.rd (.var .T)))),
  .set (.var .Kc) (.mul (.num 1 0) (.exp (.rd (.var .Kc)))),
  .set (.arr .rev 57) (.div (.mul (.mul (.rd (.arr .C 0)) (.rd (.arr .C 16))) (.rd (.var .kf))) (.rd (.var .Kc)))]

/-- utilities/mechanisms/gri30/lib/src/rxn_rates.c:704-715 -/
def rate58 : List CStmt := [
  .set (.var .kf) (.exp (.sub (.add (.num 20776806603874441 15) (.mul (.num 5 1) (.rd (.var .logT)))) (.div (.num 43276882577887989 15) (.rd (.var .T))))),
  .set (.arr .fwd 58) (.mul (.mul (.rd (.arr .C 18)) (.rd (.arr .C 1))) (.rd (.var .kf))),
  .ite (.rd (.var .T)) (.num 1000 0) (.var .Kc) (.sub (.add (.add (.neg (.num 58819444470000004 16)) (.mul (.num 3515066400000002 16) (.rd (.var .logT)))) (.mul (.rd (.var .T)) (.add (.neg (.num 10413817970352667 18)) (.mul (.rd (.var .T)) (.add (.num 98852329319993209 22) (.mul (.rd (.var .T)) (.add (.neg (.num 50522906418584015 25)) (.mul (.num 10882798510463865 28) (.rd (.var .T)))))))))) (.div (.neg (.num 47922511829999996 12)) (.rd (.var .T)))) (.sub (.add (.add (.num 13541570854 9) (.mul (.neg (.num 34029577900000003 16)) (.rd (.var .logT)))) (.mul (.rd (.var .T)) (.add (.num 27240306265421481 19) (.mul (.rd (.var .T)) (.add (.neg (.num 43566619435936574 23)) (.mul (.rd (.var .T)) (.add (.num 49539684894596029 27) (.mul (.neg (.num 26102400199098675 31)) (.rd (.var .T)))))))))) (.div (.neg (.num 47606028330000001 12)) (.rd (.var .T)))),
  .set (.var .Kc) (.mul (.num 82057360967184814 18) (.exp (.rd (.var .Kc)))),
  .set (.arr .rev 58) (.div (.mul (.rd (.arr .C 20)) (.rd (.var .kf))) (.rd (.var .Kc)))]

/-- utilities/mechanisms/gri30/lib/src/rxn_rates.c:716-727 -/
def rate59 : List CStmt := [
  .set (.var .kf) (.num 20000000000 0),
  .set (.arr .fwd 59) (.mul (.mul (.rd (.arr .C 18)) (.rd (.arr .C 1))) (.rd (.var .kf))),
  .ite (.rd (.var .T)) (.num 1000 0) (.var .Kc) (.sub (.add (.add (.neg (.num 45146815290000006 16)) (.mul (.num 77416508999999945 17) (.rd (.var .logT)))) (.mul (.rd (.var .T)) (.add (.neg (.num 37622679903526668 19)) (.mul (.rd (.var .T)) (.add (.num 19851886486659864 22) (.mul (.rd (.var .T)) (.add (.neg (.num 60984295852506768 26)) (.mul (.num 71573740546386596 30) (.rd (.var .T)))))))))) (.div (.neg (.num 37506638102999997 12)) (.rd (.var .T)))) (.sub (.add (.add (.num 61822468740000014 16) (.mul (.neg (.num 109469642 8)) (.rd (.var .logT)))) (.mul (.rd (.var .T)) (.add (.num 25241519999214793 20) (.mul (.rd (.var .T)) (.add (.neg (.num 28686694692699073 24)) (.mul (.rd (.var .T)) (.add (.num 3300924561262681 27) (.mul (.neg (.num 17523033990986808 32)) (.rd (.var .T)))))))))) (.div (.neg (.num 37177144851999998 12)) (.rd (.var .T)))),
  .set (.var .Kc) (.mul (.num 1 0) (.exp (.rd (.var .Kc)))),
  .set (.arr .rev 59) (.div (.mul (.mul (.rd (.arr .C 17)) (.rd (.arr .C 0))) (.rd (.var .kf))) (.rd (.var .Kc)))]

/-- utilities/mechanisms/gri30/lib/src/rxn_rates.c:728-739 -/
def rate60 : List CStmt := [
  .set (.var .kf) (.exp (.sub (.add (.num 18921456031864853 15) (.mul (.num 65 2) (.rd (.var .logT)))) (.div (.neg (.num 14291435642000218 14)) (.rd (.var .T))))),
  .set (.arr .fwd 60) (.mul (.mul (.rd (.arr .C 18)) (.rd (.arr .C 1))) (.rd (.var .kf))),
  .ite (.rd (.var .T)) (.num 1000 0) (.var .Kc) (.sub (.add (.add (.neg (.num 48274173550000015 16)) (.mul (.num 13017166500000004 16) (.rd (.var .logT)))) (.mul (.rd (.var .T)) (.add (.neg (.num 29935444053526667 19)) (.mul (.rd (.var .T)) (.add (.num 73590651033265315 23) (.mul (.rd (.var .T)) (.add (.neg (.num 24925531858401239 27)) (.mul (.neg (.num 23085036953613391 30)) (.rd (.var .T)))))))))) (.div (.neg (.num 22196668700000009 13)) (.rd (.var .T)))) (.sub (.add (.add (.num 84070789640000001 16) (.mul (.neg (.num 8140603099999999 16)) (.rd (.var .logT)))) (.mul (.rd (.var .T)) (.add (.neg (.num 42871893045785174 20)) (.mul (.rd (.var .T)) (.add (.num 14839548864063425 23) (.mul (.rd (.var .T)) (.add (.neg (.num 23291345238737306 27)) (.mul (.num 14940608900901322 31) (.rd (.var .T)))))))))) (.div (.neg (.num 15969123299999992 13)) (.rd (.var .T)))),
  .set (.var .Kc) (.mul (.num 1 0) (.exp (.rd (.var .Kc)))),
  .set (.arr .rev 60) (.div (.mul (.mul (.rd (.arr .C 12)) (.rd (.arr .C 4))) (.rd (.var .kf))) (.rd (.var .Kc)))]

/-- utilities/mechanisms/gri30/lib/src/rxn_rates.c:740-751 -/
def rate61 : List CStmt := [
  .set (.var .kf) (.exp (.sub (.sub (.num 2421369435233651 14) (.mul (.num 9 2) (.rd (.var .logT)))) (.div (.num 30696393456408919 14) (.rd (.var .T))))),
  .set (.arr .fwd 61) (.mul (.mul (.rd (.arr .C 18)) (.rd (.arr .C 1))) (.rd (.var .kf))),
  .ite (.rd (.var .T)) (.num 1000 0) (.var .Kc) (.sub (.add (.add (.neg (.num 86778462419999993 16)) (.mul (.num 20333554899999999 16) (.rd (.var .logT)))) (.mul (.rd (.var .T)) (.add (.neg (.num 4999885665352667 18)) (.mul (.rd (.var .T)) (.add (.num 14701077336659865 22) (.mul (.rd (.var .T)) (.add (.neg (.num 14357743602506818 26)) (.mul (.neg (.num 32727361953613368 30)) (.rd (.var .T)))))))))) (.div (.neg (.num 20766566299999977 13)) (.rd (.var .T)))) (.sub (.add (.add (.num 90961573439999999 16) (.mul (.neg (.num 86663478999999999 17)) (.rd (.var .logT)))) (.mul (.rd (.var .T)) (.add (.neg (.num 90648176845785149 20)) (.mul (.rd (.var .T)) (.add (.num 26250319930730089 23) (.mul (.rd (.var .T)) (.add (.neg (.num 38864218188737303 27)) (.mul (.num 23851941150901325 31) (.rd (.var .T)))))))))) (.div (.neg (.num 13094510299999965 13)) (.rd (.var .T)))),
  .set (.var .Kc) (.mul (.num 1 0) (.exp (.rd (.var .Kc)))),
  .set (.arr .rev 61) (.div (.mul (.mul (.rd (.arr .C 11)) (.rd (.arr .C 5))) (.rd (.var .kf))) (.rd (.var .Kc)))]

/-- utilities/mechanisms/gri30/lib/src/rxn_rates.c:752-763 -/
def rate62 : List CStmt := [
  .set (.var .kf) (.exp (.sub (.add (.num 21611157094298868 15) (.mul (.num 515 3) (.rd (.var .logT)))) (.div (.num 2516097824295813 14) (.rd (.var .T))))),
  .set (.arr .fwd 62) (.mul (.mul (.rd (.arr .C 1)) (.rd (.arr .C 19))) (.rd (.var .kf))),
  .ite (.rd (.var .T)) (.num 1000 0) (.var .Kc) (.sub (.add (.add (.neg (.num 15318784197000001 15)) (.mul (.num 21091918200000004 16) (.rd (.var .logT)))) (.mul (.rd (.var .T)) (.add (.neg (.num 11223753950352668 18)) (.mul (.rd (.var .T)) (.add (.num 99842739169993203 22) (.mul (.rd (.var .T)) (.add (.neg (.num 53085877418584011 25)) (.mul (.num 12029829900463864 28) (.rd (.var .T)))))))))) (.div (.neg (.num 52095026599999997 12)) (.rd (.var .T)))) (.sub (.add (.add (.num 16500561313999999 15) (.mul (.neg (.num 34810910999999995 16)) (.rd (.var .logT)))) (.mul (.rd (.var .T)) (.add (.num 31111661115421482 19) (.mul (.rd (.var .T)) (.add (.neg (.num 61810406102603236 23)) (.mul (.rd (.var .T)) (.add (.num 82272312894596034 27) (.mul (.neg (.num 47967030249098682 31)) (.rd (.var .T)))))))))) (.div (.neg (.num 50976367120000003 12)) (.rd (.var .T)))),
  .set (.var .Kc) (.mul (.num 82057360967184814 18) (.exp (.rd (.var .Kc)))),
  .set (.arr .rev 62) (.div (.mul (.rd (.arr .C 20)) (.rd (.var .kf))) (.rd (.var .Kc)))]

/-- utilities/mechanisms/gri30/lib/src/rxn_rates.c:764-775 -/
def rate63 : List CStmt := [
  .set (.var .kf) (.exp (.sub (.add (.num 1063344870621879 14) (.mul (.num 163 2) (.rd (.var .logT)))) (.div (.num 96819444278902893 14) (.rd (.var .T))))),
  .set (.arr .fwd 63) (.mul (.mul (.rd (.arr .C 1)) (.rd (.arr .C 19))) (.rd (.var .kf))),
  .ite (.rd (.var .T)) (.num 1000 0) (.var .Kc) (.sub (.add (.add (.neg (.num 94368397500000007 16)) (.mul (.num 17576851800000002 16) (.rd (.var .logT)))) (.mul (.rd (.var .T)) (.add (.neg (.num 8099359799999999 19)) (.mul (.rd (.var .T)) (.add (.num 99040985000000045 24) (.mul (.rd (.var .T)) (.add (.neg (.num 25629710000000004 26)) (.mul (.num 114703139 21) (.rd (.var .T)))))))))) (.div (.neg (.num 41725147699999998 13)) (.rd (.var .T)))) (.sub (.add (.add (.num 29589904599999994 16) (.mul (.neg (.num 78133309999999678 18)) (.rd (.var .logT)))) (.mul (.rd (.var .T)) (.add (.num 38713548500000049 20) (.mul (.rd (.var .T)) (.add (.neg (.num 18243786666666668 23)) (.mul (.rd (.var .T)) (.add (.num 32732628000000005 27) (.mul (.neg (.num 21864630050000003 31)) (.rd (.var .T)))))))))) (.div (.neg (.num 33703387899999998 13)) (.rd (.var .T)))),
  .set (.var .Kc) (.mul (.num 1 0) (.exp (.rd (.var .Kc)))),
  .set (.arr .rev 63) (.div (.mul (.mul (.rd (.arr .C 18)) (.rd (.arr .C 1))) (.rd (.var .kf))) (.rd (.var .Kc)))]

/-- utilities/mechanisms/gri30/lib/src/rxn_rates.c:776-787 -/
def rate64 : List CStmt := [
  .set (.var .kf) (.num 20000000000 0),
  .set (.arr .fwd 64) (.mul (.mul (.rd (.arr .C 1)) (.rd (.arr .C 19))) (.rd (.var .kf))),
  .ite (.rd (.var .T)) (.num 1000 0) (.var .Kc) (.sub (.add (.add (.neg (.num 13951521279 9)) (.mul (.num 25318502699999996 16) (.rd (.var .logT)))) (.mul (.rd (.var .T)) (.add (.neg (.num 45722039703526667 19)) (.mul (.rd (.var .T)) (.add (.num 20842296336659861 22) (.mul (.rd (.var .T)) (.add (.neg (.num 86614005852506772 26)) (.mul (.num 18627687954638662 29) (.rd (.var .T)))))))))) (.div (.neg (.num 41679152872999999 12)) (.rd (.var .T)))) (.sub (.add (.add (.num 91412373340000013 16) (.mul (.neg (.num 11728297299999997 16)) (.rd (.var .logT)))) (.mul (.rd (.var .T)) (.add (.num 63955068499214809 20) (.mul (.rd (.var .T)) (.add (.neg (.num 21112456135936572 23)) (.mul (.rd (.var .T)) (.add (.num 36033552561262686 27) (.mul (.neg (.num 23616933449098684 31)) (.rd (.var .T)))))))))) (.div (.neg (.num 40547483641999999 12)) (.rd (.var .T)))),
  .set (.var .Kc) (.mul (.num 1 0) (.exp (.rd (.var .Kc)))),
  .set (.arr .rev 64) (.div (.mul (.mul (.rd (.arr .C 17)) (.rd (.arr .C 0))) (.rd (.var .kf))) (.rd (.var .Kc)))]

/-- utilities/mechanisms/gri30/lib/src/rxn_rates.c:788-799 -/
def rate65 : List CStmt := [
  .set (.var .kf) (.exp (.sub (.add (.num 21128730945054574 15) (.mul (.num 5 1) (.rd (.var .logT)))) (.div (.neg (.num 55354152134507892 15)) (.rd (.var .T))))),
  .set (.arr .fwd 65) (.mul (.mul (.rd (.arr .C 1)) (.rd (.arr .C 19))) (.rd (.var .kf))),
  .ite (.rd (.var .T)) (.num 1000 0) (.var .Kc) (.sub (.add (.add (.neg (.num 14264257105 9)) (.mul (.num 30594018300000005 16) (.rd (.var .logT)))) (.mul (.rd (.var .T)) (.add (.neg (.num 38034803853526666 19)) (.mul (.rd (.var .T)) (.add (.num 8349474953326533 22) (.mul (.rd (.var .T)) (.add (.neg (.num 28122263185840126 26)) (.mul (.num 91618102046386605 30) (.rd (.var .T)))))))))) (.div (.neg (.num 63921816399999989 13)) (.rd (.var .T)))) (.sub (.add (.add (.num 11366069423999999 15) (.mul (.neg (.num 89219361999999958 17)) (.rd (.var .logT)))) (.mul (.rd (.var .T)) (.add (.neg (.num 41583445457851146 21)) (.mul (.rd (.var .T)) (.add (.neg (.num 34042378026032449 24)) (.mul (.rd (.var .T)) (.add (.num 94412827612626981 28) (.mul (.neg (.num 69240211490986809 32)) (.rd (.var .T)))))))))) (.div (.neg (.num 49672511200000008 13)) (.rd (.var .T)))),
  .set (.var .Kc) (.mul (.num 1 0) (.exp (.rd (.var .Kc)))),
  .set (.arr .rev 65) (.div (.mul (.mul (.rd (.arr .C 12)) (.rd (.arr .C 4))) (.rd (.var .kf))) (.rd (.var .Kc)))]

/-- utilities/mechanisms/gri30/lib/src/rxn_rates.c:800-811 -/
def rate66 : List CStmt := [
  .set (.var .kf) (.exp (.sub (.sub (.num 26291610340707507 15) (.mul (.num 23 2) (.rd (.var .logT)))) (.div (.num 53844493439930397 14) (.rd (.var .T))))),
  .set (.arr .fwd 66) (.mul (.mul (.rd (.arr .C 1)) (.rd (.arr .C 19))) (.rd (.var .kf))),
  .ite (.rd (.var .T)) (.num 1000 0) (.var .Kc) (.sub (.add (.add (.neg (.num 18114685991999998 15)) (.mul (.num 37910406700000001 16) (.rd (.var .logT)))) (.mul (.rd (.var .T)) (.add (.neg (.num 58098216453526669 19)) (.mul (.rd (.var .T)) (.add (.num 15691487186659863 22) (.mul (.rd (.var .T)) (.add (.neg (.num 39987453602506819 26)) (.mul (.num 81975777046386629 30) (.rd (.var .T)))))))))) (.div (.neg (.num 62491713999999993 13)) (.rd (.var .T)))) (.sub (.add (.add (.num 12055147804000001 15) (.mul (.neg (.num 94476809999999967 17)) (.rd (.var .logT)))) (.mul (.rd (.var .T)) (.add (.neg (.num 5193462834578509 19)) (.mul (.rd (.var .T)) (.add (.num 80065332640634215 24) (.mul (.rd (.var .T)) (.add (.neg (.num 61315901887372989 28)) (.mul (.num 19873111009013216 32) (.rd (.var .T)))))))))) (.div (.neg (.num 46797898199999981 13)) (.rd (.var .T)))),
  .set (.var .Kc) (.mul (.num 1 0) (.exp (.rd (.var .Kc)))),
  .set (.arr .rev 66) (.div (.mul (.mul (.rd (.arr .C 11)) (.rd (.arr .C 5))) (.rd (.var .kf))) (.rd (.var .Kc)))]

/-- utilities/mechanisms/gri30/lib/src/rxn_rates.c:812-823 -/
def rate67 : List CStmt := [
  .set (.var .kf) (.exp (.sub (.add (.num 97409686230383539 16) (.mul (.num 21 1) (.rd (.var .logT)))) (.div (.num 24506792808641221 13) (.rd (.var .T))))),
  .set (.arr .fwd 67) (.mul (.mul (.rd (.arr .C 20)) (.rd (.arr .C 1))) (.rd (.var .kf))),
  .ite (.rd (.var .T)) (.num 1000 0) (.var .Kc) (.sub (.add (.add (.num 10113989271000001 15) (.mul (.neg (.num 20071755199999997 16)) (.rd (.var .logT)))) (.mul (.rd (.var .T)) (.add (.num 14404078344647334 18) (.mul (.rd (.var .T)) (.add (.neg (.num 13131591431334014 21)) (.mul (.rd (.var .T)) (.add (.num 67320580914749317 25) (.mul (.neg (.num 14570857314536134 28)) (.rd (.var .T)))))))))) (.div (.neg (.num 39427431429999997 13)) (.rd (.var .T)))) (.sub (.add (.add (.neg (.num 14190507515999997 15)) (.mul (.num 27402369699999998 16) (.rd (.var .logT)))) (.mul (.rd (.var .T)) (.add (.neg (.num 2748731840007851 18)) (.mul (.rd (.var .T)) (.add (.num 5189089853073008 22) (.mul (.rd (.var .T)) (.add (.neg (.num 64503550272070642 27)) (.mul (.num 36115168500901318 31) (.rd (.var .T)))))))))) (.div (.neg (.num 42914503919999988 13)) (.rd (.var .T)))),
  .set (.var .Kc) (.mul (.num 1 0) (.exp (.rd (.var .Kc)))),
  .set (.arr .rev 67) (.div (.mul (.mul (.rd (.arr .C 0)) (.rd (.arr .C 18))) (.rd (.var .kf))) (.rd (.var .Kc)))]

/-- utilities/mechanisms/gri30/lib/src/rxn_rates.c:824-835 -/
def rate68 : List CStmt := [
  .set (.var .kf) (.exp (.sub (.add (.num 83428398042714598 16) (.mul (.num 21 1) (.rd (.var .logT)))) (.div (.num 24506792808641221 13) (.rd (.var .T))))),
  .set (.arr .fwd 68) (.mul (.mul (.rd (.arr .C 20)) (.rd (.arr .C 1))) (.rd (.var .kf))),
  .ite (.rd (.var .T)) (.num 1000 0) (.var .Kc) (.sub (.add (.add (.num 19550829020999998 15) (.mul (.neg (.num 37648607000000003 16)) (.rd (.var .logT)))) (.mul (.rd (.var .T)) (.add (.num 15214014324647335 18) (.mul (.rd (.var .T)) (.add (.neg (.num 13230632416334013 21)) (.mul (.rd (.var .T)) (.add (.num 6988355191474932 24) (.mul (.neg (.num 15717888704536135 28)) (.rd (.var .T)))))))))) (.div (.num 2297716270000019 13) (.rd (.var .T)))) (.sub (.add (.add (.neg (.num 17149497975999999 15)) (.mul (.num 28183702799999999 16) (.rd (.var .logT)))) (.mul (.rd (.var .T)) (.add (.neg (.num 31358673250078514 19)) (.mul (.rd (.var .T)) (.add (.num 70134685197396748 23) (.mul (.rd (.var .T)) (.add (.neg (.num 97236178272070646 27)) (.mul (.num 57979798550901317 31) (.rd (.var .T)))))))))) (.div (.neg (.num 92111160199999722 14)) (.rd (.var .T)))),
  .set (.var .Kc) (.mul (.num 1 0) (.exp (.rd (.var .Kc)))),
  .set (.arr .rev 68) (.div (.mul (.mul (.rd (.arr .C 0)) (.rd (.arr .C 19))) (.rd (.var .kf))) (.rd (.var .Kc)))]

/-- utilities/mechanisms/gri30/lib/src/rxn_rates.c:836-847 -/
def rate69 : List CStmt := [
  .set (.var .kf) (.exp (.sub (.num 32236191301916641 15) (.mul (.num 1 0) (.rd (.var .logT))))),
  .set (.arr .fwd 69) (.mul (.mul (.rd (.arr .C 1)) (.rd (.arr .C 21))) (.rd (.var .kf))),
  .ite (.rd (.var .T)) (.num 1000 0) (.var .Kc) (.sub (.add (.add (.num 12744399808999999 15) (.mul (.neg (.num 35809762359999997 16)) (.rd (.var .logT)))) (.mul (.rd (.var .T)) (.add (.num 49758008996473348 19) (.mul (.rd (.var .T)) (.add (.neg (.num 11733718996673462 22)) (.mul (.rd (.var .T)) (.add (.neg (.num 1219884001917349 25)) (.mul (.num 12162106804638661 29) (.rd (.var .T)))))))))) (.div (.neg (.num 65884072400000005 12)) (.rd (.var .T)))) (.sub (.add (.add (.neg (.num 58992561560000008 16)) (.mul (.neg (.num 52023688999999962 17)) (.rd (.var .logT)))) (.mul (.rd (.var .T)) (.add (.num 6047238215421487 19) (.mul (.rd (.var .T)) (.add (.neg (.num 89179627692699182 24)) (.mul (.rd (.var .T)) (.add (.num 13601826977929366 27) (.mul (.neg (.num 92001223990986803 32)) (.rd (.var .T)))))))))) (.div (.neg (.num 6665872570000001 11)) (.rd (.var .T)))),
  .set (.var .Kc) (.mul (.num 82057360967184814 18) (.exp (.rd (.var .Kc)))),
  .set (.arr .rev 69) (.div (.mul (.rd (.arr .C 22)) (.rd (.var .kf))) (.rd (.var .Kc)))]

/-- utilities/mechanisms/gri30/lib/src/rxn_rates.c:848-859 -/
def rate70 : List CStmt := [
  .set (.var .kf) (.exp (.sub (.num 22446032434687513 15) (.div (.num 12077269556619904 13) (.rd (.var .T))))),
  .set (.arr .fwd 70) (.mul (.mul (.rd (.arr .C 1)) (.rd (.arr .C 22))) (.rd (.var .kf))),
  .ite (.rd (.var .T)) (.num 1000 0) (.var .Kc) (.sub (.add (.add (.neg (.num 48862673529999991 16)) (.mul (.num 90378535599999998 17) (.rd (.var .logT)))) (.mul (.rd (.var .T)) (.add (.neg (.num 10923385640352667 18)) (.mul (.rd (.var .T)) (.add (.num 1023968711699932 20) (.mul (.rd (.var .T)) (.add (.neg (.num 53150857001917346 25)) (.mul (.num 11607908520463867 28) (.rd (.var .T)))))))))) (.div (.neg (.num 17042793799999999 12)) (.rd (.var .T)))) (.sub (.add (.add (.num 13095133554 9) (.mul (.neg (.num 26308456500000004 16)) (.rd (.var .logT)))) (.mul (.rd (.var .T)) (.add (.num 21842812915421487 19) (.mul (.rd (.var .T)) (.add (.neg (.num 38464583102603235 23)) (.mul (.rd (.var .T)) (.add (.num 45851726144596027 27) (.mul (.neg (.num 25068591649098675 31)) (.rd (.var .T)))))))))) (.div (.neg (.num 16796785199999998 12)) (.rd (.var .T)))),
  .set (.var .Kc) (.mul (.num 82057360967184814 18) (.exp (.rd (.var .Kc)))),
  .set (.arr .rev 70) (.div (.mul (.rd (.arr .C 23)) (.rd (.var .kf))) (.rd (.var .Kc)))]

/-- utilities/mechanisms/gri30/lib/src/rxn_rates.c:860-871 -/
def rate71 : List CStmt := [
  .set (.var .kf) (.exp (.sub (.add (.num 22528270532924488 15) (.mul (.num 27 2) (.rd (.var .logT)))) (.div (.num 14090147816056555 14) (.rd (.var .T))))),
  .set (.arr .fwd 71) (.mul (.mul (.rd (.arr .C 1)) (.rd (.arr .C 23))) (.rd (.var .kf))),
  .ite (.rd (.var .T)) (.num 1000 0) (.var .Kc) (.sub (.add (.add (.neg (.num 22132614670000001 16)) (.mul (.neg (.num 75326497000000003 17)) (.rd (.var .logT)))) (.mul (.rd (.var .T)) (.add (.neg (.num 45426570453526664 19)) (.mul (.rd (.var .T)) (.add (.num 51963480003326537 22) (.mul (.rd (.var .T)) (.add (.neg (.num 27827575501917343 25)) (.mul (.num 61366750004638666 29) (.rd (.var .T)))))))))) (.div (.neg (.num 55243730769999995 12)) (.rd (.var .T)))) (.sub (.add (.add (.num 64453412840000022 16) (.mul (.neg (.num 248061285 8)) (.rd (.var .logT)))) (.mul (.rd (.var .T)) (.add (.num 21575929615421478 19) (.mul (.rd (.var .T)) (.add (.neg (.num 3383259460260326 22)) (.mul (.rd (.var .T)) (.add (.num 37883029561262699 27) (.mul (.neg (.num 19722678699098683 31)) (.rd (.var .T)))))))))) (.div (.neg (.num 55146647660000002 12)) (.rd (.var .T)))),
  .set (.var .Kc) (.mul (.num 82057360967184814 18) (.exp (.rd (.var .Kc)))),
  .set (.arr .rev 71) (.div (.mul (.rd (.arr .C 24)) (.rd (.var .kf))) (.rd (.var .Kc)))]

/-- utilities/mechanisms/gri30/lib/src/rxn_rates.c:872-883 -/
def rate72 : List CStmt := [
  .set (.var .kf) (.num 30000000000 0),
  .set (.arr .fwd 72) (.mul (.mul (.rd (.arr .C 1)) (.rd (.arr .C 23))) (.rd (.var .kf))),
  .ite (.rd (.var .T)) (.num 1000 0) (.var .Kc) (.sub (.add (.add (.num 9118312177 9) (.mul (.neg (.num 25594542359999997 16)) (.rd (.var .logT)))) (.mul (.rd (.var .T)) (.add (.num 14913646014647333 18) (.mul (.rd (.var .T)) (.add (.neg (.num 13486045616334013 21)) (.mul (.rd (.var .T)) (.add (.num 69948531498082656 25) (.mul (.neg (.num 15295967324536134 28)) (.rd (.var .T)))))))))) (.div (.neg (.num 34822461173000003 12)) (.rd (.var .T)))) (.sub (.add (.add (.neg (.num 13744070216000001 15)) (.mul (.num 19681248299999998 16) (.rd (.var .logT)))) (.mul (.rd (.var .T)) (.add (.neg (.num 22089825050078515 19)) (.mul (.rd (.var .T)) (.add (.num 46788862197396742 23) (.mul (.rd (.var .T)) (.add (.neg (.num 60815591522070634 27)) (.mul (.num 35081359950901319 31) (.rd (.var .T)))))))))) (.div (.neg (.num 35100693522000001 12)) (.rd (.var .T)))),
  .set (.var .Kc) (.mul (.num 1 0) (.exp (.rd (.var .Kc)))),
  .set (.arr .rev 72) (.div (.mul (.mul (.rd (.arr .C 0)) (.rd (.arr .C 22))) (.rd (.var .kf))) (.rd (.var .Kc)))]

/-- utilities/mechanisms/gri30/lib/src/rxn_rates.c:884-895 -/
def rate73 : List CStmt := [
  .set (.var .kf) (.exp (.sub (.add (.num 20107079697522593 15) (.mul (.num 454 3) (.rd (.var .logT)))) (.div (.num 91585960804367608 14) (.rd (.var .T))))),
  .set (.arr .fwd 73) (.mul (.mul (.rd (.arr .C 1)) (.rd (.arr .C 24))) (.rd (.var .kf))),
  .ite (.rd (.var .T)) (.num 1000 0) (.var .Kc) (.sub (.add (.add (.num 32092969330000005 16) (.mul (.neg (.num 11527358000000003 16)) (.rd (.var .logT)))) (.mul (.rd (.var .T)) (.add (.num 16919667746473337 19) (.mul (.rd (.var .T)) (.add (.neg (.num 12307914163340125 22)) (.mul (.rd (.var .T)) (.add (.num 77051789147493195 26) (.mul (.neg (.num 19687684495361349 29)) (.rd (.var .T)))))))))) (.div (.neg (.num 17721809329999996 12)) (.rd (.var .T)))) (.sub (.add (.add (.num 61852026639999984 16) (.mul (.neg (.num 15814547499999998 16)) (.rd (.var .logT)))) (.mul (.rd (.var .T)) (.add (.num 13759285615421498 19) (.mul (.rd (.var .T)) (.add (.neg (.num 21188125769269901 23)) (.mul (.rd (.var .T)) (.add (.num 23328972061262663 27) (.mul (.neg (.num 11967757749098668 31)) (.rd (.var .T)))))))))) (.div (.neg (.num 17556026039999997 12)) (.rd (.var .T)))),
  .set (.var .Kc) (.mul (.num 82057360967184814 18) (.exp (.rd (.var .Kc)))),
  .set (.arr .rev 73) (.div (.mul (.rd (.arr .C 25)) (.rd (.var .kf))) (.rd (.var .Kc)))]

/-- utilities/mechanisms/gri30/lib/src/rxn_rates.c:896-907 -/
def rate74 : List CStmt := [
  .set (.var .kf) (.exp (.sub (.add (.num 71891677384203225 16) (.mul (.num 253 2) (.rd (.var .logT)))) (.div (.num 6159407473876151 12) (.rd (.var .T))))),
  .set (.arr .fwd 74) (.mul (.mul (.rd (.arr .C 1)) (.rd (.arr .C 24))) (.rd (.var .kf))),
  .ite (.rd (.var .T)) (.num 1000 0) (.var .Kc) (.sub (.add (.add (.num 64453062909999996 16) (.mul (.neg (.num 90240390999999986 17)) (.rd (.var .logT)))) (.mul (.rd (.var .T)) (.add (.num 85329174196473335 19) (.mul (.rd (.var .T)) (.add (.neg (.num 84427064996673472 22)) (.mul (.rd (.var .T)) (.add (.num 44625249998082653 25) (.mul (.neg (.num 98247338045361357 29)) (.rd (.var .T)))))))))) (.div (.num 33784757970000028 13) (.rd (.var .T)))) (.sub (.add (.add (.neg (.num 70942779460000009 16)) (.mul (.num 18178920299999994 16) (.rd (.var .logT)))) (.mul (.rd (.var .T)) (.add (.neg (.num 21822941750078515 19)) (.mul (.rd (.var .T)) (.add (.num 42156873697396772 23) (.mul (.rd (.var .T)) (.add (.neg (.num 52846894938737325 27)) (.mul (.num 29735447000901326 31) (.rd (.var .T)))))))))) (.div (.num 3249168937999998 12) (.rd (.var .T)))),
  .set (.var .Kc) (.mul (.num 1 0) (.exp (.rd (.var .Kc)))),
  .set (.arr .rev 74) (.div (.mul (.mul (.rd (.arr .C 0)) (.rd (.arr .C 23))) (.rd (.var .kf))) (.rd (.var .Kc)))]

/-- utilities/mechanisms/gri30/lib/src/rxn_rates.c:908-919 -/
def rate75 : List CStmt := [
  .set (.var .kf) (.exp (.sub (.sub (.num 33886771157681913 15) (.mul (.num 99 2) (.rd (.var .logT)))) (.div (.num 79508691247747697 14) (.rd (.var .T))))),
  .set (.arr .fwd 75) (.mul (.mul (.rd (.arr .C 1)) (.rd (.arr .C 25))) (.rd (.var .kf))),
  .ite (.rd (.var .T)) (.num 1000 0) (.var .Kc) (.sub (.add (.add (.num 92133753299999954 17) (.mul (.neg (.num 15150407599999998 16)) (.rd (.var .logT)))) (.mul (.rd (.var .T)) (.add (.neg (.num 65747689035266588 20)) (.mul (.rd (.var .T)) (.add (.num 17049246836659875 22) (.mul (.rd (.var .T)) (.add (.neg (.num 91116399185840205 26)) (.mul (.num 1908838350463865 28) (.rd (.var .T)))))))))) (.div (.neg (.num 49837491899999994 12)) (.rd (.var .T)))) (.sub (.add (.add (.num 54826342439999998 16) (.mul (.neg (.num 23827749300000001 16)) (.rd (.var .logT)))) (.mul (.rd (.var .T)) (.add (.num 21439977615421487 19) (.mul (.rd (.var .T)) (.add (.neg (.num 34059000602603242 23)) (.mul (.rd (.var .T)) (.add (.num 38495260394596016 27) (.mul (.neg (.num 20180657249098672 31)) (.rd (.var .T)))))))))) (.div (.neg (.num 49757573099999994 12)) (.rd (.var .T)))),
  .set (.var .Kc) (.mul (.num 82057360967184814 18) (.exp (.rd (.var .Kc)))),
  .set (.arr .rev 75) (.div (.mul (.rd (.arr .C 26)) (.rd (.var .kf))) (.rd (.var .Kc)))]

/-- utilities/mechanisms/gri30/lib/src/rxn_rates.c:920-931 -/
def rate76 : List CStmt := [
  .set (.var .kf) (.num 2000000000 0),
  .set (.arr .fwd 76) (.mul (.mul (.rd (.arr .C 1)) (.rd (.arr .C 25))) (.rd (.var .kf))),
  .ite (.rd (.var .T)) (.num 1000 0) (.var .Kc) (.sub (.add (.add (.num 10227478909999994 16) (.mul (.neg (.num 50293307999999914 17)) (.rd (.var .logT)))) (.mul (.rd (.var .T)) (.add (.num 22982935996473334 19) (.mul (.rd (.var .T)) (.add (.neg (.num 20155670830006801 22)) (.mul (.rd (.var .T)) (.add (.num 909249558141599 24) (.mul (.neg (.num 17192903545361343 29)) (.rd (.var .T)))))))))) (.div (.neg (.num 34143445642999999 12)) (.rd (.var .T)))) (.sub (.add (.add (.neg (.num 68341393259999972 16)) (.mul (.num 9187339299999997 16) (.rd (.var .logT)))) (.mul (.rd (.var .T)) (.add (.neg (.num 14006297750078526 19)) (.mul (.rd (.var .T)) (.add (.num 29512404864063403 23) (.mul (.rd (.var .T)) (.add (.neg (.num 38292837438737289 27)) (.mul (.num 21980526050901319 31) (.rd (.var .T)))))))))) (.div (.neg (.num 34341452682000003 12)) (.rd (.var .T)))),
  .set (.var .Kc) (.mul (.num 1 0) (.exp (.rd (.var .Kc)))),
  .set (.arr .rev 76) (.div (.mul (.mul (.rd (.arr .C 0)) (.rd (.arr .C 24))) (.rd (.var .kf))) (.rd (.var .Kc)))]

/-- utilities/mechanisms/gri30/lib/src/rxn_rates.c:932-943 -/
def rate77 : List CStmt := [
  .set (.var .kf) (.exp (.sub (.add (.num 11652687407345388 15) (.mul (.num 19 1) (.rd (.var .logT)))) (.div (.num 37892433233894944 13) (.rd (.var .T))))),
  .set (.arr .fwd 77) (.mul (.mul (.rd (.arr .C 26)) (.rd (.arr .C 1))) (.rd (.var .kf))),
  .ite (.rd (.var .T)) (.num 1000 0) (.var .Kc) (.sub (.add (.add (.num 33107072910000004 16) (.mul (.neg (.num 14062811999999969 17)) (.rd (.var .logT)))) (.mul (.rd (.var .T)) (.add (.num 46477372646473326 19) (.mul (.rd (.var .T)) (.add (.neg (.num 49512831830006802 22)) (.mul (.rd (.var .T)) (.add (.num 2590931441474933 24) (.mul (.neg (.num 55968971545361332 29)) (.rd (.var .T)))))))))) (.div (.neg (.num 20277630729999983 13)) (.rd (.var .T)))) (.sub (.add (.add (.neg (.num 61315709060000012 16)) (.mul (.num 172005411 8) (.rd (.var .logT)))) (.mul (.rd (.var .T)) (.add (.neg (.num 21686989750078511 19)) (.mul (.rd (.var .T)) (.add (.num 42383279697396738 23) (.mul (.rd (.var .T)) (.add (.neg (.num 53459125772070642 27)) (.mul (.num 30193425550901323 31) (.rd (.var .T)))))))))) (.div (.neg (.num 21399056219999984 13)) (.rd (.var .T)))),
  .set (.var .Kc) (.mul (.num 1 0) (.exp (.rd (.var .Kc)))),
  .set (.arr .rev 77) (.div (.mul (.mul (.rd (.arr .C 0)) (.rd (.arr .C 25))) (.rd (.var .kf))) (.rd (.var .Kc)))]

/-- utilities/mechanisms/gri30/lib/src/rxn_rates.c:944-955 -/
def rate78 : List CStmt := [
  .set (.var .kf) (.num 100000000000 0),
  .set (.arr .fwd 78) (.mul (.mul (.rd (.arr .C 1)) (.rd (.arr .C 27))) (.rd (.var .kf))),
  .ite (.rd (.var .T)) (.num 1000 0) (.var .Kc) (.sub (.add (.add (.neg (.num 12330860013999999 15)) (.mul (.num 30264161799999991 16) (.rd (.var .logT)))) (.mul (.rd (.var .T)) (.add (.neg (.num 10315994435352666 18)) (.mul (.rd (.var .T)) (.add (.num 54964795886659863 22) (.mul (.rd (.var .T)) (.add (.neg (.num 19214094106917347 25)) (.mul (.num 30526019859638665 29) (.rd (.var .T)))))))))) (.div (.neg (.num 93803786000000036 13)) (.rd (.var .T)))) (.sub (.add (.add (.num 23943113603999997 15) (.mul (.neg (.num 31209817800000001 16)) (.rd (.var .logT)))) (.mul (.rd (.var .T)) (.add (.num 13165368615421485 19) (.mul (.rd (.var .T)) (.add (.neg (.num 23621509285936576 23)) (.mul (.rd (.var .T)) (.add (.num 30141541061262692 27) (.mul (.neg (.num 17464288299098678 31)) (.rd (.var .T)))))))))) (.div (.neg (.num 80267475999999988 13)) (.rd (.var .T)))),
  .set (.var .Kc) (.mul (.num 1 0) (.exp (.rd (.var .Kc)))),
  .set (.arr .rev 78) (.div (.mul (.mul (.rd (.arr .C 11)) (.rd (.arr .C 14))) (.rd (.var .kf))) (.rd (.var .Kc)))]

/-- utilities/mechanisms/gri30/lib/src/rxn_rates.c:956-967 -/
def rate79 : List CStmt := [
  .set (.var .kf) (.exp (.sub (.num 24635288842374557 15) (.div (.num 4025756518873301 12) (.rd (.var .T))))),
  .set (.arr .fwd 79) (.mul (.mul (.rd (.arr .C 1)) (.rd (.arr .C 28))) (.rd (.var .kf))),
  .ite (.rd (.var .T)) (.num 1000 0) (.var .Kc) (.sub (.add (.add (.num 14442458709999997 16) (.mul (.neg (.num 39783779999999602 18)) (.rd (.var .logT)))) (.mul (.rd (.var .T)) (.add (.num 37583348246473334 19) (.mul (.rd (.var .T)) (.add (.neg (.num 43020840996673466 22)) (.mul (.rd (.var .T)) (.add (.num 23407493931415991 25) (.mul (.neg (.num 52140112795361349 29)) (.rd (.var .T)))))))))) (.div (.num 71077196699999968 14) (.rd (.var .T)))) (.sub (.add (.add (.neg (.num 92750347709999996 16)) (.mul (.num 19541876699999996 16) (.rd (.var .logT)))) (.mul (.rd (.var .T)) (.add (.neg (.num 24838299000078507 19)) (.mul (.rd (.var .T)) (.add (.num 51256640197396746 23) (.mul (.rd (.var .T)) (.add (.neg (.num 68054312605403973 27)) (.mul (.num 4005076260090132 30) (.rd (.var .T)))))))))) (.div (.num 45444928800000253 14) (.rd (.var .T)))),
  .set (.var .Kc) (.mul (.num 1 0) (.exp (.rd (.var .Kc)))),
  .set (.arr .rev 79) (.div (.mul (.mul (.rd (.arr .C 0)) (.rd (.arr .C 27))) (.rd (.var .kf))) (.rd (.var .Kc)))]

/-- utilities/mechanisms/gri30/lib/src/rxn_rates.c:968-979 -/
def rate80 : List CStmt := [
  .set (.var .kf) (.exp (.sub (.num 23148068562664704 15) (.div (.num 17250366683372094 13) (.rd (.var .T))))),
  .set (.arr .fwd 80) (.mul (.mul (.rd (.arr .C 1)) (.rd (.arr .C 28))) (.rd (.var .kf))),
  .ite (.rd (.var .T)) (.num 1000 0) (.var .Kc) (.sub (.add (.add (.neg (.num 92732791070000005 16)) (.mul (.num 26172875699999998 16) (.rd (.var .logT)))) (.mul (.rd (.var .T)) (.add (.neg (.num 83591370153526662 19)) (.mul (.rd (.var .T)) (.add (.num 40236300486659869 22) (.mul (.rd (.var .T)) (.add (.neg (.num 12756786706917347 25)) (.mul (.num 18270044959638663 29) (.rd (.var .T)))))))))) (.div (.neg (.num 16329829059999996 12)) (.rd (.var .T)))) (.sub (.add (.add (.num 18123589218999999 15) (.mul (.neg (.num 20103939999999998 16)) (.rd (.var .logT)))) (.mul (.rd (.var .T)) (.add (.num 14941518654214888 20) (.mul (.rd (.var .T)) (.add (.num 30571180473967484 24) (.mul (.rd (.var .T)) (.add (.neg (.num 81340187720706427 28)) (.mul (.num 62018043009013177 32) (.rd (.var .T)))))))))) (.div (.neg (.num 1529889489 5)) (.rd (.var .T)))),
  .set (.var .Kc) (.mul (.num 1 0) (.exp (.rd (.var .Kc)))),
  .set (.arr .rev 80) (.div (.mul (.mul (.rd (.arr .C 12)) (.rd (.arr .C 14))) (.rd (.var .kf))) (.rd (.var .Kc)))]

/-- utilities/mechanisms/gri30/lib/src/rxn_rates.c:980-991 -/
def rate81 : List CStmt := [
  .set (.var .kf) (.num 10000000000 0),
  .set (.arr .fwd 81) (.mul (.mul (.rd (.arr .C 1)) (.rd (.arr .C 29))) (.rd (.var .kf))),
  .ite (.rd (.var .T)) (.num 1000 0) (.var .Kc) (.sub (.add (.add (.neg (.num 25521339999999988 16)) (.mul (.num 8934629999999999 16) (.rd (.var .logT)))) (.mul (.rd (.var .T)) (.add (.neg (.num 64766644500000008 19)) (.mul (.rd (.var .T)) (.add (.num 55786861000000013 22) (.mul (.rd (.var .T)) (.add (.neg (.num 28160962766666671 25)) (.mul (.num 60000089250000002 29) (.rd (.var .T)))))))))) (.div (.neg (.num 1507453234 5)) (.rd (.var .T)))) (.sub (.add (.add (.num 96465531850000001 16) (.mul (.neg (.num 14125317800000001 16)) (.rd (.var .logT)))) (.mul (.rd (.var .T)) (.add (.num 11056187249999998 19) (.mul (.rd (.var .T)) (.add (.neg (.num 26725665833333327 23)) (.mul (.rd (.var .T)) (.add (.num 39455622666666665 27) (.mul (.neg (.num 24771859549999999 31)) (.rd (.var .T)))))))))) (.div (.neg (.num 14815679110000001 12)) (.rd (.var .T)))),
  .set (.var .Kc) (.mul (.num 1 0) (.exp (.rd (.var .Kc)))),
  .set (.arr .rev 81) (.div (.mul (.mul (.rd (.arr .C 1)) (.rd (.arr .C 28))) (.rd (.var .kf))) (.rd (.var .Kc)))]

/-- utilities/mechanisms/gri30/lib/src/rxn_rates.c:992-1003 -/
def rate82 : List CStmt := [
  .set (.var .kf) (.exp (.sub (.add (.num 10668955394675699 15) (.mul (.num 15 1) (.rd (.var .logT)))) (.div (.num 40056277362789348 12) (.rd (.var .T))))),
  .set (.arr .fwd 82) (.mul (.mul (.rd (.arr .C 0)) (.rd (.arr .C 14))) (.rd (.var .kf))),
  .ite (.rd (.var .T)) (.num 1000 0) (.var .Kc) (.sub (.add (.add (.neg (.num 2458465178 9)) (.mul (.neg (.num 13014144000000005 17)) (.rd (.var .logT)))) (.mul (.rd (.var .T)) (.add (.neg (.num 86392503799999978 19)) (.mul (.rd (.var .T)) (.add (.num 92972229116666652 22) (.mul (.rd (.var .T)) (.add (.neg (.num 49160617820000005 25)) (.mul (.num 107289036545 23) (.rd (.var .T)))))))))) (.div (.num 95306447299999854 14) (.rd (.var .T)))) (.sub (.add (.add (.num 13334433319999999 15) (.mul (.neg (.num 32917747299999993 16)) (.rd (.var .logT)))) (.mul (.rd (.var .T)) (.add (.num 359343793155 14) (.mul (.rd (.var .T)) (.add (.neg (.num 65386985616666657 23)) (.mul (.rd (.var .T)) (.add (.num 79660458833333329 27) (.mul (.neg (.num 44023165000000007 31)) (.rd (.var .T)))))))))) (.div (.num 11061990220000007 13) (.rd (.var .T)))),
  .set (.var .Kc) (.mul (.num 82057360967184814 18) (.exp (.rd (.var .Kc)))),
  .set (.arr .rev 82) (.div (.mul (.rd (.arr .C 17)) (.rd (.var .kf))) (.rd (.var .Kc)))]

/-- utilities/mechanisms/gri30/lib/src/rxn_rates.c:1004-1015 -/
def rate83 : List CStmt := [
  .set (.var .kf) (.exp (.sub (.add (.num 12283033686666302 15) (.mul (.num 151 2) (.rd (.var .logT)))) (.div (.num 17260431074669279 13) (.rd (.var .T))))),
  .set (.arr .fwd 83) (.mul (.mul (.rd (.arr .C 0)) (.rd (.arr .C 4))) (.rd (.var .kf))),
  .ite (.rd (.var .T)) (.num 1000 0) (.var .Kc) (.sub (.add (.add (.neg (.num 2237093851 9)) (.mul (.num 36229401000000028 17) (.rd (.var .logT)))) (.mul (.rd (.var .T)) (.add (.neg (.num 38078186646473338 19)) (.mul (.rd (.var .T)) (.add (.num 35634357830006797 22) (.mul (.rd (.var .T)) (.add (.neg (.num 18136705573082654 25)) (.mul (.num 38919905395361339 29) (.rd (.var .T)))))))))) (.div (.neg (.num 7517212187000001 12)) (.rd (.var .T)))) (.sub (.add (.add (.num 4144588766 9) (.mul (.neg (.num 89617436999999978 17)) (.rd (.var .logT)))) (.mul (.rd (.var .T)) (.add (.num 83894538700785145 20) (.mul (.rd (.var .T)) (.add (.neg (.num 13167241797396752 23)) (.mul (.rd (.var .T)) (.add (.num 14205879822070639 27) (.mul (.neg (.num 74733377509013216 32)) (.rd (.var .T)))))))))) (.div (.neg (.num 74391352780000016 13)) (.rd (.var .T)))),
  .set (.var .Kc) (.mul (.num 1 0) (.exp (.rd (.var .Kc)))),
  .set (.arr .rev 83) (.div (.mul (.mul (.rd (.arr .C 1)) (.rd (.arr .C 5))) (.rd (.var .kf))) (.rd (.var .Kc)))]

/-- utilities/mechanisms/gri30/lib/src/rxn_rates.c:1016-1027 -/
def rate84 : List CStmt := [
  .set (.var .kf) (.exp (.sub (.num 2502733093015058 14) (.mul (.num 37 2) (.rd (.var .logT))))),
  .set (.arr .fwd 84) (.mul (.mul (.rd (.arr .C 4)) (.rd (.arr .C 4))) (.rd (.var .kf))),
  .ite (.rd (.var .T)) (.num 1000 0) (.var .Kc) (.sub (.add (.add (.num 73508198260000004 16) (.mul (.neg (.num 27079181700000001 16)) (.rd (.var .logT)))) (.mul (.rd (.var .T)) (.add (.num 21299063115000003 19) (.mul (.rd (.var .T)) (.add (.num 12496155466666669 22) (.mul (.rd (.var .T)) (.add (.neg (.num 11512345533333333 25)) (.mul (.num 29481571150000003 29) (.rd (.var .T)))))))))) (.div (.neg (.num 2493274322 5)) (.rd (.var .T)))) (.sub (.add (.add (.neg (.num 40164630899999985 16)) (.mul (.neg (.num 10207724900000006 16)) (.rd (.var .logT)))) (.mul (.rd (.var .T)) (.add (.num 1905728754 12) (.mul (.rd (.var .T)) (.add (.neg (.num 35906711766666662 23)) (.mul (.rd (.var .T)) (.add (.num 455898581 19) (.mul (.neg (.num 26136652849999998 31)) (.rd (.var .T)))))))))) (.div (.neg (.num 25579101699999999 12)) (.rd (.var .T)))),
  .set (.var .Kc) (.mul (.num 82057360967184814 18) (.exp (.rd (.var .Kc)))),
  .set (.arr .rev 84) (.div (.mul (.rd (.arr .C 7)) (.rd (.var .kf))) (.rd (.var .Kc)))]

/-- utilities/mechanisms/gri30/lib/src/rxn_rates.c:1028-1039 -/
def rate85 : List CStmt := [
  .set (.var .kf) (.exp (.sub (.add (.num 35751506887855933 16) (.mul (.num 24 1) (.rd (.var .logT)))) (.div (.neg (.num 10617932818528332 13)) (.rd (.var .T))))),
  .set (.arr .fwd 85) (.mul (.mul (.rd (.arr .C 4)) (.rd (.arr .C 4))) (.rd (.var .kf))),
  .ite (.rd (.var .T)) (.num 1000 0) (.var .Kc) (.sub (.add (.add (.num 20278753680000001 16) (.mul (.neg (.num 61712319999999909 17)) (.rd (.var .logT)))) (.mul (.rd (.var .T)) (.add (.neg (.num 25655894999999972 20)) (.mul (.rd (.var .T)) (.add (.num 65459820833333341 23) (.mul (.rd (.var .T)) (.add (.neg (.num 32114751666666654 26)) (.mul (.num 57820423999999999 30) (.rd (.var .T)))))))))) (.div (.neg (.num 84016286199999995 13)) (.rd (.var .T)))) (.sub (.add (.add (.num 13800786099999991 16) (.mul (.neg (.num 58236206999999984 17)) (.rd (.var .logT)))) (.mul (.rd (.var .T)) (.add (.num 49704224715000018 20) (.mul (.rd (.var .T)) (.add (.neg (.num 62522419183333327 24)) (.mul (.rd (.var .T)) (.add (.num 57360453583333335 28) (.mul (.neg (.num 27170195449999994 32)) (.rd (.var .T)))))))))) (.div (.neg (.num 85040320000000011 13)) (.rd (.var .T)))),
  .set (.var .Kc) (.mul (.num 1 0) (.exp (.rd (.var .Kc)))),
  .set (.arr .rev 85) (.div (.mul (.mul (.rd (.arr .C 5)) (.rd (.arr .C 2))) (.rd (.var .kf))) (.rd (.var .Kc)))]

/-- utilities/mechanisms/gri30/lib/src/rxn_rates.c:1040-1051 -/
def rate86 : List CStmt := [
  .set (.var .kf) (.exp (.sub (.num 23397414486372941 15) (.div (.neg (.num 25160978242958132 14)) (.rd (.var .T))))),
  .set (.arr .fwd 86) (.mul (.mul (.rd (.arr .C 6)) (.rd (.arr .C 4))) (.rd (.var .kf))),
  .ite (.rd (.var .T)) (.num 1000 0) (.var .Kc) (.sub (.add (.add (.neg (.num 49137695000000026 17)) (.mul (.neg (.num 31271651999999905 17)) (.rd (.var .logT)))) (.mul (.rd (.var .T)) (.add (.num 10586348849999999 19) (.mul (.rd (.var .T)) (.add (.neg (.num 15680872316666664 22)) (.mul (.rd (.var .T)) (.add (.num 10823547516666667 25) (.mul (.neg (.num 28203297000000007 29)) (.rd (.var .T)))))))))) (.div (.neg (.num 35267558859999997 12)) (.rd (.var .T)))) (.sub (.add (.add (.num 29517713799999998 16) (.mul (.neg (.num 79356824000000037 17)) (.rd (.var .logT)))) (.mul (.rd (.var .T)) (.add (.num 43587786700000021 20) (.mul (.rd (.var .T)) (.add (.neg (.num 69147710833333339 24)) (.mul (.rd (.var .T)) (.add (.num 71773627999999976 28) (.mul (.neg (.num 29010321499999993 32)) (.rd (.var .T)))))))))) (.div (.neg (.num 35063268533000002 12)) (.rd (.var .T)))),
  .set (.var .Kc) (.mul (.num 1 0) (.exp (.rd (.var .Kc)))),
  .set (.arr .rev 86) (.div (.mul (.mul (.rd (.arr .C 5)) (.rd (.arr .C 3))) (.rd (.var .kf))) (.rd (.var .Kc)))]

/-- utilities/mechanisms/gri30/lib/src/rxn_rates.c:1052-1063 -/
def rate87 : List CStmt := [
  .set (.var .kf) (.exp (.sub (.num 21416413017506358 15) (.div (.num 21487475419486245 14) (.rd (.var .T))))),
  .set (.arr .fwd 87) (.mul (.mul (.rd (.arr .C 7)) (.rd (.arr .C 4))) (.rd (.var .kf))),
  .ite (.rd (.var .T)) (.num 1000 0) (.var .Kc) (.sub (.add (.add (.neg (.num 69580548999999881 17)) (.mul (.num 23231045000000039 17) (.rd (.var .logT)))) (.mul (.rd (.var .T)) (.add (.neg (.num 19207073364999998 19)) (.mul (.rd (.var .T)) (.add (.num 10545304499999991 22) (.mul (.rd (.var .T)) (.add (.neg (.num 35884544916666672 26)) (.mul (.num 53778554000000007 30) (.rd (.var .T)))))))))) (.div (.neg (.num 1591141712 5)) (.rd (.var .T)))) (.sub (.add (.add (.num 15657066599999991 16) (.mul (.neg (.num 20668712999999928 17)) (.rd (.var .logT)))) (.mul (.rd (.var .T)) (.add (.neg (.num 52000424299999991 20)) (.mul (.rd (.var .T)) (.add (.num 16285939233333333 23) (.mul (.rd (.var .T)) (.add (.neg (.num 22169620616666662 27)) (.mul (.num 115394193 23) (.rd (.var .T)))))))))) (.div (.neg (.num 15889309686999997 12)) (.rd (.var .T)))),
  .set (.var .Kc) (.mul (.num 1 0) (.exp (.rd (.var .Kc)))),
  .set (.arr .rev 87) (.div (.mul (.mul (.rd (.arr .C 5)) (.rd (.arr .C 6))) (.rd (.var .kf))) (.rd (.var .Kc)))]

/-- utilities/mechanisms/gri30/lib/src/rxn_rates.c:1064-1075 -/
def rate88 : List CStmt := [
  .set (.var .kf) (.exp (.sub (.num 35069404645972853 15) (.div (.num 14799687402507972 12) (.rd (.var .T))))),
  .set (.arr .fwd 88) (.mul (.mul (.rd (.arr .C 7)) (.rd (.arr .C 4))) (.rd (.var .kf))),
  .ite (.rd (.var .T)) (.num 1000 0) (.var .Kc) (.sub (.add (.add (.neg (.num 69580548999999881 17)) (.mul (.num 23231045000000039 17) (.rd (.var .logT)))) (.mul (.rd (.var .T)) (.add (.neg (.num 19207073364999998 19)) (.mul (.rd (.var .T)) (.add (.num 10545304499999991 22) (.mul (.rd (.var .T)) (.add (.neg (.num 35884544916666672 26)) (.mul (.num 53778554000000007 30) (.rd (.var .T)))))))))) (.div (.neg (.num 1591141712 5)) (.rd (.var .T)))) (.sub (.add (.add (.num 15657066599999991 16) (.mul (.neg (.num 20668712999999928 17)) (.rd (.var .logT)))) (.mul (.rd (.var .T)) (.add (.neg (.num 52000424299999991 20)) (.mul (.rd (.var .T)) (.add (.num 16285939233333333 23) (.mul (.rd (.var .T)) (.add (.neg (.num 22169620616666662 27)) (.mul (.num 115394193 23) (.rd (.var .T)))))))))) (.div (.neg (.num 15889309686999997 12)) (.rd (.var .T)))),
  .set (.var .Kc) (.mul (.num 1 0) (.exp (.rd (.var .Kc)))),
  .set (.arr .rev 88) (.div (.mul (.mul (.rd (.arr .C 5)) (.rd (.arr .C 6))) (.rd (.var .kf))) (.rd (.var .Kc)))]

/-- utilities/mechanisms/gri30/lib/src/rxn_rates.c:1076-1087 -/
def rate89 : List CStmt := [
  .set (.var .kf) (.num 50000000000 0),
  .set (.arr .fwd 89) (.mul (.mul (.rd (.arr .C 8)) (.rd (.arr .C 4))) (.rd (.var .kf))),
  .ite (.rd (.var .T)) (.num 1000 0) (.var .Kc) (.sub (.add (.add (.neg (.num 89893508499999886 17)) (.mul (.neg (.num 46672151000000062 17)) (.rd (.var .logT)))) (.mul (.rd (.var .T)) (.add (.num 10562507823526665 19) (.mul (.rd (.var .T)) (.add (.neg (.num 72248605449931987 23)) (.mul (.rd (.var .T)) (.add (.num 46003117544173469 26) (.mul (.neg (.num 12675303229638663 29)) (.rd (.var .T)))))))))) (.div (.neg (.num 77929389859999996 12)) (.rd (.var .T)))) (.sub (.add (.add (.neg (.num 15358240940000001 16)) (.mul (.neg (.num 37037093000000043 17)) (.rd (.var .logT)))) (.mul (.rd (.var .T)) (.add (.num 73305438125785126 20) (.mul (.rd (.var .T)) (.add (.neg (.num 17548291347396754 23)) (.mul (.rd (.var .T)) (.add (.num 23380837997070637 27) (.mul (.neg (.num 13616614885901321 31)) (.rd (.var .T)))))))))) (.div (.neg (.num 77988164799999999 12)) (.rd (.var .T)))),
  .set (.var .Kc) (.mul (.num 1 0) (.exp (.rd (.var .Kc)))),
  .set (.arr .rev 89) (.div (.mul (.mul (.rd (.arr .C 1)) (.rd (.arr .C 14))) (.rd (.var .kf))) (.rd (.var .Kc)))]

/-- utilities/mechanisms/gri30/lib/src/rxn_rates.c:1088-1099 -/
def rate90 : List CStmt := [
  .set (.var .kf) (.num 30000000000 0),
  .set (.arr .fwd 90) (.mul (.mul (.rd (.arr .C 9)) (.rd (.arr .C 4))) (.rd (.var .kf))),
  .ite (.rd (.var .T)) (.num 1000 0) (.var .Kc) (.sub (.add (.add (.num 17282501950000002 16) (.mul (.neg (.num 76064623999999936 17)) (.rd (.var .logT)))) (.mul (.rd (.var .T)) (.add (.neg (.num 58322167014733355 20)) (.mul (.rd (.var .T)) (.add (.num 180849947300068 20) (.mul (.rd (.var .T)) (.add (.neg (.num 10496207698082652 25)) (.mul (.num 21898323095361336 29) (.rd (.var .T)))))))))) (.div (.neg (.num 45099149099999995 12)) (.rd (.var .T)))) (.sub (.add (.add (.num 89163925999999893 18) (.mul (.neg (.num 69917801000000024 17)) (.rd (.var .logT)))) (.mul (.rd (.var .T)) (.add (.num 17188059199578511 19) (.mul (.rd (.var .T)) (.add (.neg (.num 45923449947396753 23)) (.mul (.rd (.var .T)) (.add (.num 67316314822070638 27) (.mul (.neg (.num 4135002325090132 30)) (.rd (.var .T)))))))))) (.div (.neg (.num 45385515350000009 12)) (.rd (.var .T)))),
  .set (.var .Kc) (.mul (.num 1 0) (.exp (.rd (.var .Kc)))),
  .set (.arr .rev 90) (.div (.mul (.mul (.rd (.arr .C 1)) (.rd (.arr .C 16))) (.rd (.var .kf))) (.rd (.var .Kc)))]

/-- utilities/mechanisms/gri30/lib/src/rxn_rates.c:1100-1111 -/
def rate91 : List CStmt := [
  .set (.var .kf) (.num 20000000000 0),
  .set (.arr .fwd 91) (.mul (.mul (.rd (.arr .C 10)) (.rd (.arr .C 4))) (.rd (.var .kf))),
  .ite (.rd (.var .T)) (.num 1000 0) (.var .Kc) (.sub (.add (.add (.neg (.num 84150539499999955 17)) (.mul (.neg (.num 4609709500000001 16)) (.rd (.var .logT)))) (.mul (.rd (.var .T)) (.add (.neg (.num 42379441561473333 19)) (.mul (.rd (.var .T)) (.add (.num 49848606630006789 22) (.mul (.rd (.var .T)) (.add (.neg (.num 25163734364749319 25)) (.mul (.num 50628666545361342 29) (.rd (.var .T)))))))))) (.div (.neg (.num 38454417460000004 12)) (.rd (.var .T)))) (.sub (.add (.add (.num 4268049456 9) (.mul (.neg (.num 17062987100000004 16)) (.rd (.var .logT)))) (.mul (.rd (.var .T)) (.add (.num 24975890804578519 19) (.mul (.rd (.var .T)) (.add (.neg (.num 52335789530730089 23)) (.mul (.rd (.var .T)) (.add (.num 69514893488737301 27) (.mul (.neg (.num 40677022200901327 31)) (.rd (.var .T)))))))))) (.div (.neg (.num 38644433400000002 12)) (.rd (.var .T)))),
  .set (.var .Kc) (.mul (.num 1 0) (.exp (.rd (.var .Kc)))),
  .set (.arr .rev 91) (.div (.mul (.mul (.rd (.arr .C 17)) (.rd (.arr .C 1))) (.rd (.var .kf))) (.rd (.var .Kc)))]

/-- utilities/mechanisms/gri30/lib/src/rxn_rates.c:1112-1123 -/
def rate92 : List CStmt := [
  .set (.var .kf) (.exp (.sub (.add (.num 93325580047004326 16) (.mul (.num 2 0) (.rd (.var .logT)))) (.div (.num 15096586945774879 13) (.rd (.var .T))))),
  .set (.arr .fwd 92) (.mul (.mul (.rd (.arr .C 10)) (.rd (.arr .C 4))) (.rd (.var .kf))),
  .ite (.rd (.var .T)) (.num 1000 0) (.var .Kc) (.sub (.add (.add (.neg (.num 1573906299999992 16)) (.mul (.neg (.num 66236889999999882 18)) (.rd (.var .logT)))) (.mul (.rd (.var .T)) (.add (.neg (.num 14007659100000007 20)) (.mul (.rd (.var .T)) (.add (.neg (.num 43023756000000006 23)) (.mul (.rd (.var .T)) (.add (.num 45052062583333334 26) (.mul (.neg (.num 1342822195 22)) (.rd (.var .T)))))))))) (.div (.neg (.num 91155539600000029 13)) (.rd (.var .T)))) (.sub (.add (.add (.neg (.num 14160766999999996 17)) (.mul (.neg (.num 54531579999999913 18)) (.rd (.var .logT)))) (.mul (.rd (.var .T)) (.add (.neg (.num 52849545749999972 20)) (.mul (.rd (.var .T)) (.add (.num 21046897983333333 23) (.mul (.rd (.var .T)) (.add (.neg (.num 33330269116666662 27)) (.mul (.num 20729778299999996 31) (.rd (.var .T)))))))))) (.div (.neg (.num 91141216999999888 13)) (.rd (.var .T)))),
  .set (.var .Kc) (.mul (.num 1 0) (.exp (.rd (.var .Kc)))),
  .set (.arr .rev 92) (.div (.mul (.mul (.rd (.arr .C 5)) (.rd (.arr .C 9))) (.rd (.var .kf))) (.rd (.var .Kc)))]

/-- utilities/mechanisms/gri30/lib/src/rxn_rates.c:1124-1135 -/
def rate93 : List CStmt := [
  .set (.var .kf) (.num 30000000000 0),
  .set (.arr .fwd 93) (.mul (.mul (.rd (.arr .C 11)) (.rd (.arr .C 4))) (.rd (.var .kf))),
  .ite (.rd (.var .T)) (.num 1000 0) (.var .Kc) (.sub (.add (.add (.num 19260708619999996 16) (.mul (.neg (.num 89689638999999977 17)) (.rd (.var .logT)))) (.mul (.rd (.var .T)) (.add (.neg (.num 25702009896473336 19)) (.mul (.rd (.var .T)) (.add (.num 40785166980006795 22) (.mul (.rd (.var .T)) (.add (.neg (.num 22799360798082651 25)) (.mul (.num 49350015645361341 29) (.rd (.var .T)))))))))) (.div (.neg (.num 42947193660000004 12)) (.rd (.var .T)))) (.sub (.add (.add (.num 12306782960000002 16) (.mul (.neg (.num 11242360000000002 16)) (.rd (.var .logT)))) (.mul (.rd (.var .T)) (.add (.num 19978423554578516 19) (.mul (.rd (.var .T)) (.add (.neg (.num 42286231197396754 23)) (.mul (.rd (.var .T)) (.add (.num 56371022572070625 27) (.mul (.neg (.num 33077582300901331 31)) (.rd (.var .T)))))))))) (.div (.neg (.num 43306829100000003 12)) (.rd (.var .T)))),
  .set (.var .Kc) (.mul (.num 1 0) (.exp (.rd (.var .Kc)))),
  .set (.arr .rev 93) (.div (.mul (.mul (.rd (.arr .C 17)) (.rd (.arr .C 1))) (.rd (.var .kf))) (.rd (.var .Kc)))]

/-- utilities/mechanisms/gri30/lib/src/rxn_rates.c:1136-1147 -/
def rate94 : List CStmt := [
  .set (.var .kf) (.exp (.sub (.sub (.num 35564817990743961 15) (.mul (.num 143 2) (.rd (.var .logT)))) (.div (.num 66928202126268627 14) (.rd (.var .T))))),
  .set (.arr .fwd 94) (.mul (.mul (.rd (.arr .C 12)) (.rd (.arr .C 4))) (.rd (.var .kf))),
  .ite (.rd (.var .T)) (.num 1000 0) (.var .Kc) (.sub (.add (.add (.neg (.num 10545270919999998 16)) (.mul (.neg (.num 95021000999999972 17)) (.rd (.var .logT)))) (.mul (.rd (.var .T)) (.add (.neg (.num 74202735650000006 19)) (.mul (.rd (.var .T)) (.add (.num 91493264216666673 22) (.mul (.rd (.var .T)) (.add (.neg (.num 50273651100000005 25)) (.mul (.num 11113648879999998 28) (.rd (.var .T)))))))))) (.div (.neg (.num 45702844960000002 12)) (.rd (.var .T)))) (.sub (.add (.add (.num 51344918899999996 16) (.mul (.neg (.num 258889748 8)) (.rd (.var .logT)))) (.mul (.rd (.var .T)) (.add (.num 31527495569999998 19) (.mul (.rd (.var .T)) (.add (.neg (.num 58406168299999997 23)) (.mul (.rd (.var .T)) (.add (.num 72831030133333342 27) (.mul (.neg (.num 41043009099999999 31)) (.rd (.var .T)))))))))) (.div (.neg (.num 46009116000000002 12)) (.rd (.var .T)))),
  .set (.var .Kc) (.mul (.num 82057360967184814 18) (.exp (.rd (.var .Kc)))),
  .set (.arr .rev 94) (.div (.mul (.rd (.arr .C 20)) (.rd (.var .kf))) (.rd (.var .Kc)))]

/-- utilities/mechanisms/gri30/lib/src/rxn_rates.c:1148-1159 -/
def rate95 : List CStmt := [
  .set (.var .kf) (.exp (.sub (.add (.num 10933106969717286 15) (.mul (.num 16 1) (.rd (.var .logT)))) (.div (.num 27274500415366615 13) (.rd (.var .T))))),
  .set (.arr .fwd 95) (.mul (.mul (.rd (.arr .C 12)) (.rd (.arr .C 4))) (.rd (.var .kf))),
  .ite (.rd (.var .T)) (.num 1000 0) (.var .Kc) (.sub (.add (.add (.neg (.num 10828526300000005 16)) (.mul (.num 29571340000000079 17) (.rd (.var .logT)))) (.mul (.rd (.var .T)) (.add (.neg (.num 33859809349999991 20)) (.mul (.rd (.var .T)) (.add (.neg (.num 17214274166666665 23)) (.mul (.rd (.var .T)) (.add (.num 11778545249999987 26) (.mul (.neg (.num 22428833999999994 30)) (.rd (.var .T)))))))))) (.div (.neg (.num 43497659600000025 13)) (.rd (.var .T)))) (.sub (.add (.add (.neg (.num 234829278 8)) (.mul (.num 52948823000000012 17) (.rd (.var .logT)))) (.mul (.rd (.var .T)) (.add (.neg (.num 97750956300000002 20)) (.mul (.rd (.var .T)) (.add (.num 21460329399999999 23) (.mul (.rd (.var .T)) (.add (.neg (.num 28716743866666666 27)) (.mul (.num 16510772149999999 31) (.rd (.var .T)))))))))) (.div (.neg (.num 43749343999999992 13)) (.rd (.var .T)))),
  .set (.var .Kc) (.mul (.num 1 0) (.exp (.rd (.var .Kc)))),
  .set (.arr .rev 95) (.div (.mul (.mul (.rd (.arr .C 10)) (.rd (.arr .C 5))) (.rd (.var .kf))) (.rd (.var .Kc)))]

/-- utilities/mechanisms/gri30/lib/src/rxn_rates.c:1160-1171 -/
def rate96 : List CStmt := [
  .set (.var .kf) (.exp (.sub (.sub (.num 34098719842032899 15) (.mul (.num 134 2) (.rd (.var .logT)))) (.div (.num 71306212340543345 14) (.rd (.var .T))))),
  .set (.arr .fwd 96) (.mul (.mul (.rd (.arr .C 12)) (.rd (.arr .C 4))) (.rd (.var .kf))),
  .ite (.rd (.var .T)) (.num 1000 0) (.var .Kc) (.sub (.add (.add (.neg (.num 38504288870000005 16)) (.mul (.num 73163884000000001 17) (.rd (.var .logT)))) (.mul (.rd (.var .T)) (.add (.neg (.num 20063412599999999 19)) (.mul (.rd (.var .T)) (.add (.num 73420122333333318 23) (.mul (.rd (.var .T)) (.add (.neg (.num 11865190416666688 26)) (.mul (.neg (.num 96423249999999889 31)) (.rd (.var .T)))))))))) (.div (.num 14301023999999825 14) (.rd (.var .T)))) (.sub (.add (.add (.num 68907837999999932 17) (.mul (.neg (.num 5257448000000009 17)) (.rd (.var .logT)))) (.mul (.rd (.var .T)) (.add (.neg (.num 47776283799999964 20)) (.mul (.rd (.var .T)) (.add (.num 11410771066666668 23) (.mul (.rd (.var .T)) (.add (.neg (.num 15572872949999997 27)) (.mul (.num 89113322500000016 32) (.rd (.var .T)))))))))) (.div (.num 28746130000000176 14) (.rd (.var .T)))),
  .set (.var .Kc) (.mul (.num 1 0) (.exp (.rd (.var .Kc)))),
  .set (.arr .rev 96) (.div (.mul (.mul (.rd (.arr .C 11)) (.rd (.arr .C 5))) (.rd (.var .kf))) (.rd (.var .Kc)))]

/-- utilities/mechanisms/gri30/lib/src/rxn_rates.c:1172-1183 -/
def rate97 : List CStmt := [
  .set (.var .kf) (.exp (.sub (.add (.num 11512925464970229 15) (.mul (.num 16 1) (.rd (.var .logT)))) (.div (.num 15700450423605873 13) (.rd (.var .T))))),
  .set (.arr .fwd 97) (.mul (.mul (.rd (.arr .C 13)) (.rd (.arr .C 4))) (.rd (.var .kf))),
  .ite (.rd (.var .T)) (.num 1000 0) (.var .Kc) (.sub (.add (.add (.num 67704219399999994 16) (.mul (.neg (.num 12696605999999995 16)) (.rd (.var .logT)))) (.mul (.rd (.var .T)) (.add (.num 80234069850000003 19) (.mul (.rd (.var .T)) (.add (.neg (.num 69245629400000004 22)) (.mul (.rd (.var .T)) (.add (.num 33330242550000006 25) (.mul (.neg (.num 68588373949999998 29)) (.rd (.var .T)))))))))) (.div (.neg (.num 72171608599999981 13)) (.rd (.var .T)))) (.sub (.add (.add (.neg (.num 11619143255000001 15)) (.mul (.num 21519710450000002 16) (.rd (.var .logT)))) (.mul (.rd (.var .T)) (.add (.neg (.num 22612790030000001 19)) (.mul (.rd (.var .T)) (.add (.num 40918947733333328 23) (.mul (.rd (.var .T)) (.add (.neg (.num 53028044783333337 27)) (.mul (.num 30089326100000001 31) (.rd (.var .T)))))))))) (.div (.neg (.num 76190252100000007 13)) (.rd (.var .T)))),
  .set (.var .Kc) (.mul (.num 1 0) (.exp (.rd (.var .Kc)))),
  .set (.arr .rev 97) (.div (.mul (.mul (.rd (.arr .C 5)) (.rd (.arr .C 12))) (.rd (.var .kf))) (.rd (.var .Kc)))]

/-- utilities/mechanisms/gri30/lib/src/rxn_rates.c:1184-1195 -/
def rate98 : List CStmt := [
  .set (.var .kf) (.exp (.sub (.add (.num 10770588040219511 15) (.mul (.num 1228 3) (.rd (.var .logT)))) (.div (.num 35225369540141386 15) (.rd (.var .T))))),
  .set (.arr .fwd 98) (.mul (.mul (.rd (.arr .C 14)) (.rd (.arr .C 4))) (.rd (.var .kf))),
  .ite (.rd (.var .T)) (.num 1000 0) (.var .Kc) (.sub (.add (.add (.num 87646609250000012 16) (.mul (.neg (.num 27147753799999998 16)) (.rd (.var .logT)))) (.mul (.rd (.var .T)) (.add (.num 59981339853526668 19) (.mul (.rd (.var .T)) (.add (.neg (.num 21263859053326532 22)) (.mul (.rd (.var .T)) (.add (.num 45277647235840138 26) (.mul (.neg (.num 30169487496386619 30)) (.rd (.var .T)))))))))) (.div (.neg (.num 12169304360000004 12)) (.rd (.var .T)))) (.sub (.add (.add (.neg (.num 11019815694 9)) (.mul (.num 54938701999999973 17) (.rd (.var .logT)))) (.mul (.rd (.var .T)) (.add (.num 90170654545785104 20) (.mul (.rd (.var .T)) (.add (.neg (.num 22374891347396751 23)) (.mul (.rd (.var .T)) (.add (.num 31781944238737311 27) (.mul (.neg (.num 19292440950901319 31)) (.rd (.var .T)))))))))) (.div (.neg (.num 12992290699999998 12)) (.rd (.var .T)))),
  .set (.var .Kc) (.mul (.num 1 0) (.exp (.rd (.var .Kc)))),
  .set (.arr .rev 98) (.div (.mul (.mul (.rd (.arr .C 1)) (.rd (.arr .C 15))) (.rd (.var .kf))) (.rd (.var .Kc)))]

/-- utilities/mechanisms/gri30/lib/src/rxn_rates.c:1196-1207 -/
def rate99 : List CStmt := [
  .set (.var .kf) (.num 50000000000 0),
  .set (.arr .fwd 99) (.mul (.mul (.rd (.arr .C 16)) (.rd (.arr .C 4))) (.rd (.var .kf))),
  .ite (.rd (.var .T)) (.num 1000 0) (.var .Kc) (.sub (.add (.add (.neg (.num 19604265999999893 17)) (.mul (.neg (.num 4350272399999997 16)) (.rd (.var .logT)))) (.mul (.rd (.var .T)) (.add (.num 14992275299999999 19) (.mul (.rd (.var .T)) (.add (.neg (.num 18101110949999999 22)) (.mul (.rd (.var .T)) (.add (.num 10512148244999999 25) (.mul (.neg (.num 24171248395000002 29)) (.rd (.var .T)))))))))) (.div (.neg (.num 5209245822 5)) (.rd (.var .T)))) (.sub (.add (.add (.neg (.num 137369925 8)) (.mul (.neg (.num 11588395000000018 17)) (.rd (.var .logT)))) (.mul (.rd (.var .T)) (.add (.neg (.num 63296975299999964 20)) (.mul (.rd (.var .T)) (.add (.num 1991754355 16) (.mul (.rd (.var .T)) (.add (.neg (.num 30683716783333336 27)) (.mul (.num 19032480549999999 31) (.rd (.var .T)))))))))) (.div (.neg (.num 52026744650000001 12)) (.rd (.var .T)))),
  .set (.var .Kc) (.mul (.num 1 0) (.exp (.rd (.var .Kc)))),
  .set (.arr .rev 99) (.div (.mul (.mul (.rd (.arr .C 5)) (.rd (.arr .C 14))) (.rd (.var .kf))) (.rd (.var .Kc)))]

/-- utilities/mechanisms/gri30/lib/src/rxn_rates.c:1208-1219 -/
def rate100 : List CStmt := [
  .set (.var .kf) (.exp (.sub (.add (.num 15048070819142122 15) (.mul (.num 118 2) (.rd (.var .logT)))) (.div (.neg (.num 2249391454920457 13)) (.rd (.var .T))))),
  .set (.arr .fwd 100) (.mul (.mul (.rd (.arr .C 17)) (.rd (.arr .C 4))) (.rd (.var .kf))),
  .ite (.rd (.var .T)) (.num 1000 0) (.var .Kc) (.sub (.add (.add (.num 24123649600000006 16) (.mul (.neg (.num 36591217999999914 17)) (.rd (.var .logT)))) (.mul (.rd (.var .T)) (.add (.num 35146458949999997 19) (.mul (.rd (.var .T)) (.add (.neg (.num 36065987499999994 22)) (.mul (.rd (.var .T)) (.add (.num 19172732924999999 25) (.mul (.neg (.num 42158565400000001 29)) (.rd (.var .T)))))))))) (.div (.neg (.num 15760285599999999 12)) (.rd (.var .T)))) (.sub (.add (.add (.neg (.num 43204932000000014 16)) (.mul (.num 95258912000000029 17) (.rd (.var .logT)))) (.mul (.rd (.var .T)) (.add (.neg (.num 13072786180000004 19)) (.mul (.rd (.var .T)) (.add (.num 27459237566666661 23) (.mul (.rd (.var .T)) (.add (.neg (.num 35528847783333325 27)) (.mul (.num 20056777250000003 31) (.rd (.var .T)))))))))) (.div (.neg (.num 15855203649999999 12)) (.rd (.var .T)))),
  .set (.var .Kc) (.mul (.num 1 0) (.exp (.rd (.var .Kc)))),
  .set (.arr .rev 100) (.div (.mul (.mul (.rd (.arr .C 5)) (.rd (.arr .C 16))) (.rd (.var .kf))) (.rd (.var .Kc)))]

/-- utilities/mechanisms/gri30/lib/src/rxn_rates.c:1220-1231 -/
def rate101 : List CStmt := [
  .set (.var .kf) (.num 5000000000 0),
  .set (.arr .fwd 101) (.mul (.mul (.rd (.arr .C 18)) (.rd (.arr .C 4))) (.rd (.var .kf))),
  .ite (.rd (.var .T)) (.num 1000 0) (.var .Kc) (.sub (.add (.add (.neg (.num 67517753799999989 16)) (.mul (.num 11364591000000002 16) (.rd (.var .logT)))) (.mul (.rd (.var .T)) (.add (.neg (.num 75700866549999997 19)) (.mul (.rd (.var .T)) (.add (.num 55486244316666665 22) (.mul (.rd (.var .T)) (.add (.neg (.num 24235135158333333 25)) (.mul (.num 46077279449999994 29) (.rd (.var .T)))))))))) (.div (.neg (.num 45023850290000002 12)) (.rd (.var .T)))) (.sub (.add (.add (.num 10326835640000001 15) (.mul (.neg (.num 19908707900000002 16)) (.rd (.var .logT)))) (.mul (.rd (.var .T)) (.add (.num 10913605869999994 19) (.mul (.rd (.var .T)) (.add (.neg (.num 16035911266666657 23)) (.mul (.rd (.var .T)) (.add (.num 17506804383333322 27) (.mul (.neg (.num 92256411500000039 32)) (.rd (.var .T)))))))))) (.div (.neg (.num 44616280129999999 12)) (.rd (.var .T)))),
  .set (.var .Kc) (.mul (.num 1 0) (.exp (.rd (.var .Kc)))),
  .set (.arr .rev 101) (.div (.mul (.mul (.rd (.arr .C 17)) (.rd (.arr .C 5))) (.rd (.var .kf))) (.rd (.var .Kc)))]

/-- utilities/mechanisms/gri30/lib/src/rxn_rates.c:1232-1243 -/
def rate102 : List CStmt := [
  .set (.var .kf) (.num 5000000000 0),
  .set (.arr .fwd 102) (.mul (.mul (.rd (.arr .C 19)) (.rd (.arr .C 4))) (.rd (.var .kf))),
  .ite (.rd (.var .T)) (.num 1000 0) (.var .Kc) (.sub (.add (.add (.neg (.num 16188615129999999 15)) (.mul (.num 28941442800000003 16) (.rd (.var .logT)))) (.mul (.rd (.var .T)) (.add (.neg (.num 83800226349999996 19)) (.mul (.rd (.var .T)) (.add (.num 56476654166666667 22) (.mul (.rd (.var .T)) (.add (.neg (.num 26798106158333332 25)) (.mul (.num 57547593349999999 29) (.rd (.var .T)))))))))) (.div (.neg (.num 49196365060000004 12)) (.rd (.var .T)))) (.sub (.add (.add (.num 132858261 7) (.mul (.neg (.num 20690040999999999 16)) (.rd (.var .logT)))) (.mul (.rd (.var .T)) (.add (.num 14784960719999999 19) (.mul (.rd (.var .T)) (.add (.neg (.num 34279697933333327 23)) (.mul (.rd (.var .T)) (.add (.num 50239432383333326 27) (.mul (.neg (.num 31090271200000005 31)) (.rd (.var .T)))))))))) (.div (.neg (.num 47986618920000001 12)) (.rd (.var .T)))),
  .set (.var .Kc) (.mul (.num 1 0) (.exp (.rd (.var .Kc)))),
  .set (.arr .rev 102) (.div (.mul (.mul (.rd (.arr .C 17)) (.rd (.arr .C 5))) (.rd (.var .kf))) (.rd (.var .Kc)))]

/-- utilities/mechanisms/gri30/lib/src/rxn_rates.c:1244-1255 -/
def rate103 : List CStmt := [
  .set (.var .kf) (.exp (.sub (.add (.num 72723983925700466 16) (.mul (.num 2 0) (.rd (.var .logT)))) (.div (.neg (.num 42270443448169664 14)) (.rd (.var .T))))),
  .set (.arr .fwd 103) (.mul (.mul (.rd (.arr .C 20)) (.rd (.arr .C 4))) (.rd (.var .kf))),
  .ite (.rd (.var .T)) (.num 1000 0) (.var .Kc) (.sub (.add (.add (.num 78768954200000012 16) (.mul (.neg (.num 16448815099999998 16)) (.rd (.var .logT)))) (.mul (.rd (.var .T)) (.add (.num 10596259680000001 18) (.mul (.rd (.var .T)) (.add (.neg (.num 95681556483333339 22)) (.mul (.rd (.var .T)) (.add (.num 49183875341666663 25) (.mul (.neg (.num 10678866775 22)) (.rd (.var .T)))))))))) (.div (.neg (.num 11459955330000003 12)) (.rd (.var .T)))) (.sub (.add (.add (.neg (.num 1004591875 8)) (.mul (.num 18440626000000004 16) (.rd (.var .logT)))) (.mul (.rd (.var .T)) (.add (.neg (.num 19097864529999996 19)) (.mul (.rd (.var .T)) (.add (.num 38723656733333325 23) (.mul (.rd (.var .T)) (.add (.neg (.num 50297670450000001 27)) (.mul (.num 28641830749999994 31) (.rd (.var .T)))))))))) (.div (.neg (.num 1173058567 5)) (.rd (.var .T)))),
  .set (.var .Kc) (.mul (.num 1 0) (.exp (.rd (.var .Kc)))),
  .set (.arr .rev 103) (.div (.mul (.mul (.rd (.arr .C 18)) (.rd (.arr .C 5))) (.rd (.var .kf))) (.rd (.var .Kc)))]

/-- utilities/mechanisms/gri30/lib/src/rxn_rates.c:1256-1267 -/
def rate104 : List CStmt := [
  .set (.var .kf) (.exp (.sub (.add (.num 87483049123796235 16) (.mul (.num 2 0) (.rd (.var .logT)))) (.div (.num 75482934728874397 14) (.rd (.var .T))))),
  .set (.arr .fwd 104) (.mul (.mul (.rd (.arr .C 20)) (.rd (.arr .C 4))) (.rd (.var .kf))),
  .ite (.rd (.var .T)) (.num 1000 0) (.var .Kc) (.sub (.add (.add (.num 17313735170000001 15) (.mul (.neg (.num 340256669 8)) (.rd (.var .logT)))) (.mul (.rd (.var .T)) (.add (.num 1140619566 11) (.mul (.rd (.var .T)) (.add (.neg (.num 96671966333333332 22)) (.mul (.rd (.var .T)) (.add (.num 51746846341666666 25) (.mul (.neg (.num 11825898164999999 28)) (.rd (.var .T)))))))))) (.div (.neg (.num 72874405600000009 13)) (.rd (.var .T)))) (.sub (.add (.add (.neg (.num 13004909209999999 15)) (.mul (.num 19221959099999997 16) (.rd (.var .logT)))) (.mul (.rd (.var .T)) (.add (.neg (.num 22969219380000001 19)) (.mul (.rd (.var .T)) (.add (.num 56967443399999993 23) (.mul (.rd (.var .T)) (.add (.neg (.num 83030298450000006 27)) (.mul (.num 50506460799999993 31) (.rd (.var .T)))))))))) (.div (.neg (.num 83602468799999988 13)) (.rd (.var .T)))),
  .set (.var .Kc) (.mul (.num 1 0) (.exp (.rd (.var .Kc)))),
  .set (.arr .rev 104) (.div (.mul (.mul (.rd (.arr .C 5)) (.rd (.arr .C 19))) (.rd (.var .kf))) (.rd (.var .Kc)))]

/-- utilities/mechanisms/gri30/lib/src/rxn_rates.c:1268-1279 -/
def rate105 : List CStmt := [
  .set (.var .kf) (.num 20000000000 0),
  .set (.arr .fwd 105) (.mul (.mul (.rd (.arr .C 21)) (.rd (.arr .C 4))) (.rd (.var .kf))),
  .ite (.rd (.var .T)) (.num 1000 0) (.var .Kc) (.sub (.add (.add (.num 80546465850000004 16) (.mul (.neg (.num 21299513599999997 16)) (.rd (.var .logT)))) (.mul (.rd (.var .T)) (.add (.num 33231887103526659 19) (.mul (.rd (.var .T)) (.add (.num 21651781334013613 24) (.mul (.rd (.var .T)) (.add (.neg (.num 69351768064159861 26)) (.mul (.num 22512776495361328 29) (.rd (.var .T)))))))))) (.div (.neg (.num 24921364860000005 12)) (.rd (.var .T)))) (.sub (.add (.add (.neg (.num 17357044883999997 15)) (.mul (.num 18675116199999997 16) (.rd (.var .logT)))) (.mul (.rd (.var .T)) (.add (.neg (.num 60765432954214868 20)) (.mul (.rd (.var .T)) (.add (.num 19651809692699158 24) (.mul (.rd (.var .T)) (.add (.num 58347015720706399 28) (.mul (.neg (.num 67128960509013197 32)) (.rd (.var .T)))))))))) (.div (.neg (.num 26178847100000006 12)) (.rd (.var .T)))),
  .set (.var .Kc) (.mul (.num 1 0) (.exp (.rd (.var .Kc)))),
  .set (.arr .rev 105) (.div (.mul (.mul (.rd (.arr .C 1)) (.rd (.arr .C 27))) (.rd (.var .kf))) (.rd (.var .Kc)))]

/-- utilities/mechanisms/gri30/lib/src/rxn_rates.c:1280-1291 -/
def rate106 : List CStmt := [
  .set (.var .kf) (.exp (.sub (.add (.neg (.num 15338770774157322 15)) (.mul (.num 45 1) (.rd (.var .logT)))) (.div (.neg (.num 50321956485916263 14)) (.rd (.var .T))))),
  .set (.arr .fwd 106) (.mul (.mul (.rd (.arr .C 22)) (.rd (.arr .C 4))) (.rd (.var .kf))),
  .ite (.rd (.var .T)) (.num 1000 0) (.var .Kc) (.sub (.add (.add (.neg (.num 19019542709999984 16)) (.mul (.neg (.num 16486022400000033 17)) (.rd (.var .logT)))) (.mul (.rd (.var .T)) (.add (.neg (.num 14206866396473349 19)) (.mul (.rd (.var .T)) (.add (.num 22507492813340137 22) (.mul (.rd (.var .T)) (.add (.neg (.num 1232511223974932 24)) (.mul (.num 25610194445361334 29) (.rd (.var .T)))))))))) (.div (.neg (.num 11613319400000002 12)) (.rd (.var .T)))) (.sub (.add (.add (.neg (.num 28316906189999984 16)) (.mul (.neg (.num 22915998000000082 17)) (.rd (.var .logT)))) (.mul (.rd (.var .T)) (.add (.num 12467505354578513 19) (.mul (.rd (.var .T)) (.add (.neg (.num 32049217364063418 23)) (.mul (.rd (.var .T)) (.add (.num 45323321822070636 27) (.mul (.neg (.num 27550767950901317 31)) (.rd (.var .T)))))))))) (.div (.neg (.num 1187204941 5)) (.rd (.var .T)))),
  .set (.var .Kc) (.mul (.num 1 0) (.exp (.rd (.var .Kc)))),
  .set (.arr .rev 106) (.div (.mul (.mul (.rd (.arr .C 1)) (.rd (.arr .C 28))) (.rd (.var .kf))) (.rd (.var .Kc)))]

/-- utilities/mechanisms/gri30/lib/src/rxn_rates.c:1292-1303 -/
def rate107 : List CStmt := [
  .set (.var .kf) (.exp (.sub (.add (.num 62225762680713688 16) (.mul (.num 23 1) (.rd (.var .logT)))) (.div (.num 67934641255986953 13) (.rd (.var .T))))),
  .set (.arr .fwd 107) (.mul (.mul (.rd (.arr .C 22)) (.rd (.arr .C 4))) (.rd (.var .kf))),
  .ite (.rd (.var .T)) (.num 1000 0) (.var .Kc) (.sub (.add (.add (.num 65017972900000043 17) (.mul (.neg (.num 1058323224 9)) (.rd (.var .logT)))) (.mul (.rd (.var .T)) (.add (.num 50559778103526657 19) (.mul (.rd (.var .T)) (.add (.neg (.num 33279368186659876 22)) (.mul (.rd (.var .T)) (.add (.num 1583585052691735 24) (.mul (.neg (.num 34389894804638668 29)) (.rd (.var .T)))))))))) (.div (.num 34612129399999999 13) (.rd (.var .T)))) (.sub (.add (.add (.neg (.num 12478243804 9)) (.mul (.num 11833717999999993 16) (.rd (.var .logT)))) (.mul (.rd (.var .T)) (.add (.num 14113181045785118 20) (.mul (.rd (.var .T)) (.add (.neg (.num 53235515307300842 24)) (.mul (.rd (.var .T)) (.add (.num 58676991554039722 28) (.mul (.neg (.num 277890840090132 30)) (.rd (.var .T)))))))))) (.div (.num 29436297000000004 13) (.rd (.var .T)))),
  .set (.var .Kc) (.mul (.num 1 0) (.exp (.rd (.var .Kc)))),
  .set (.arr .rev 107) (.div (.mul (.mul (.rd (.arr .C 1)) (.rd (.arr .C 29))) (.rd (.var .kf))) (.rd (.var .Kc)))]

/-- utilities/mechanisms/gri30/lib/src/rxn_rates.c:1304-1315 -/
def rate108 : List CStmt := [
  .set (.var .kf) (.exp (.sub (.add (.num 10425253116340453 15) (.mul (.num 2 0) (.rd (.var .logT)))) (.div (.num 70450739080282765 13) (.rd (.var .T))))),
  .set (.arr .fwd 108) (.mul (.mul (.rd (.arr .C 22)) (.rd (.arr .C 4))) (.rd (.var .kf))),
  .ite (.rd (.var .T)) (.num 1000 0) (.var .Kc) (.sub (.add (.add (.neg (.num 10749448835999999 15)) (.mul (.num 22876013660000001 16) (.rd (.var .logT)))) (.mul (.rd (.var .T)) (.add (.neg (.num 47933591900000006 19)) (.mul (.rd (.var .T)) (.add (.num 14904491833333333 22) (.mul (.rd (.var .T)) (.add (.neg (.num 11914707499999581 27)) (.mul (.neg (.num 10122789449999992 29)) (.rd (.var .T)))))))))) (.div (.num 65016052400000062 13) (.rd (.var .T)))) (.sub (.add (.add (.num 93949082599999993 16) (.mul (.neg (.num 10386583000000003 16)) (.rd (.var .logT)))) (.mul (.rd (.var .T)) (.add (.num 20952035199999993 20) (.mul (.rd (.var .T)) (.add (.num 40750000666666709 24) (.mul (.rd (.var .T)) (.add (.neg (.num 14359812533333336 27)) (.mul (.num 11739552950000001 31) (.rd (.var .T)))))))))) (.div (.num 73221117000000077 13) (.rd (.var .T)))),
  .set (.var .Kc) (.mul (.num 1 0) (.exp (.rd (.var .Kc)))),
  .set (.arr .rev 108) (.div (.mul (.mul (.rd (.arr .C 21)) (.rd (.arr .C 5))) (.rd (.var .kf))) (.rd (.var .Kc)))]

/-- utilities/mechanisms/gri30/lib/src/rxn_rates.c:1316-1327 -/
def rate109 : List CStmt := [
  .set (.var .kf) (.exp (.sub (.add (.neg (.num 14543249183293838 15)) (.mul (.num 4 0) (.rd (.var .logT)))) (.div (.neg (.num 10064391297183253 13)) (.rd (.var .T))))),
  .set (.arr .fwd 109) (.mul (.mul (.rd (.arr .C 22)) (.rd (.arr .C 4))) (.rd (.var .kf))),
  .ite (.rd (.var .T)) (.num 1000 0) (.var .Kc) (.sub (.add (.add (.neg (.num 11175233377999998 15)) (.mul (.num 24524273459999999 16) (.rd (.var .logT)))) (.mul (.rd (.var .T)) (.add (.neg (.num 97798236549999987 19)) (.mul (.rd (.var .T)) (.add (.num 62743793299999998 22) (.mul (.rd (.var .T)) (.add (.neg (.num 25081898946666667 25)) (.mul (.num 43880239404999997 29) (.rd (.var .T)))))))))) (.div (.neg (.num 27943148459999997 12)) (.rd (.var .T)))) (.sub (.add (.add (.num 15291898600000001 15) (.mul (.neg (.num 22395539800000006 16)) (.rd (.var .logT)))) (.mul (.rd (.var .T)) (.add (.num 13961657220000001 19) (.mul (.rd (.var .T)) (.add (.neg (.num 2899209931666667 22)) (.mul (.rd (.var .T)) (.add (.num 37189303049999993 27) (.mul (.neg (.num 21348963649999999 31)) (.rd (.var .T)))))))))) (.div (.neg (.num 27170944299999999 12)) (.rd (.var .T)))),
  .set (.var .Kc) (.mul (.num 1 0) (.exp (.rd (.var .Kc)))),
  .set (.arr .rev 109) (.div (.mul (.mul (.rd (.arr .C 12)) (.rd (.arr .C 14))) (.rd (.var .kf))) (.rd (.var .Kc)))]

/-- utilities/mechanisms/gri30/lib/src/rxn_rates.c:1328-1339 -/
def rate110 : List CStmt := [
  .set (.var .kf) (.num 5000000000 0),
  .set (.arr .fwd 110) (.mul (.mul (.rd (.arr .C 23)) (.rd (.arr .C 4))) (.rd (.var .kf))),
  .ite (.rd (.var .T)) (.num 1000 0) (.var .Kc) (.sub (.add (.add (.num 68812183259999991 16) (.mul (.neg (.num 21971602259999998 16)) (.rd (.var .logT)))) (.mul (.rd (.var .T)) (.add (.num 1110582735 11) (.mul (.rd (.var .T)) (.add (.neg (.num 99226098333333313 22)) (.mul (.rd (.var .T)) (.add (.num 51811825924999994 25) (.mul (.neg (.num 11403976785 22)) (.rd (.var .T)))))))))) (.div (.neg (.num 42339673360000001 12)) (.rd (.var .T)))) (.sub (.add (.add (.neg (.num 95994814500000007 16)) (.mul (.num 10719504600000005 16) (.rd (.var .logT)))) (.mul (.rd (.var .T)) (.add (.neg (.num 13700371180000006 19)) (.mul (.rd (.var .T)) (.add (.num 33621620399999992 23) (.mul (.rd (.var .T)) (.add (.neg (.num 46609711699999999 27)) (.mul (.num 27608022199999998 31) (.rd (.var .T)))))))))) (.div (.neg (.num 42539828799999996 12)) (.rd (.var .T)))),
  .set (.var .Kc) (.mul (.num 1 0) (.exp (.rd (.var .Kc)))),
  .set (.arr .rev 110) (.div (.mul (.mul (.rd (.arr .C 5)) (.rd (.arr .C 22))) (.rd (.var .kf))) (.rd (.var .Kc)))]

/-- utilities/mechanisms/gri30/lib/src/rxn_rates.c:1340-1351 -/
def rate111 : List CStmt := [
  .set (.var .kf) (.exp (.sub (.add (.num 81886891244442008 16) (.mul (.num 2 0) (.rd (.var .logT)))) (.div (.num 12580489121479065 13) (.rd (.var .T))))),
  .set (.arr .fwd 111) (.mul (.mul (.rd (.arr .C 24)) (.rd (.arr .C 4))) (.rd (.var .kf))),
  .ite (.rd (.var .T)) (.num 1000 0) (.var .Kc) (.sub (.add (.add (.num 42082124400000005 16) (.mul (.neg (.num 54010989999999959 17)) (.rd (.var .logT)))) (.mul (.rd (.var .T)) (.add (.num 47250987550000005 19) (.mul (.rd (.var .T)) (.add (.neg (.num 48792707166666667 22)) (.mul (.rd (.var .T)) (.add (.num 26488544424999995 25) (.mul (.neg (.num 59327432650000018 29)) (.rd (.var .T)))))))))) (.div (.neg (.num 413873639 5)) (.rd (.var .T)))) (.sub (.add (.add (.neg (.num 29496891800000014 16)) (.mul (.num 92171766000000011 17) (.rd (.var .logT)))) (.mul (.rd (.var .T)) (.add (.neg (.num 13433487879999997 19)) (.mul (.rd (.var .T)) (.add (.num 28989631900000017 23) (.mul (.rd (.var .T)) (.add (.neg (.num 38641015116666684 27)) (.mul (.num 22262109250000002 31) (.rd (.var .T)))))))))) (.div (.neg (.num 41899663400000009 13)) (.rd (.var .T)))),
  .set (.var .Kc) (.mul (.num 1 0) (.exp (.rd (.var .Kc)))),
  .set (.arr .rev 111) (.div (.mul (.mul (.rd (.arr .C 5)) (.rd (.arr .C 23))) (.rd (.var .kf))) (.rd (.var .Kc)))]

/-- utilities/mechanisms/gri30/lib/src/rxn_rates.c:1352-1363 -/
def rate112 : List CStmt := [
  .set (.var .kf) (.exp (.sub (.add (.num 81718820061278201 16) (.mul (.num 212 2) (.rd (.var .logT)))) (.div (.num 43780102142747148 14) (.rd (.var .T))))),
  .set (.arr .fwd 112) (.mul (.mul (.rd (.arr .C 26)) (.rd (.arr .C 4))) (.rd (.var .kf))),
  .ite (.rd (.var .T)) (.num 1000 0) (.var .Kc) (.sub (.add (.add (.num 10736134400000008 16) (.mul (.num 22166589000000014 17) (.rd (.var .logT)))) (.mul (.rd (.var .T)) (.add (.num 83991859999999938 20) (.mul (.rd (.var .T)) (.add (.neg (.num 13878474000000013 22)) (.mul (.rd (.var .T)) (.add (.num 77726088416666721 26) (.mul (.neg (.num 17049066150000002 29)) (.rd (.var .T)))))))))) (.div (.neg (.num 95449752600000011 13)) (.rd (.var .T)))) (.sub (.add (.add (.neg (.num 19869821400000016 16)) (.mul (.num 82387974000000019 17) (.rd (.var .logT)))) (.mul (.rd (.var .T)) (.add (.neg (.num 13297535879999997 19)) (.mul (.rd (.var .T)) (.add (.num 29216037899999999 23) (.mul (.rd (.var .T)) (.add (.neg (.num 39253245950000014 27)) (.mul (.num 22720087799999998 31) (.rd (.var .T)))))))))) (.div (.neg (.num 95790409 4)) (.rd (.var .T)))),
  .set (.var .Kc) (.mul (.num 1 0) (.exp (.rd (.var .Kc)))),
  .set (.arr .rev 112) (.div (.mul (.mul (.rd (.arr .C 25)) (.rd (.arr .C 5))) (.rd (.var .kf))) (.rd (.var .Kc)))]

/-- utilities/mechanisms/gri30/lib/src/rxn_rates.c:1364-1375 -/
def rate113 : List CStmt := [
  .set (.var .kf) (.exp (.sub (.num 22738168857488677 15) (.div (.num 10064391297183253 13) (.rd (.var .T))))),
  .set (.arr .fwd 113) (.mul (.mul (.rd (.arr .C 28)) (.rd (.arr .C 4))) (.rd (.var .kf))),
  .ite (.rd (.var .T)) (.num 1000 0) (.var .Kc) (.sub (.add (.add (.neg (.num 79284798000000034 17)) (.mul (.num 32251023000000067 17) (.rd (.var .logT)))) (.mul (.rd (.var .T)) (.add (.neg (.num 49483839999999368 21)) (.mul (.rd (.var .T)) (.add (.neg (.num 73864831666666643 23)) (.mul (.rd (.var .T)) (.add (.num 52707883583333348 26) (.mul (.neg (.num 13220207400000005 29)) (.rd (.var .T)))))))))) (.div (.neg (.num 68064402199999986 13)) (.rd (.var .T)))) (.sub (.add (.add (.neg (.num 51304460050000005 16)) (.mul (.num 10580133000000003 16) (.rd (.var .logT)))) (.mul (.rd (.var .T)) (.add (.neg (.num 16448845129999994 19)) (.mul (.rd (.var .T)) (.add (.num 38089398399999996 23) (.mul (.rd (.var .T)) (.add (.neg (.num 53848432783333332 27)) (.mul (.num 32577424849999995 31) (.rd (.var .T)))))))))) (.div (.neg (.num 69846859899999999 13)) (.rd (.var .T)))),
  .set (.var .Kc) (.mul (.num 1 0) (.exp (.rd (.var .Kc)))),
  .set (.arr .rev 113) (.div (.mul (.mul (.rd (.arr .C 5)) (.rd (.arr .C 27))) (.rd (.var .kf))) (.rd (.var .Kc)))]

/-- utilities/mechanisms/gri30/lib/src/rxn_rates.c:1376-1387 -/
def rate114 : List CStmt := [
  .set (.var .kf) (.exp (.sub (.num 18683045008419857 15) (.div (.neg (.num 82024789072043507 14)) (.rd (.var .T))))),
  .set (.arr .fwd 114) (.mul (.mul (.rd (.arr .C 6)) (.rd (.arr .C 6))) (.rd (.var .kf))),
  .ite (.rd (.var .T)) (.num 1000 0) (.var .Kc) (.sub (.add (.add (.num 20442853999999988 17) (.mul (.neg (.num 54502697000000033 17)) (.rd (.var .logT)))) (.mul (.rd (.var .T)) (.add (.num 29793422214999996 19) (.mul (.rd (.var .T)) (.add (.neg (.num 26226176816666659 22)) (.mul (.rd (.var .T)) (.add (.num 14412002008333336 25) (.mul (.neg (.num 33581152400000006 29)) (.rd (.var .T)))))))))) (.div (.neg (.num 19356141739999999 12)) (.rd (.var .T)))) (.sub (.add (.add (.num 13860647200000007 16) (.mul (.neg (.num 58688111000000109 17)) (.rd (.var .logT)))) (.mul (.rd (.var .T)) (.add (.num 95588210999999991 20) (.mul (.rd (.var .T)) (.add (.neg (.num 23200710316666662 23)) (.mul (.rd (.var .T)) (.add (.num 2934698341666666 26) (.mul (.neg (.num 1444045145 24)) (.rd (.var .T)))))))))) (.div (.neg (.num 19173958845999998 12)) (.rd (.var .T)))),
  .set (.var .Kc) (.mul (.num 1 0) (.exp (.rd (.var .Kc)))),
  .set (.arr .rev 114) (.div (.mul (.mul (.rd (.arr .C 7)) (.rd (.arr .C 3))) (.rd (.var .kf))) (.rd (.var .Kc)))]

/-- utilities/mechanisms/gri30/lib/src/rxn_rates.c:1388-1399 -/
def rate115 : List CStmt := [
  .set (.var .kf) (.exp (.sub (.num 26763520548223823 15) (.div (.num 60386347783099518 13) (.rd (.var .T))))),
  .set (.arr .fwd 115) (.mul (.mul (.rd (.arr .C 6)) (.rd (.arr .C 6))) (.rd (.var .kf))),
  .ite (.rd (.var .T)) (.num 1000 0) (.var .Kc) (.sub (.add (.add (.num 20442853999999988 17) (.mul (.neg (.num 54502697000000033 17)) (.rd (.var .logT)))) (.mul (.rd (.var .T)) (.add (.num 29793422214999996 19) (.mul (.rd (.var .T)) (.add (.neg (.num 26226176816666659 22)) (.mul (.rd (.var .T)) (.add (.num 14412002008333336 25) (.mul (.neg (.num 33581152400000006 29)) (.rd (.var .T)))))))))) (.div (.neg (.num 19356141739999999 12)) (.rd (.var .T)))) (.sub (.add (.add (.num 13860647200000007 16) (.mul (.neg (.num 58688111000000109 17)) (.rd (.var .logT)))) (.mul (.rd (.var .T)) (.add (.num 95588210999999991 20) (.mul (.rd (.var .T)) (.add (.neg (.num 23200710316666662 23)) (.mul (.rd (.var .T)) (.add (.num 2934698341666666 26) (.mul (.neg (.num 1444045145 24)) (.rd (.var .T)))))))))) (.div (.neg (.num 19173958845999998 12)) (.rd (.var .T)))),
  .set (.var .Kc) (.mul (.num 1 0) (.exp (.rd (.var .Kc)))),
  .set (.arr .rev 115) (.div (.mul (.mul (.rd (.arr .C 7)) (.rd (.arr .C 3))) (.rd (.var .kf))) (.rd (.var .Kc)))]

/-- utilities/mechanisms/gri30/lib/src/rxn_rates.c:1400-1411 -/
def rate116 : List CStmt := [
  .set (.var .kf) (.num 20000000000 0),
  .set (.arr .fwd 116) (.mul (.mul (.rd (.arr .C 10)) (.rd (.arr .C 6))) (.rd (.var .kf))),
  .ite (.rd (.var .T)) (.num 1000 0) (.var .Kc) (.sub (.add (.add (.neg (.num 55015687579999994 16)) (.mul (.num 7212619000000009 16) (.rd (.var .logT)))) (.mul (.rd (.var .T)) (.add (.neg (.num 42647014214999999 19)) (.mul (.rd (.var .T)) (.add (.num 29977919499999997 22) (.mul (.rd (.var .T)) (.add (.neg (.num 11401965416666665 25)) (.mul (.num 17808557350000002 29) (.rd (.var .T)))))))))) (.div (.neg (.num 56992724280000002 12)) (.rd (.var .T)))) (.sub (.add (.add (.num 10214457990000001 15) (.mul (.neg (.num 203773428 8)) (.rd (.var .logT)))) (.mul (.rd (.var .T)) (.add (.num 19261087430000004 19) (.mul (.rd (.var .T)) (.add (.neg (.num 37557979699999998 23)) (.mul (.rd (.var .T)) (.add (.num 45336670449999998 27) (.mul (.neg (.num 23540358100000002 31)) (.rd (.var .T)))))))))) (.div (.neg (.num 56512636012999996 12)) (.rd (.var .T)))),
  .set (.var .Kc) (.mul (.num 1 0) (.exp (.rd (.var .Kc)))),
  .set (.arr .rev 116) (.div (.mul (.mul (.rd (.arr .C 17)) (.rd (.arr .C 4))) (.rd (.var .kf))) (.rd (.var .Kc)))]

/-- utilities/mechanisms/gri30/lib/src/rxn_rates.c:1412-1423 -/
def rate117 : List CStmt := [
  .set (.var .kf) (.num 1000000000 0),
  .set (.arr .fwd 117) (.mul (.mul (.rd (.arr .C 12)) (.rd (.arr .C 6))) (.rd (.var .kf))),
  .ite (.rd (.var .T)) (.num 1000 0) (.var .Kc) (.sub (.add (.add (.neg (.num 72617988899999997 16)) (.mul (.num 95694408000000042 17) (.rd (.var .logT)))) (.mul (.rd (.var .T)) (.add (.neg (.num 69647721000000006 19)) (.mul (.rd (.var .T)) (.add (.num 53564757083333336 22) (.mul (.rd (.var .T)) (.add (.neg (.num 22506695033333343 25)) (.mul (.num 40385076950000006 29) (.rd (.var .T)))))))))) (.div (.neg (.num 28050398000000001 12)) (.rd (.var .T)))) (.sub (.add (.add (.num 14570914635000003 15) (.mul (.neg (.num 29455392850000006 16)) (.rd (.var .logT)))) (.mul (.rd (.var .T)) (.add (.num 269715687 11) (.mul (.rd (.var .T)) (.add (.neg (.num 47833718816666649 23)) (.mul (.rd (.var .T)) (.add (.num 60205407583333335 27) (.mul (.neg (.num 32990358250000004 31)) (.rd (.var .T)))))))))) (.div (.neg (.num 27444243323000002 12)) (.rd (.var .T)))),
  .set (.var .Kc) (.mul (.num 1 0) (.exp (.rd (.var .Kc)))),
  .set (.arr .rev 117) (.div (.mul (.mul (.rd (.arr .C 13)) (.rd (.arr .C 3))) (.rd (.var .kf))) (.rd (.var .Kc)))]

/-- utilities/mechanisms/gri30/lib/src/rxn_rates.c:1424-1435 -/
def rate118 : List CStmt := [
  .set (.var .kf) (.num 37800000000 0),
  .set (.arr .fwd 118) (.mul (.mul (.rd (.arr .C 12)) (.rd (.arr .C 6))) (.rd (.var .kf))),
  .ite (.rd (.var .T)) (.num 1000 0) (.var .Kc) (.sub (.add (.add (.num 96041937419999996 16) (.mul (.neg (.num 18771689799999995 16)) (.rd (.var .logT)))) (.mul (.rd (.var .T)) (.add (.num 37767231199999996 19) (.mul (.rd (.var .T)) (.add (.neg (.num 28220162083333331 22)) (.mul (.rd (.var .T)) (.add (.num 16573995266666667 25) (.mul (.neg (.num 41981919400000005 29)) (.rd (.var .T)))))))))) (.div (.neg (.num 12146125180000001 12)) (.rd (.var .T)))) (.sub (.add (.add (.neg (.num 54196608900000003 16)) (.mul (.num 56075804999999956 17) (.rd (.var .logT)))) (.mul (.rd (.var .T)) (.add (.neg (.num 52989689199999987 20)) (.mul (.rd (.var .T)) (.add (.num 1818204763333333 22) (.mul (.rd (.var .T)) (.add (.neg (.num 33619505800000002 27)) (.mul (.num 24060685249999999 31) (.rd (.var .T)))))))))) (.div (.neg (.num 12900951492999999 12)) (.rd (.var .T)))),
  .set (.var .Kc) (.mul (.num 1 0) (.exp (.rd (.var .Kc)))),
  .set (.arr .rev 118) (.div (.mul (.mul (.rd (.arr .C 19)) (.rd (.arr .C 4))) (.rd (.var .kf))) (.rd (.var .Kc)))]

/-- utilities/mechanisms/gri30/lib/src/rxn_rates.c:1436-1447 -/
def rate119 : List CStmt := [
  .set (.var .kf) (.exp (.sub (.num 25733901131042668 15) (.div (.num 11875981730676238 12) (.rd (.var .T))))),
  .set (.arr .fwd 119) (.mul (.mul (.rd (.arr .C 14)) (.rd (.arr .C 6))) (.rd (.var .kf))),
  .ite (.rd (.var .T)) (.num 1000 0) (.var .Kc) (.sub (.add (.add (.num 41045975620000004 16) (.mul (.neg (.num 15325425300000002 16)) (.rd (.var .logT)))) (.mul (.rd (.var .T)) (.add (.num 59713767200000002 19) (.mul (.rd (.var .T)) (.add (.neg (.num 41134546183333329 22)) (.mul (.rd (.var .T)) (.add (.num 18289533671666668 25) (.mul (.neg (.num 35837057945000006 29)) (.rd (.var .T)))))))))) (.div (.neg (.num 3070761118 5)) (.rd (.var .T)))) (.sub (.add (.add (.neg (.num 50734071600000004 16)) (.mul (.num 21795145000000016 17) (.rd (.var .logT)))) (.mul (.rd (.var .T)) (.add (.num 33022620799999991 20) (.mul (.rd (.var .T)) (.add (.neg (.num 75970815166666666 24)) (.mul (.rd (.var .T)) (.add (.num 76037212000000058 28) (.mul (.neg (.num 21557768500000007 32)) (.rd (.var .T)))))))))) (.div (.neg (.num 30860493312999999 12)) (.rd (.var .T)))),
  .set (.var .Kc) (.mul (.num 1 0) (.exp (.rd (.var .Kc)))),
  .set (.arr .rev 119) (.div (.mul (.mul (.rd (.arr .C 15)) (.rd (.arr .C 4))) (.rd (.var .kf))) (.rd (.var .Kc)))]

/-- utilities/mechanisms/gri30/lib/src/rxn_rates.c:1448-1459 -/
def rate120 : List CStmt := [
  .set (.var .kf) (.exp (.sub (.add (.num 86305218767232414 16) (.mul (.num 2 0) (.rd (.var .logT)))) (.div (.num 60386347783099518 13) (.rd (.var .T))))),
  .set (.arr .fwd 120) (.mul (.mul (.rd (.arr .C 17)) (.rd (.arr .C 6))) (.rd (.var .kf))),
  .ite (.rd (.var .T)) (.num 1000 0) (.var .Kc) (.sub (.add (.add (.num 31081704499999998 16) (.mul (.neg (.num 59822262999999953 17)) (.rd (.var .logT)))) (.mul (.rd (.var .T)) (.add (.num 54353532315000001 19) (.mul (.rd (.var .T)) (.add (.neg (.num 46611291999999993 22)) (.mul (.rd (.var .T)) (.add (.num 22761187416666667 25) (.mul (.neg (.num 47536420800000006 29)) (.rd (.var .T)))))))))) (.div (.num 15113152000000071 14) (.rd (.var .T)))) (.sub (.add (.add (.neg (.num 58861998599999996 16)) (.mul (.num 11592762499999996 16) (.rd (.var .logT)))) (.mul (.rd (.var .T)) (.add (.neg (.num 78727437499999972 20)) (.mul (.rd (.var .T)) (.add (.num 11173298333333329 23) (.mul (.rd (.var .T)) (.add (.neg (.num 13359227166666668 27)) (.mul (.num 85173579500000028 32) (.rd (.var .T)))))))))) (.div (.num 34106036999998778 15) (.rd (.var .T)))),
  .set (.var .Kc) (.mul (.num 1 0) (.exp (.rd (.var .Kc)))),
  .set (.arr .rev 120) (.div (.mul (.mul (.rd (.arr .C 7)) (.rd (.arr .C 16))) (.rd (.var .kf))) (.rd (.var .Kc)))]

/-- utilities/mechanisms/gri30/lib/src/rxn_rates.c:1460-1471 -/
def rate121 : List CStmt := [
  .set (.var .kf) (.exp (.sub (.num 24783708847492832 15) (.div (.num 28985446935887768 14) (.rd (.var .T))))),
  .set (.arr .fwd 121) (.mul (.mul (.rd (.arr .C 8)) (.rd (.arr .C 3))) (.rd (.var .kf))),
  .ite (.rd (.var .T)) (.num 1000 0) (.var .Kc) (.sub (.add (.add (.neg (.num 30397461299999997 16)) (.mul (.num 4111046599999999 16) (.rd (.var .logT)))) (.mul (.rd (.var .T)) (.add (.neg (.num 28570031800000009 20)) (.mul (.rd (.var .T)) (.add (.neg (.num 4868693274999997 22)) (.mul (.rd (.var .T)) (.add (.num 43270580191666671 26) (.mul (.neg (.num 11510073025000001 29)) (.rd (.var .T)))))))))) (.div (.neg (.num 69601766439999992 12)) (.rd (.var .T)))) (.sub (.add (.add (.num 28388916699999989 16) (.mul (.neg (.num 49060032999999992 17)) (.rd (.var .logT)))) (.mul (.rd (.var .T)) (.add (.num 22273842395000021 20) (.mul (.rd (.var .T)) (.add (.neg (.num 2107952351666669 23)) (.mul (.rd (.var .T)) (.add (.neg (.num 22387024833333325 28)) (.mul (.num 37040618199999998 32) (.rd (.var .T)))))))))) (.div (.neg (.num 69297130879999997 12)) (.rd (.var .T)))),
  .set (.var .Kc) (.mul (.num 1 0) (.exp (.rd (.var .Kc)))),
  .set (.arr .rev 121) (.div (.mul (.mul (.rd (.arr .C 14)) (.rd (.arr .C 2))) (.rd (.var .kf))) (.rd (.var .Kc)))]

/-- utilities/mechanisms/gri30/lib/src/rxn_rates.c:1472-1483 -/
def rate122 : List CStmt := [
  .set (.var .kf) (.num 50000000000 0),
  .set (.arr .fwd 122) (.mul (.mul (.rd (.arr .C 8)) (.rd (.arr .C 10))) (.rd (.var .kf))),
  .ite (.rd (.var .T)) (.num 1000 0) (.var .Kc) (.sub (.add (.add (.num 60970208700000006 17) (.mul (.neg (.num 92726089000000034 17)) (.rd (.var .logT)))) (.mul (.rd (.var .T)) (.add (.num 63813133408526668 19) (.mul (.rd (.var .T)) (.add (.neg (.num 53342734594993211 22)) (.mul (.rd (.var .T)) (.add (.num 28385209101084016 25) (.mul (.neg (.num 6443544868463866 28)) (.rd (.var .T)))))))))) (.div (.neg (.num 3913487019999999 11)) (.rd (.var .T)))) (.sub (.add (.add (.neg (.num 50845216539999996 16)) (.mul (.num 30103651999999981 17) (.rd (.var .logT)))) (.mul (.rd (.var .T)) (.add (.num 52391857425785151 20) (.mul (.rd (.var .T)) (.add (.neg (.num 59415213640634164 24)) (.mul (.rd (.var .T)) (.add (.num 54846628040396918 29) (.mul (.num 29611295640986784 32) (.rd (.var .T)))))))))) (.div (.neg (.num 39120174399999996 12)) (.rd (.var .T)))),
  .set (.var .Kc) (.mul (.num 1 0) (.exp (.rd (.var .Kc)))),
  .set (.arr .rev 122) (.div (.mul (.mul (.rd (.arr .C 1)) (.rd (.arr .C 21))) (.rd (.var .kf))) (.rd (.var .Kc)))]

/-- utilities/mechanisms/gri30/lib/src/rxn_rates.c:1484-1495 -/
def rate123 : List CStmt := [
  .set (.var .kf) (.num 50000000000 0),
  .set (.arr .fwd 123) (.mul (.mul (.rd (.arr .C 8)) (.rd (.arr .C 12))) (.rd (.var .kf))),
  .ite (.rd (.var .T)) (.num 1000 0) (.var .Kc) (.sub (.add (.add (.num 10276298292999998 15) (.mul (.neg (.num 29191488560000005 16)) (.rd (.var .logT)))) (.mul (.rd (.var .T)) (.add (.num 10836074437352666 18) (.mul (.rd (.var .T)) (.add (.neg (.num 69968653844993205 22)) (.mul (.rd (.var .T)) (.add (.num 29682210701084015 25) (.mul (.neg (.num 56555542634638665 29)) (.rd (.var .T)))))))))) (.div (.neg (.num 49986241399999999 12)) (.rd (.var .T)))) (.sub (.add (.add (.neg (.num 16827722694000002 15)) (.mul (.num 18691830500000002 16) (.rd (.var .logT)))) (.mul (.rd (.var .T)) (.add (.neg (.num 66311134074214855 20)) (.mul (.rd (.var .T)) (.add (.num 11443807969269913 23) (.mul (.rd (.var .T)) (.add (.neg (.num 13808465052929363 27)) (.mul (.num 77323487640986804 32) (.rd (.var .T)))))))))) (.div (.neg (.num 50817220499999996 12)) (.rd (.var .T)))),
  .set (.var .Kc) (.mul (.num 1 0) (.exp (.rd (.var .Kc)))),
  .set (.arr .rev 123) (.div (.mul (.mul (.rd (.arr .C 1)) (.rd (.arr .C 22))) (.rd (.var .kf))) (.rd (.var .Kc)))]

/-- utilities/mechanisms/gri30/lib/src/rxn_rates.c:1496-1507 -/
def rate124 : List CStmt := [
  .set (.var .kf) (.num 67100000000 0),
  .set (.arr .fwd 124) (.mul (.mul (.rd (.arr .C 9)) (.rd (.arr .C 3))) (.rd (.var .kf))),
  .ite (.rd (.var .T)) (.num 1000 0) (.var .Kc) (.sub (.add (.add (.neg (.num 4125608500000002 16)) (.mul (.num 11717993000000027 17) (.rd (.var .logT)))) (.mul (.rd (.var .T)) (.add (.neg (.num 19251727705000001 19)) (.mul (.rd (.var .T)) (.add (.num 20441161999999999 22) (.mul (.rd (.var .T)) (.add (.neg (.num 10769461433333334 25)) (.mul (.num 23063553300000001 29) (.rd (.var .T)))))))))) (.div (.neg (.num 36771525679999992 12)) (.rd (.var .T)))) (.sub (.add (.add (.num 44638796899999988 16) (.mul (.neg (.num 81940740999999973 17)) (.rd (.var .logT)))) (.mul (.rd (.var .T)) (.add (.num 12084899626500002 19) (.mul (.rd (.var .T)) (.add (.neg (.num 30483110951666671 23)) (.mul (.rd (.var .T)) (.add (.num 41696774341666675 27) (.mul (.neg (.num 24029346545 25)) (.rd (.var .T)))))))))) (.div (.neg (.num 36694481430000007 12)) (.rd (.var .T)))),
  .set (.var .Kc) (.mul (.num 1 0) (.exp (.rd (.var .Kc)))),
  .set (.arr .rev 124) (.div (.mul (.mul (.rd (.arr .C 16)) (.rd (.arr .C 2))) (.rd (.var .kf))) (.rd (.var .Kc)))]

/-- utilities/mechanisms/gri30/lib/src/rxn_rates.c:1508-1519 -/
def rate125 : List CStmt := [
  .set (.var .kf) (.exp (.sub (.num 2540539706407063 14) (.div (.num 15650128467119957 13) (.rd (.var .T))))),
  .set (.arr .fwd 125) (.mul (.mul (.rd (.arr .C 0)) (.rd (.arr .C 9))) (.rd (.var .kf))),
  .ite (.rd (.var .T)) (.num 1000 0) (.var .Kc) (.sub (.add (.add (.neg (.num 20797032209999999 16)) (.mul (.num 42853089999999971 17) (.rd (.var .logT)))) (.mul (.rd (.var .T)) (.add (.neg (.num 36677420736473329 19)) (.mul (.rd (.var .T)) (.add (.num 39936733430006801 22) (.mul (.rd (.var .T)) (.add (.neg (.num 2264191183141599 24)) (.mul (.num 52348127345361345 29) (.rd (.var .T)))))))))) (.div (.num 15983417730000074 13) (.rd (.var .T)))) (.sub (.add (.add (.num 42861964359999991 16) (.mul (.neg (.num 84164278999999986 17)) (.rd (.var .logT)))) (.mul (.rd (.var .T)) (.add (.num 13674408445078514 19) (.mul (.rd (.var .T)) (.add (.neg (.num 34214139780730086 23)) (.mul (.rd (.var .T)) (.add (.num 47536148938737302 27) (.mul (.neg (.num 28203116050901321 31)) (.rd (.var .T)))))))))) (.div (.num 16749864219999872 13) (.rd (.var .T)))),
  .set (.var .Kc) (.mul (.num 1 0) (.exp (.rd (.var .Kc)))),
  .set (.arr .rev 125) (.div (.mul (.mul (.rd (.arr .C 1)) (.rd (.arr .C 10))) (.rd (.var .kf))) (.rd (.var .Kc)))]

/-- utilities/mechanisms/gri30/lib/src/rxn_rates.c:1520-1531 -/
def rate126 : List CStmt := [
  .set (.var .kf) (.exp (.sub (.num 22465484860614328 15) (.div (.neg (.num 37993077146866779 14)) (.rd (.var .T))))),
  .set (.arr .fwd 126) (.mul (.mul (.rd (.arr .C 5)) (.rd (.arr .C 9))) (.rd (.var .kf))),
  .ite (.rd (.var .T)) (.num 1000 0) (.var .Kc) (.sub (.add (.add (.neg (.num 68411476500000035 17)) (.mul (.neg (.num 39473406000000022 17)) (.rd (.var .logT)))) (.mul (.rd (.var .T)) (.add (.neg (.num 40978675651473333 19)) (.mul (.rd (.var .T)) (.add (.num 54150982230006794 22) (.mul (.rd (.var .T)) (.add (.neg (.num 2966894062308265 24)) (.mul (.num 64056888495361337 29) (.rd (.var .T)))))))))) (.div (.neg (.num 29338863499999999 12)) (.rd (.var .T)))) (.sub (.add (.add (.num 44096571259999999 16) (.mul (.neg (.num 16517671300000005 16)) (.rd (.var .logT)))) (.mul (.rd (.var .T)) (.add (.num 30260845379578519 19) (.mul (.rd (.var .T)) (.add (.neg (.num 7338268751406342 22)) (.mul (.rd (.var .T)) (.add (.num 10284516260540396 26) (.mul (.neg (.num 61406800500901323 31)) (.rd (.var .T)))))))))) (.div (.neg (.num 29530311700000006 12)) (.rd (.var .T)))),
  .set (.var .Kc) (.mul (.num 1 0) (.exp (.rd (.var .Kc)))),
  .set (.arr .rev 126) (.div (.mul (.mul (.rd (.arr .C 17)) (.rd (.arr .C 1))) (.rd (.var .kf))) (.rd (.var .Kc)))]

/-- utilities/mechanisms/gri30/lib/src/rxn_rates.c:1532-1543 -/
def rate127 : List CStmt := [
  .set (.var .kf) (.num 40000000000 0),
  .set (.arr .fwd 127) (.mul (.mul (.rd (.arr .C 10)) (.rd (.arr .C 9))) (.rd (.var .kf))),
  .ite (.rd (.var .T)) (.num 1000 0) (.var .Kc) (.sub (.add (.add (.num 13790293542999999 15) (.mul (.neg (.num 39438142259999998 16)) (.rd (.var .logT)))) (.mul (.rd (.var .T)) (.add (.num 11034427608352666 18) (.mul (.rd (.var .T)) (.add (.neg (.num 61038482103326536 22)) (.mul (.rd (.var .T)) (.add (.num 23919984968584011 25) (.mul (.neg (.num 43910281304638655 29)) (.rd (.var .T)))))))))) (.div (.neg (.num 64898692899999995 12)) (.rd (.var .T)))) (.sub (.add (.add (.neg (.num 14228141144 9)) (.mul (.num 89500379000000008 17) (.rd (.var .logT)))) (.mul (.rd (.var .T)) (.add (.num 66718000795785136 20) (.mul (.rd (.var .T)) (.add (.neg (.num 18474136480730085 23)) (.mul (.rd (.var .T)) (.add (.num 28160038855403975 27) (.mul (.neg (.num 17479351200901319 31)) (.rd (.var .T)))))))))) (.div (.neg (.num 65866381300000008 12)) (.rd (.var .T)))),
  .set (.var .Kc) (.mul (.num 1 0) (.exp (.rd (.var .Kc)))),
  .set (.arr .rev 127) (.div (.mul (.mul (.rd (.arr .C 1)) (.rd (.arr .C 22))) (.rd (.var .kf))) (.rd (.var .Kc)))]

/-- utilities/mechanisms/gri30/lib/src/rxn_rates.c:1544-1555 -/
def rate128 : List CStmt := [
  .set (.var .kf) (.num 30000000000 0),
  .set (.arr .fwd 128) (.mul (.mul (.rd (.arr .C 9)) (.rd (.arr .C 12))) (.rd (.var .kf))),
  .ite (.rd (.var .T)) (.num 1000 0) (.var .Kc) (.sub (.add (.add (.num 58262225870000002 16) (.mul (.neg (.num 14509406 7)) (.rd (.var .logT)))) (.mul (.rd (.var .T)) (.add (.neg (.num 40999783514733361 20)) (.mul (.rd (.var .T)) (.add (.num 36466188813340132 22) (.mul (.rd (.var .T)) (.add (.neg (.num 26713986431415987 25)) (.mul (.num 6788660314536134 28) (.rd (.var .T)))))))))) (.div (.neg (.num 26908785499999998 12)) (.rd (.var .T)))) (.sub (.add (.add (.neg (.num 6976952474 9)) (.mul (.num 3525415599999997 16) (.rd (.var .logT)))) (.mul (.rd (.var .T)) (.add (.num 10597075629578522 19) (.mul (.rd (.var .T)) (.add (.neg (.num 30635427480730083 23)) (.mul (.rd (.var .T)) (.add (.num 46053006688737302 27) (.mul (.neg (.num 28576601250901313 31)) (.rd (.var .T)))))))))) (.div (.neg (.num 27701486900000007 12)) (.rd (.var .T)))),
  .set (.var .Kc) (.mul (.num 1 0) (.exp (.rd (.var .Kc)))),
  .set (.arr .rev 128) (.div (.mul (.mul (.rd (.arr .C 1)) (.rd (.arr .C 23))) (.rd (.var .kf))) (.rd (.var .Kc)))]

/-- utilities/mechanisms/gri30/lib/src/rxn_rates.c:1556-1567 -/
def rate129 : List CStmt := [
  .set (.var .kf) (.num 60000000000 0),
  .set (.arr .fwd 129) (.mul (.mul (.rd (.arr .C 9)) (.rd (.arr .C 13))) (.rd (.var .kf))),
  .ite (.rd (.var .T)) (.num 1000 0) (.var .Kc) (.sub (.add (.add (.num 83884320869999982 16) (.mul (.neg (.num 21804912999999999 16)) (.rd (.var .logT)))) (.mul (.rd (.var .T)) (.add (.num 2888310394852666 18) (.mul (.rd (.var .T)) (.add (.num 16013266580006795 22) (.mul (.rd (.var .T)) (.add (.neg (.num 1987228830641598 24)) (.mul (.num 58625661845361351 29) (.rd (.var .T)))))))))) (.div (.neg (.num 29987209969999993 12)) (.rd (.var .T)))) (.sub (.add (.add (.neg (.num 15646406548999998 15)) (.mul (.num 15827949449999998 16) (.rd (.var .logT)))) (.mul (.rd (.var .T)) (.add (.num 14177734795785182 20) (.mul (.rd (.var .T)) (.add (.neg (.num 18706111647396772 23)) (.mul (.rd (.var .T)) (.add (.num 31665977022070668 27) (.mul (.neg (.num 20749384400901321 31)) (.rd (.var .T)))))))))) (.div (.neg (.num 31130545770000004 12)) (.rd (.var .T)))),
  .set (.var .Kc) (.mul (.num 1 0) (.exp (.rd (.var .Kc)))),
  .set (.arr .rev 129) (.div (.mul (.mul (.rd (.arr .C 1)) (.rd (.arr .C 24))) (.rd (.var .kf))) (.rd (.var .Kc)))]

/-- utilities/mechanisms/gri30/lib/src/rxn_rates.c:1568-1579 -/
def rate130 : List CStmt := [
  .set (.var .kf) (.num 50000000000 0),
  .set (.arr .fwd 130) (.mul (.mul (.rd (.arr .C 9)) (.rd (.arr .C 14))) (.rd (.var .kf))),
  .ite (.rd (.var .T)) (.num 1000 0) (.var .Kc) (.sub (.add (.add (.num 11715625360000001 15) (.mul (.neg (.num 38176287199999996 16)) (.rd (.var .logT)))) (.mul (.rd (.var .T)) (.add (.num 89707695694999992 19) (.mul (.rd (.var .T)) (.add (.neg (.num 38428207800000003 22)) (.mul (.rd (.var .T)) (.add (.num 11005483205000003 25) (.mul (.neg (.num 13779829655000002 29)) (.rd (.var .T)))))))))) (.div (.neg (.num 36393758399999992 12)) (.rd (.var .T)))) (.sub (.add (.add (.neg (.num 17268482670000001 15)) (.mul (.num 103455546 8) (.rd (.var .logT)))) (.mul (.rd (.var .T)) (.add (.num 52594949450000014 20) (.mul (.rd (.var .T)) (.add (.neg (.num 1231790973333333 22)) (.mul (.rd (.var .T)) (.add (.num 1557461341666667 26) (.mul (.neg (.num 83254993499999971 32)) (.rd (.var .T)))))))))) (.div (.neg (.num 37533349000000009 12)) (.rd (.var .T)))),
  .set (.var .Kc) (.mul (.num 82057360967184814 18) (.exp (.rd (.var .Kc)))),
  .set (.arr .rev 130) (.div (.mul (.rd (.arr .C 27)) (.rd (.var .kf))) (.rd (.var .Kc)))]

/-- utilities/mechanisms/gri30/lib/src/rxn_rates.c:1580-1591 -/
def rate131 : List CStmt := [
  .set (.var .kf) (.exp (.sub (.num 25970289909106896 15) (.div (.num 79468433682558962 13) (.rd (.var .T))))),
  .set (.arr .fwd 131) (.mul (.mul (.rd (.arr .C 9)) (.rd (.arr .C 15))) (.rd (.var .kf))),
  .ite (.rd (.var .T)) (.num 1000 0) (.var .Kc) (.sub (.add (.add (.neg (.num 70364107300000001 16)) (.mul (.num 195412914 8) (.rd (.var .logT)))) (.mul (.rd (.var .T)) (.add (.neg (.num 65813556555000003 19)) (.mul (.rd (.var .T)) (.add (.num 39348853783333332 22) (.mul (.rd (.var .T)) (.add (.neg (.num 15023972421666667 25)) (.mul (.num 24915271845000002 29) (.rd (.var .T)))))))))) (.div (.neg (.num 32929844739999986 12)) (.rd (.var .T)))) (.sub (.add (.add (.num 11108979619999999 15) (.mul (.neg (.num 12485650300000004 16)) (.rd (.var .logT)))) (.mul (.rd (.var .T)) (.add (.num 81709937450000041 20) (.mul (.rd (.var .T)) (.add (.neg (.num 23548558599999998 23)) (.mul (.rd (.var .T)) (.add (.num 35534370583333333 27) (.mul (.neg (.num 22057582299999997 31)) (.rd (.var .T)))))))))) (.div (.neg (.num 32393224650000004 12)) (.rd (.var .T)))),
  .set (.var .Kc) (.mul (.num 1 0) (.exp (.rd (.var .Kc)))),
  .set (.arr .rev 131) (.div (.mul (.mul (.rd (.arr .C 14)) (.rd (.arr .C 16))) (.rd (.var .kf))) (.rd (.var .Kc)))]

/-- utilities/mechanisms/gri30/lib/src/rxn_rates.c:1592-1603 -/
def rate132 : List CStmt := [
  .set (.var .kf) (.exp (.sub (.num 25272923313004245 15) (.div (.neg (.num 25915807590246874 14)) (.rd (.var .T))))),
  .set (.arr .fwd 132) (.mul (.mul (.rd (.arr .C 17)) (.rd (.arr .C 9))) (.rd (.var .kf))),
  .ite (.rd (.var .T)) (.num 1000 0) (.var .Kc) (.sub (.add (.add (.num 12729844667 9) (.mul (.neg (.num 36477035 7)) (.rd (.var .logT)))) (.mul (.rd (.var .T)) (.add (.num 13851685124852665 18) (.mul (.rd (.var .T)) (.add (.neg (.num 88379595919993197 22)) (.mul (.rd (.var .T)) (.add (.num 36758607093584009 25) (.mul (.neg (.num 68928753404638662 29)) (.rd (.var .T)))))))))) (.div (.neg (.num 38057594839999998 12)) (.rd (.var .T)))) (.sub (.add (.add (.neg (.num 21327881218999998 15)) (.mul (.num 23721425199999997 16) (.rd (.var .logT)))) (.mul (.rd (.var .T)) (.add (.neg (.num 58365853704214863 20)) (.mul (.rd (.var .T)) (.add (.num 18124356859365775 24) (.mul (.rd (.var .T)) (.add (.num 39684671887373115 28) (.mul (.neg (.num 43530969509013123 32)) (.rd (.var .T)))))))))) (.div (.neg (.num 39093997310000006 12)) (.rd (.var .T)))),
  .set (.var .Kc) (.mul (.num 1 0) (.exp (.rd (.var .Kc)))),
  .set (.arr .rev 132) (.div (.mul (.mul (.rd (.arr .C 1)) (.rd (.arr .C 28))) (.rd (.var .kf))) (.rd (.var .Kc)))]

/-- utilities/mechanisms/gri30/lib/src/rxn_rates.c:1604-1615 -/
def rate133 : List CStmt := [
  .set (.var .kf) (.num 50000000000 0),
  .set (.arr .fwd 133) (.mul (.mul (.rd (.arr .C 9)) (.rd (.arr .C 27))) (.rd (.var .kf))),
  .ite (.rd (.var .T)) (.num 1000 0) (.var .Kc) (.sub (.add (.add (.num 42270097859999982 16) (.mul (.neg (.num 13533234859999999 16)) (.rd (.var .logT)))) (.mul (.rd (.var .T)) (.add (.num 23861763394999996 19) (.mul (.rd (.var .T)) (.add (.neg (.num 15137125866666667 22)) (.mul (.rd (.var .T)) (.add (.num 70702644283333291 26) (.mul (.neg (.num 1466291234499999 28)) (.rd (.var .T)))))))))) (.div (.neg (.num 78771847699999984 12)) (.rd (.var .T)))) (.sub (.add (.add (.num 66776012999999992 16) (.mul (.neg (.num 16439152799999999 16)) (.rd (.var .logT)))) (.mul (.rd (.var .T)) (.add (.num 14839701445000003 19) (.mul (.rd (.var .T)) (.add (.neg (.num 32046087433333335 23)) (.mul (.rd (.var .T)) (.add (.num 45157708999999992 27) (.mul (.neg (.num 273441996 23)) (.rd (.var .T)))))))))) (.div (.neg (.num 78555524600000004 12)) (.rd (.var .T)))),
  .set (.var .Kc) (.mul (.num 1 0) (.exp (.rd (.var .Kc)))),
  .set (.arr .rev 133) (.div (.mul (.mul (.rd (.arr .C 14)) (.rd (.arr .C 22))) (.rd (.var .kf))) (.rd (.var .Kc)))]

/-- utilities/mechanisms/gri30/lib/src/rxn_rates.c:1616-1617 -/
def rate134 : List CStmt := [
  .set (.arr .fwd 134) (.mul (.mul (.rd (.arr .C 10)) (.rd (.arr .C 3))) (.exp (.sub (.num 2233270374938051 14) (.div (.num 75482934728874397 14) (.rd (.var .T))))))]

/-- utilities/mechanisms/gri30/lib/src/rxn_rates.c:1618-1629 -/
def rate135 : List CStmt := [
  .set (.var .kf) (.exp (.sub (.add (.num 62146080984221914 16) (.mul (.num 2 0) (.rd (.var .logT)))) (.div (.num 36382774539317456 13) (.rd (.var .T))))),
  .set (.arr .fwd 135) (.mul (.mul (.rd (.arr .C 0)) (.rd (.arr .C 10))) (.rd (.var .kf))),
  .ite (.rd (.var .T)) (.num 1000 0) (.var .Kc) (.sub (.add (.add (.neg (.num 11542412209999999 16)) (.mul (.num 66580609999999929 18) (.rd (.var .logT)))) (.mul (.rd (.var .T)) (.add (.neg (.num 34692205711473328 19)) (.mul (.rd (.var .T)) (.add (.num 37355785246673471 22) (.mul (.rd (.var .T)) (.add (.neg (.num 19314560098082654 25)) (.mul (.num 41162788795361342 29) (.rd (.var .T)))))))))) (.div (.neg (.num 31674462270000004 13)) (.rd (.var .T)))) (.sub (.add (.add (.num 64928815460000013 16) (.mul (.neg (.num 14256625999999999 16)) (.rd (.var .logT)))) (.mul (.rd (.var .T)) (.add (.num 18164549500078511 19) (.mul (.rd (.var .T)) (.add (.neg (.num 34627571197396756 23)) (.mul (.rd (.var .T)) (.add (.num 42922623688737307 27) (.mul (.neg (.num 23984109900901322 31)) (.rd (.var .T)))))))))) (.div (.neg (.num 3064200877999996 12)) (.rd (.var .T)))),
  .set (.var .Kc) (.mul (.num 1 0) (.exp (.rd (.var .Kc)))),
  .set (.arr .rev 134) (.div (.mul (.mul (.rd (.arr .C 1)) (.rd (.arr .C 12))) (.rd (.var .kf))) (.rd (.var .Kc)))]

/-- utilities/mechanisms/gri30/lib/src/rxn_rates.c:1630-1641 -/
def rate136 : List CStmt := [
  .set (.var .kf) (.exp (.sub (.num 28101024745174282 15) (.div (.num 60104544826778383 13) (.rd (.var .T))))),
  .set (.arr .fwd 136) (.mul (.mul (.rd (.arr .C 10)) (.rd (.arr .C 10))) (.rd (.var .kf))),
  .ite (.rd (.var .T)) (.num 1000 0) (.var .Kc) (.sub (.add (.add (.num 15869996764 9) (.mul (.neg (.num 43723451259999999 16)) (.rd (.var .logT)))) (.mul (.rd (.var .T)) (.add (.num 14702169681999999 18) (.mul (.rd (.var .T)) (.add (.neg (.num 10097521553333335 21)) (.mul (.rd (.var .T)) (.add (.num 465618968 17) (.mul (.neg (.num 96258408649999989 29)) (.rd (.var .T)))))))))) (.div (.neg (.num 66497034673000002 12)) (.rd (.var .T)))) (.sub (.add (.add (.neg (.num 18514337579999999 15)) (.mul (.num 17366465799999995 16) (.rd (.var .logT)))) (.mul (.rd (.var .T)) (.add (.neg (.num 7002608365499997 19)) (.mul (.rd (.var .T)) (.add (.num 15740003299999998 23) (.mul (.rd (.var .T)) (.add (.neg (.num 1937611008333333 26)) (.mul (.num 10723764849999999 31) (.rd (.var .T)))))))))) (.div (.neg (.num 67541367721999995 12)) (.rd (.var .T)))),
  .set (.var .Kc) (.mul (.num 1 0) (.exp (.rd (.var .Kc)))),
  .set (.arr .rev 135) (.div (.mul (.mul (.rd (.arr .C 0)) (.rd (.arr .C 22))) (.rd (.var .kf))) (.rd (.var .Kc)))]

/-- utilities/mechanisms/gri30/lib/src/rxn_rates.c:1642-1653 -/
def rate137 : List CStmt := [
  .set (.var .kf) (.num 40000000000 0),
  .set (.arr .fwd 137) (.mul (.mul (.rd (.arr .C 10)) (.rd (.arr .C 12))) (.rd (.var .kf))),
  .ite (.rd (.var .T)) (.num 1000 0) (.var .Kc) (.sub (.add (.add (.num 1460619517 9) (.mul (.neg (.num 97706759000000032 17)) (.rd (.var .logT)))) (.mul (.rd (.var .T)) (.add (.neg (.num 52751731811473343 19)) (.mul (.rd (.var .T)) (.add (.num 80956520380006795 22) (.mul (.rd (.var .T)) (.add (.neg (.num 4869732459808265 24)) (.mul (.num 11378581384536135 28) (.rd (.var .T)))))))))) (.div (.neg (.num 31885603070000001 12)) (.rd (.var .T)))) (.sub (.add (.add (.neg (.num 41688709639999981 16)) (.mul (.neg (.num 62370768000000032 17)) (.rd (.var .logT)))) (.mul (.rd (.var .T)) (.add (.num 18745608934578519 19) (.mul (.rd (.var .T)) (.add (.neg (.num 3857816139739677 22)) (.mul (.rd (.var .T)) (.add (.num 51363752688737337 27) (.mul (.neg (.num 30108932200901318 31)) (.rd (.var .T)))))))))) (.div (.neg (.num 32625642260000001 12)) (.rd (.var .T)))),
  .set (.var .Kc) (.mul (.num 1 0) (.exp (.rd (.var .Kc)))),
  .set (.arr .rev 136) (.div (.mul (.mul (.rd (.arr .C 1)) (.rd (.arr .C 24))) (.rd (.var .kf))) (.rd (.var .Kc)))]

/-- utilities/mechanisms/gri30/lib/src/rxn_rates.c:1654-1665 -/
def rate138 : List CStmt := [
  .set (.var .kf) (.exp (.sub (.add (.num 78079166289264084 16) (.mul (.num 2 0) (.rd (.var .logT)))) (.div (.num 41616258013852748 13) (.rd (.var .T))))),
  .set (.arr .fwd 138) (.mul (.mul (.rd (.arr .C 10)) (.rd (.arr .C 13))) (.rd (.var .kf))),
  .ite (.rd (.var .T)) (.num 1000 0) (.var .Kc) (.sub (.add (.add (.num 78532745699999982 16) (.mul (.neg (.num 15653739999999998 16)) (.rd (.var .logT)))) (.mul (.rd (.var .T)) (.add (.num 83620050785000004 19) (.mul (.rd (.var .T)) (.add (.neg (.num 67524201983333334 22)) (.mul (.rd (.var .T)) (.add (.num 32152388025000006 25) (.mul (.neg (.num 66345490549999999 29)) (.rd (.var .T)))))))))) (.div (.neg (.num 28673948999999957 13)) (.rd (.var .T)))) (.sub (.add (.add (.neg (.num 92708504749999996 16)) (.mul (.num 16224828150000001 16) (.rd (.var .logT)))) (.mul (.rd (.var .T)) (.add (.neg (.num 12837694399999997 19)) (.mul (.rd (.var .T)) (.add (.num 19458618333333327 23) (.mul (.rd (.var .T)) (.add (.neg (.num 24311300916666658 27)) (.mul (.num 13578553950000004 31) (.rd (.var .T)))))))))) (.div (.neg (.num 32440908100000015 13)) (.rd (.var .T)))),
  .set (.var .Kc) (.mul (.num 1 0) (.exp (.rd (.var .Kc)))),
  .set (.arr .rev 137) (.div (.mul (.mul (.rd (.arr .C 12)) (.rd (.arr .C 12))) (.rd (.var .kf))) (.rd (.var .Kc)))]

/-- utilities/mechanisms/gri30/lib/src/rxn_rates.c:1666-1677 -/
def rate139 : List CStmt := [
  .set (.var .kf) (.exp (.sub (.add (.num 20512544805630757 15) (.mul (.num 5 1) (.rd (.var .logT)))) (.div (.num 22695202375148233 13) (.rd (.var .T))))),
  .set (.arr .fwd 139) (.mul (.mul (.rd (.arr .C 10)) (.rd (.arr .C 14))) (.rd (.var .kf))),
  .ite (.rd (.var .T)) (.num 1000 0) (.var .Kc) (.sub (.add (.add (.num 1235108271 8) (.mul (.neg (.num 42063758399999998 16)) (.rd (.var .logT)))) (.mul (.rd (.var .T)) (.add (.num 88801768185000005 19) (.mul (.rd (.var .T)) (.add (.neg (.num 35344100233333329 22)) (.mul (.rd (.var .T)) (.add (.num 10239901105 19) (.mul (.neg (.num 13987844205000002 29)) (.rd (.var .T)))))))))) (.div (.neg (.num 38702872139999992 12)) (.rd (.var .T)))) (.sub (.add (.add (.neg (.num 12279644335 9)) (.mul (.neg (.num 77989420000000198 18)) (.rd (.var .logT)))) (.mul (.rd (.var .T)) (.add (.num 16423385499999999 19) (.mul (.rd (.var .T)) (.add (.neg (.num 29360410149999993 23)) (.mul (.rd (.var .T)) (.add (.num 36092777083333337 27) (.mul (.neg (.num 20173145899999996 31)) (.rd (.var .T)))))))))) (.div (.neg (.num 3966278471 5)) (.rd (.var .T)))),
  .set (.var .Kc) (.mul (.num 82057360967184814 18) (.exp (.rd (.var .Kc)))),
  .set (.arr .rev 138) (.div (.mul (.rd (.arr .C 28)) (.rd (.var .kf))) (.rd (.var .Kc)))]

/-- utilities/mechanisms/gri30/lib/src/rxn_rates.c:1678-1689 -/
def rate140 : List CStmt := [
  .set (.var .kf) (.num 30000000000 0),
  .set (.arr .fwd 140) (.mul (.mul (.rd (.arr .C 10)) (.rd (.arr .C 27))) (.rd (.var .kf))),
  .ite (.rd (.var .T)) (.num 1000 0) (.var .Kc) (.sub (.add (.add (.neg (.num 28115991699999991 16)) (.mul (.num 77759985000000009 17) (.rd (.var .logT)))) (.mul (.rd (.var .T)) (.add (.neg (.num 88597276015000004 19)) (.mul (.rd (.var .T)) (.add (.num 79786596866666658 22) (.mul (.rd (.var .T)) (.add (.neg (.num 40236355238333339 25)) (.mul (.num 85948633555000007 29) (.rd (.var .T)))))))))) (.div (.neg (.num 45547728300000002 12)) (.rd (.var .T)))) (.sub (.add (.add (.num 16135475079999999 15) (.mul (.neg (.num 27703973200000003 16)) (.rd (.var .logT)))) (.mul (.rd (.var .T)) (.add (.num 23255118050000008 19) (.mul (.rd (.var .T)) (.add (.neg (.num 44620809850000001 23)) (.mul (.rd (.var .T)) (.add (.num 58437151583333336 27) (.mul (.neg (.num 34222443499999994 31)) (.rd (.var .T)))))))))) (.div (.neg (.num 45129817500000005 12)) (.rd (.var .T)))),
  .set (.var .Kc) (.mul (.num 1 0) (.exp (.rd (.var .Kc)))),
  .set (.arr .rev 139) (.div (.mul (.mul (.rd (.arr .C 23)) (.rd (.arr .C 14))) (.rd (.var .kf))) (.rd (.var .Kc)))]

/-- utilities/mechanisms/gri30/lib/src/rxn_rates.c:1690-1701 -/
def rate141 : List CStmt := [
  .set (.var .kf) (.exp (.sub (.num 23431316038048621 15) (.div (.num 30193173891549759 14) (.rd (.var .T))))),
  .set (.arr .fwd 141) (.mul (.mul (.rd (.arr .C 11)) (.rd (.arr .C 52))) (.rd (.var .kf))),
  .ite (.rd (.var .T)) (.num 1000 0) (.var .Kc) (.sub (.add (.add (.num 27675762569999995 16) (.mul (.neg (.num 43592543999999966 17)) (.rd (.var .logT)))) (.mul (.rd (.var .T)) (.add (.num 16677431665000002 19) (.mul (.rd (.var .T)) (.add (.neg (.num 90634396499999983 23)) (.mul (.rd (.var .T)) (.add (.num 23643735666666669 26) (.mul (.neg (.num 12786509000000005 30)) (.rd (.var .T)))))))))) (.div (.neg (.num 44927762000000002 13)) (.rd (.var .T)))) (.sub (.add (.add (.neg (.num 30373711599999997 16)) (.mul (.num 58206271000000021 17) (.rd (.var .logT)))) (.mul (.rd (.var .T)) (.add (.neg (.num 49974672500000005 20)) (.mul (.rd (.var .T)) (.add (.num 10049558333333332 23) (.mul (.rd (.var .T)) (.add (.neg (.num 13143870916666673 27)) (.mul (.num 75994398999999995 32) (.rd (.var .T)))))))))) (.div (.neg (.num 46623957000000009 13)) (.rd (.var .T)))),
  .set (.var .Kc) (.mul (.num 1 0) (.exp (.rd (.var .Kc)))),
  .set (.arr .rev 140) (.div (.mul (.mul (.rd (.arr .C 10)) (.rd (.arr .C 52))) (.rd (.var .kf))) (.rd (.var .Kc)))]

/-- utilities/mechanisms/gri30/lib/src/rxn_rates.c:1702-1713 -/
def rate142 : List CStmt := [
  .set (.var .kf) (.exp (.sub (.num 22920490414282632 15) (.div (.num 30193173891549759 14) (.rd (.var .T))))),
  .set (.arr .fwd 142) (.mul (.mul (.rd (.arr .C 11)) (.rd (.arr .C 47))) (.rd (.var .kf))),
  .ite (.rd (.var .T)) (.num 1000 0) (.var .Kc) (.sub (.add (.add (.num 27675762569999995 16) (.mul (.neg (.num 43592543999999966 17)) (.rd (.var .logT)))) (.mul (.rd (.var .T)) (.add (.num 16677431665000002 19) (.mul (.rd (.var .T)) (.add (.neg (.num 90634396499999983 23)) (.mul (.rd (.var .T)) (.add (.num 23643735666666669 26) (.mul (.neg (.num 12786509000000005 30)) (.rd (.var .T)))))))))) (.div (.neg (.num 44927762000000002 13)) (.rd (.var .T)))) (.sub (.add (.add (.neg (.num 30373711599999997 16)) (.mul (.num 58206271000000021 17) (.rd (.var .logT)))) (.mul (.rd (.var .T)) (.add (.neg (.num 49974672500000005 20)) (.mul (.rd (.var .T)) (.add (.num 10049558333333332 23) (.mul (.rd (.var .T)) (.add (.neg (.num 13143870916666673 27)) (.mul (.num 75994398999999995 32) (.rd (.var .T)))))))))) (.div (.neg (.num 46623957000000009 13)) (.rd (.var .T)))),
  .set (.var .Kc) (.mul (.num 1 0) (.exp (.rd (.var .Kc)))),
  .set (.arr .rev 141) (.div (.mul (.mul (.rd (.arr .C 10)) (.rd (.arr .C 47))) (.rd (.var .kf))) (.rd (.var .Kc)))]

/-- utilities/mechanisms/gri30/lib/src/rxn_rates.c:1714-1725 -/
def rate143 : List CStmt := [
  .set (.var .kf) (.num 28000000000 0),
  .set (.arr .fwd 143) (.mul (.mul (.rd (.arr .C 11)) (.rd (.arr .C 3))) (.rd (.var .kf))),
  .ite (.rd (.var .T)) (.num 1000 0) (.var .Kc) (.sub (.add (.add (.neg (.num 2021244224000001 15)) (.mul (.num 10904884300000002 16) (.rd (.var .logT)))) (.mul (.rd (.var .T)) (.add (.num 11758385753526663 19) (.mul (.rd (.var .T)) (.add (.neg (.num 20742519119993197 22)) (.mul (.rd (.var .T)) (.add (.num 11162772880250682 25) (.mul (.neg (.num 23635927699638663 29)) (.rd (.var .T)))))))))) (.div (.neg (.num 34688218280000001 12)) (.rd (.var .T)))) (.sub (.add (.add (.neg (.num 49645291040000004 16)) (.mul (.num 17334970299999997 16) (.rd (.var .logT)))) (.mul (.rd (.var .T)) (.add (.neg (.num 17640083935421486 19)) (.mul (.rd (.var .T)) (.add (.num 31626093535936575 23) (.mul (.rd (.var .T)) (.add (.neg (.num 40439142277929365 27)) (.mul (.num 23509941199098679 31) (.rd (.var .T)))))))))) (.div (.neg (.num 34657097480000004 12)) (.rd (.var .T)))),
  .set (.var .Kc) (.mul (.num 12186597134166982 15) (.exp (.rd (.var .Kc)))),
  .set (.arr .rev 142) (.div (.mul (.mul (.mul (.rd (.arr .C 1)) (.rd (.arr .C 14))) (.rd (.arr .C 4))) (.rd (.var .kf))) (.rd (.var .Kc)))]

/-- utilities/mechanisms/gri30/lib/src/rxn_rates.c:1726-1737 -/
def rate144 : List CStmt := [
  .set (.var .kf) (.num 12000000000 0),
  .set (.arr .fwd 144) (.mul (.mul (.rd (.arr .C 11)) (.rd (.arr .C 3))) (.rd (.var .kf))),
  .ite (.rd (.var .T)) (.num 1000 0) (.var .Kc) (.sub (.add (.add (.neg (.num 2629325100000024 17)) (.mul (.neg (.num 202886439999999 15)) (.rd (.var .logT)))) (.mul (.rd (.var .T)) (.add (.num 13582802849999998 19) (.mul (.rd (.var .T)) (.add (.neg (.num 1757174628333333 21)) (.mul (.rd (.var .T)) (.add (.num 98237418033333331 26) (.mul (.neg (.num 21596610345 23)) (.rd (.var .T)))))))))) (.div (.neg (.num 94070685439999987 12)) (.rd (.var .T)))) (.sub (.add (.add (.neg (.num 1468877 6)) (.mul (.num 17460184000000023 17) (.rd (.var .logT)))) (.mul (.rd (.var .T)) (.add (.neg (.num 94976421999999974 20)) (.mul (.rd (.var .T)) (.add (.num 26783130833333326 23) (.mul (.rd (.var .T)) (.add (.neg (.num 41197127833333337 27)) (.mul (.num 26049371749999998 31) (.rd (.var .T)))))))))) (.div (.neg (.num 93993711479999998 12)) (.rd (.var .T)))),
  .set (.var .Kc) (.mul (.num 1 0) (.exp (.rd (.var .Kc)))),
  .set (.arr .rev 143) (.div (.mul (.mul (.rd (.arr .C 5)) (.rd (.arr .C 14))) (.rd (.var .kf))) (.rd (.var .Kc)))]

/-- utilities/mechanisms/gri30/lib/src/rxn_rates.c:1738-1749 -/
def rate145 : List CStmt := [
  .set (.var .kf) (.num 70000000000 0),
  .set (.arr .fwd 145) (.mul (.mul (.rd (.arr .C 0)) (.rd (.arr .C 11))) (.rd (.var .kf))),
  .ite (.rd (.var .T)) (.num 1000 0) (.var .Kc) (.sub (.add (.add (.num 16133350359999996 16) (.mul (.neg (.num 36934482999999974 17)) (.rd (.var .logT)))) (.mul (.rd (.var .T)) (.add (.neg (.num 18014774046473329 19)) (.mul (.rd (.var .T)) (.add (.num 28292345596673472 22) (.mul (.rd (.var .T)) (.add (.neg (.num 16950186531415987 25)) (.mul (.num 39884137895361342 29) (.rd (.var .T)))))))))) (.div (.neg (.num 76602224270000006 13)) (.rd (.var .T)))) (.sub (.add (.add (.num 34555103860000012 16) (.mul (.neg (.num 84359988999999969 17)) (.rd (.var .logT)))) (.mul (.rd (.var .T)) (.add (.num 13167082250078511 19) (.mul (.rd (.var .T)) (.add (.neg (.num 24578012864063421 23)) (.mul (.rd (.var .T)) (.add (.num 29778752772070631 27) (.mul (.neg (.num 16384670000901324 31)) (.rd (.var .T)))))))))) (.div (.neg (.num 7726596577999997 12)) (.rd (.var .T)))),
  .set (.var .Kc) (.mul (.num 1 0) (.exp (.rd (.var .Kc)))),
  .set (.arr .rev 144) (.div (.mul (.mul (.rd (.arr .C 1)) (.rd (.arr .C 12))) (.rd (.var .kf))) (.rd (.var .Kc)))]

/-- utilities/mechanisms/gri30/lib/src/rxn_rates.c:1750-1761 -/
def rate146 : List CStmt := [
  .set (.var .kf) (.exp (.sub (.sub (.num 33808965229979151 15) (.mul (.num 116 2) (.rd (.var .logT)))) (.div (.num 57618640176374117 14) (.rd (.var .T))))),
  .set (.arr .fwd 146) (.mul (.mul (.rd (.arr .C 11)) (.rd (.arr .C 5))) (.rd (.var .kf))),
  .ite (.rd (.var .T)) (.num 1000 0) (.var .Kc) (.sub (.add (.add (.num 27959017949999989 16) (.mul (.neg (.num 16818488499999997 16)) (.rd (.var .logT)))) (.mul (.rd (.var .T)) (.add (.neg (.num 54139323050000007 19)) (.mul (.rd (.var .T)) (.add (.num 8415125198333334 21) (.mul (.rd (.var .T)) (.add (.neg (.num 4908713205833333 24)) (.mul (.num 11210072129999999 28) (.rd (.var .T)))))))))) (.div (.neg (.num 45845855199999991 12)) (.rd (.var .T)))) (.sub (.add (.add (.num 44454135099999998 16) (.mul (.neg (.num 25363230000000003 16)) (.rd (.var .logT)))) (.mul (.rd (.var .T)) (.add (.num 36305123950000004 19) (.mul (.rd (.var .T)) (.add (.neg (.num 69816939366666658 23)) (.mul (.rd (.var .T)) (.add (.num 88403903083333326 27) (.mul (.neg (.num 4995434135 24)) (.rd (.var .T)))))))))) (.div (.neg (.num 46296577300000004 12)) (.rd (.var .T)))),
  .set (.var .Kc) (.mul (.num 82057360967184814 18) (.exp (.rd (.var .Kc)))),
  .set (.arr .rev 145) (.div (.mul (.rd (.arr .C 20)) (.rd (.var .kf))) (.rd (.var .Kc)))]

/-- utilities/mechanisms/gri30/lib/src/rxn_rates.c:1762-1773 -/
def rate147 : List CStmt := [
  .set (.var .kf) (.num 30000000000 0),
  .set (.arr .fwd 147) (.mul (.mul (.rd (.arr .C 11)) (.rd (.arr .C 5))) (.rd (.var .kf))),
  .ite (.rd (.var .T)) (.num 1000 0) (.var .Kc) (.sub (.add (.add (.num 27675762569999995 16) (.mul (.neg (.num 43592543999999966 17)) (.rd (.var .logT)))) (.mul (.rd (.var .T)) (.add (.num 16677431665000002 19) (.mul (.rd (.var .T)) (.add (.neg (.num 90634396499999983 23)) (.mul (.rd (.var .T)) (.add (.num 23643735666666669 26) (.mul (.neg (.num 12786509000000005 30)) (.rd (.var .T)))))))))) (.div (.neg (.num 44927762000000002 13)) (.rd (.var .T)))) (.sub (.add (.add (.neg (.num 30373711599999997 16)) (.mul (.num 58206271000000021 17) (.rd (.var .logT)))) (.mul (.rd (.var .T)) (.add (.neg (.num 49974672500000005 20)) (.mul (.rd (.var .T)) (.add (.num 10049558333333332 23) (.mul (.rd (.var .T)) (.add (.neg (.num 13143870916666673 27)) (.mul (.num 75994398999999995 32) (.rd (.var .T)))))))))) (.div (.neg (.num 46623957000000009 13)) (.rd (.var .T)))),
  .set (.var .Kc) (.mul (.num 1 0) (.exp (.rd (.var .Kc)))),
  .set (.arr .rev 146) (.div (.mul (.mul (.rd (.arr .C 10)) (.rd (.arr .C 5))) (.rd (.var .kf))) (.rd (.var .Kc)))]

/-- utilities/mechanisms/gri30/lib/src/rxn_rates.c:1774-1785 -/
def rate148 : List CStmt := [
  .set (.var .kf) (.exp (.sub (.num 23208172486734412 15) (.div (.neg (.num 28683515196972269 14)) (.rd (.var .T))))),
  .set (.arr .fwd 148) (.mul (.mul (.rd (.arr .C 11)) (.rd (.arr .C 12))) (.rd (.var .kf))),
  .ite (.rd (.var .T)) (.num 1000 0) (.var .Kc) (.sub (.add (.add (.num 42281957739999996 16) (.mul (.neg (.num 141299303 8)) (.rd (.var .logT)))) (.mul (.rd (.var .T)) (.add (.neg (.num 36074300146473337 19)) (.mul (.rd (.var .T)) (.add (.num 71893080730006792 22) (.mul (.rd (.var .T)) (.add (.neg (.num 46332951031415987 25)) (.mul (.num 11250716294536134 28) (.rd (.var .T)))))))))) (.div (.neg (.num 36378379270000005 12)) (.rd (.var .T)))) (.sub (.add (.add (.neg (.num 72062421239999983 16)) (.mul (.neg (.num 41644970000000114 18)) (.rd (.var .logT)))) (.mul (.rd (.var .T)) (.add (.num 13748141684578521 19) (.mul (.rd (.var .T)) (.add (.neg (.num 28528603064063429 23)) (.mul (.rd (.var .T)) (.add (.num 38219881772070655 27) (.mul (.neg (.num 22509492300901323 31)) (.rd (.var .T)))))))))) (.div (.neg (.num 37288037960000001 12)) (.rd (.var .T)))),
  .set (.var .Kc) (.mul (.num 1 0) (.exp (.rd (.var .Kc)))),
  .set (.arr .rev 147) (.div (.mul (.mul (.rd (.arr .C 1)) (.rd (.arr .C 24))) (.rd (.var .kf))) (.rd (.var .Kc)))]

/-- utilities/mechanisms/gri30/lib/src/rxn_rates.c:1786-1797 -/
def rate149 : List CStmt := [
  .set (.var .kf) (.exp (.sub (.num 23495854559186192 15) (.div (.neg (.num 28683515196972269 14)) (.rd (.var .T))))),
  .set (.arr .fwd 149) (.mul (.mul (.rd (.arr .C 11)) (.rd (.arr .C 13))) (.rd (.var .kf))),
  .ite (.rd (.var .T)) (.num 1000 0) (.var .Kc) (.sub (.add (.add (.num 10620850826999998 15) (.mul (.neg (.num 20012994399999995 16)) (.rd (.var .logT)))) (.mul (.rd (.var .T)) (.add (.num 10029748245000001 18) (.mul (.rd (.var .T)) (.add (.neg (.num 76587641633333328 22)) (.mul (.rd (.var .T)) (.add (.num 34516761591666673 25) (.mul (.neg (.num 6762414145 22)) (.rd (.var .T)))))))))) (.div (.neg (.num 73601710999999959 13)) (.rd (.var .T)))) (.sub (.add (.add (.neg (.num 12308221634999999 15)) (.mul (.num 22045455250000003 16) (.rd (.var .logT)))) (.mul (.rd (.var .T)) (.add (.neg (.num 17835161650000004 19)) (.mul (.rd (.var .T)) (.add (.num 29508176666666667 23) (.mul (.rd (.var .T)) (.add (.neg (.num 37455171833333327 27)) (.mul (.num 21177993849999999 31) (.rd (.var .T)))))))))) (.div (.neg (.num 79064865100000025 13)) (.rd (.var .T)))),
  .set (.var .Kc) (.mul (.num 1 0) (.exp (.rd (.var .Kc)))),
  .set (.arr .rev 148) (.div (.mul (.mul (.rd (.arr .C 12)) (.rd (.arr .C 12))) (.rd (.var .kf))) (.rd (.var .Kc)))]

/-- utilities/mechanisms/gri30/lib/src/rxn_rates.c:1798-1809 -/
def rate150 : List CStmt := [
  .set (.var .kf) (.num 9000000000 0),
  .set (.arr .fwd 150) (.mul (.mul (.rd (.arr .C 11)) (.rd (.arr .C 14))) (.rd (.var .kf))),
  .ite (.rd (.var .T)) (.num 1000 0) (.var .Kc) (.sub (.add (.add (.num 27675762569999995 16) (.mul (.neg (.num 43592543999999966 17)) (.rd (.var .logT)))) (.mul (.rd (.var .T)) (.add (.num 16677431665000002 19) (.mul (.rd (.var .T)) (.add (.neg (.num 90634396499999983 23)) (.mul (.rd (.var .T)) (.add (.num 23643735666666669 26) (.mul (.neg (.num 12786509000000005 30)) (.rd (.var .T)))))))))) (.div (.neg (.num 44927762000000002 13)) (.rd (.var .T)))) (.sub (.add (.add (.neg (.num 30373711599999997 16)) (.mul (.num 58206271000000021 17) (.rd (.var .logT)))) (.mul (.rd (.var .T)) (.add (.neg (.num 49974672500000005 20)) (.mul (.rd (.var .T)) (.add (.num 10049558333333332 23) (.mul (.rd (.var .T)) (.add (.neg (.num 13143870916666673 27)) (.mul (.num 75994398999999995 32) (.rd (.var .T)))))))))) (.div (.neg (.num 46623957000000009 13)) (.rd (.var .T)))),
  .set (.var .Kc) (.mul (.num 1 0) (.exp (.rd (.var .Kc)))),
  .set (.arr .rev 149) (.div (.mul (.mul (.rd (.arr .C 10)) (.rd (.arr .C 14))) (.rd (.var .kf))) (.rd (.var .Kc)))]

/-- utilities/mechanisms/gri30/lib/src/rxn_rates.c:1810-1821 -/
def rate151 : List CStmt := [
  .set (.var .kf) (.num 7000000000 0),
  .set (.arr .fwd 151) (.mul (.mul (.rd (.arr .C 11)) (.rd (.arr .C 15))) (.rd (.var .kf))),
  .ite (.rd (.var .T)) (.num 1000 0) (.var .Kc) (.sub (.add (.add (.num 27675762569999995 16) (.mul (.neg (.num 43592543999999966 17)) (.rd (.var .logT)))) (.mul (.rd (.var .T)) (.add (.num 16677431665000002 19) (.mul (.rd (.var .T)) (.add (.neg (.num 90634396499999983 23)) (.mul (.rd (.var .T)) (.add (.num 23643735666666669 26) (.mul (.neg (.num 12786509000000005 30)) (.rd (.var .T)))))))))) (.div (.neg (.num 44927762000000002 13)) (.rd (.var .T)))) (.sub (.add (.add (.neg (.num 30373711599999997 16)) (.mul (.num 58206271000000021 17) (.rd (.var .logT)))) (.mul (.rd (.var .T)) (.add (.neg (.num 49974672500000005 20)) (.mul (.rd (.var .T)) (.add (.num 10049558333333332 23) (.mul (.rd (.var .T)) (.add (.neg (.num 13143870916666673 27)) (.mul (.num 75994398999999995 32) (.rd (.var .T)))))))))) (.div (.neg (.num 46623957000000009 13)) (.rd (.var .T)))),
  .set (.var .Kc) (.mul (.num 1 0) (.exp (.rd (.var .Kc)))),
  .set (.arr .rev 150) (.div (.mul (.mul (.rd (.arr .C 10)) (.rd (.arr .C 15))) (.rd (.var .kf))) (.rd (.var .Kc)))]

/-- utilities/mechanisms/gri30/lib/src/rxn_rates.c:1822-1833 -/
def rate152 : List CStmt := [
  .set (.var .kf) (.num 14000000000 0),
  .set (.arr .fwd 152) (.mul (.mul (.rd (.arr .C 11)) (.rd (.arr .C 15))) (.rd (.var .kf))),
  .ite (.rd (.var .T)) (.num 1000 0) (.var .Kc) (.sub (.add (.add (.neg (.num 68385900630000007 16)) (.mul (.num 18178789899999996 16) (.rd (.var .logT)))) (.mul (.rd (.var .T)) (.add (.neg (.num 85683349750000012 19)) (.mul (.rd (.var .T)) (.add (.num 62049026033333328 22) (.mul (.rd (.var .T)) (.add (.neg (.num 27327125521666666 25)) (.mul (.num 52366964395000012 29) (.rd (.var .T)))))))))) (.div (.neg (.num 30777889299999995 12)) (.rd (.var .T)))) (.sub (.add (.add (.num 12250493990000001 15) (.mul (.neg (.num 16736230200000004 16)) (.rd (.var .logT)))) (.mul (.rd (.var .T)) (.add (.num 10961358100000005 19) (.mul (.rd (.var .T)) (.add (.neg (.num 19911339850000003 23)) (.mul (.rd (.var .T)) (.add (.num 24589078333333327 27) (.mul (.neg (.num 13785141350000008 31)) (.rd (.var .T)))))))))) (.div (.neg (.num 30314538400000005 12)) (.rd (.var .T)))),
  .set (.var .Kc) (.mul (.num 1 0) (.exp (.rd (.var .Kc)))),
  .set (.arr .rev 151) (.div (.mul (.mul (.rd (.arr .C 17)) (.rd (.arr .C 14))) (.rd (.var .kf))) (.rd (.var .Kc)))]

/-- utilities/mechanisms/gri30/lib/src/rxn_rates.c:1834-1845 -/
def rate153 : List CStmt := [
  .set (.var .kf) (.exp (.sub (.num 24412145291060348 15) (.div (.neg (.num 27677076067253944 14)) (.rd (.var .T))))),
  .set (.arr .fwd 153) (.mul (.mul (.rd (.arr .C 26)) (.rd (.arr .C 11))) (.rd (.var .kf))),
  .ite (.rd (.var .T)) (.num 1000 0) (.var .Kc) (.sub (.add (.add (.num 49240423270000004 16) (.mul (.neg (.num 50997294999999987 17)) (.rd (.var .logT)))) (.mul (.rd (.var .T)) (.add (.num 28462598599999995 19) (.mul (.rd (.var .T)) (.add (.neg (.num 21220486233333329 22)) (.mul (.rd (.var .T)) (.add (.num 89591278833333444 26) (.mul (.neg (.num 1608483364999999 28)) (.rd (.var .T)))))))))) (.div (.neg (.num 96879855000000025 13)) (.rd (.var .T)))) (.sub (.add (.add (.neg (.num 26760605200000009 16)) (.mul (.num 87645422000000028 17) (.rd (.var .logT)))) (.mul (.rd (.var .T)) (.add (.neg (.num 85199074999999956 20)) (.mul (.rd (.var .T)) (.add (.num 17805266833333333 23) (.mul (.rd (.var .T)) (.add (.neg (.num 23680373000000011 27)) (.mul (.num 13808755549999999 31) (.rd (.var .T)))))))))) (.div (.neg (.num 98665022000000026 13)) (.rd (.var .T)))),
  .set (.var .Kc) (.mul (.num 1 0) (.exp (.rd (.var .Kc)))),
  .set (.arr .rev 152) (.div (.mul (.mul (.rd (.arr .C 25)) (.rd (.arr .C 12))) (.rd (.var .kf))) (.rd (.var .Kc)))]

/-- utilities/mechanisms/gri30/lib/src/rxn_rates.c:1846-1857 -/
def rate154 : List CStmt := [
  .set (.var .kf) (.exp (.sub (.num 24295611474804396 15) (.div (.num 15338132336907278 12) (.rd (.var .T))))),
  .set (.arr .fwd 154) (.mul (.mul (.rd (.arr .C 12)) (.rd (.arr .C 3))) (.rd (.var .kf))),
  .ite (.rd (.var .T)) (.num 1000 0) (.var .Kc) (.sub (.add (.add (.num 12123446059999999 15) (.mul (.neg (.num 218157566 8)) (.rd (.var .logT)))) (.mul (.rd (.var .T)) (.add (.num 24615292849999998 19) (.mul (.rd (.var .T)) (.add (.neg (.num 59933076833333345 23)) (.mul (.rd (.var .T)) (.add (.num 25389725833333334 26) (.mul (.neg (.num 79965800000000011 30)) (.rd (.var .T)))))))))) (.div (.num 14719805059999999 12) (.rd (.var .T)))) (.sub (.add (.add (.neg (.num 69913536600000006 16)) (.mul (.num 77196422000000009 17) (.rd (.var .logT)))) (.mul (.rd (.var .T)) (.add (.neg (.num 46873251184999991 20)) (.mul (.rd (.var .T)) (.add (.num 1884457679833333 22) (.mul (.rd (.var .T)) (.add (.neg (.num 35060823241666667 27)) (.mul (.num 24244697855000003 31) (.rd (.var .T)))))))))) (.div (.num 13658285040000001 12) (.rd (.var .T)))),
  .set (.var .Kc) (.mul (.num 1 0) (.exp (.rd (.var .Kc)))),
  .set (.arr .rev 153) (.div (.mul (.mul (.rd (.arr .C 19)) (.rd (.arr .C 2))) (.rd (.var .kf))) (.rd (.var .Kc)))]

/-- utilities/mechanisms/gri30/lib/src/rxn_rates.c:1858-1869 -/
def rate155 : List CStmt := [
  .set (.var .kf) (.exp (.sub (.num 21560513361480112 15) (.div (.num 10222905460113889 12) (.rd (.var .T))))),
  .set (.arr .fwd 155) (.mul (.mul (.rd (.arr .C 12)) (.rd (.arr .C 3))) (.rd (.var .kf))),
  .ite (.rd (.var .T)) (.num 1000 0) (.var .Kc) (.sub (.add (.add (.neg (.num 60930444379999997 16)) (.mul (.num 13296918200000003 16) (.rd (.var .logT)))) (.mul (.rd (.var .T)) (.add (.neg (.num 56619343999999997 19)) (.mul (.rd (.var .T)) (.add (.num 439373644 14) (.mul (.rd (.var .T)) (.add (.neg (.num 21047658408333332 25)) (.mul (.num 43768970950000006 29) (.rd (.var .T)))))))))) (.div (.neg (.num 26074931380000002 12)) (.rd (.var .T)))) (.sub (.add (.add (.num 49143938300000007 16) (.mul (.neg (.num 71467780999999952 17)) (.rd (.var .logT)))) (.mul (.rd (.var .T)) (.add (.num 51272131300000021 20) (.mul (.rd (.var .T)) (.add (.neg (.num 91828792166666631 24)) (.mul (.rd (.var .T)) (.add (.num 94425637833333304 28) (.mul (.neg (.num 41285538000000041 32)) (.rd (.var .T)))))))))) (.div (.neg (.num 25824301879999999 12)) (.rd (.var .T)))),
  .set (.var .Kc) (.mul (.num 1 0) (.exp (.rd (.var .Kc)))),
  .set (.arr .rev 154) (.div (.mul (.mul (.rd (.arr .C 17)) (.rd (.arr .C 4))) (.rd (.var .kf))) (.rd (.var .Kc)))]

/-- utilities/mechanisms/gri30/lib/src/rxn_rates.c:1870-1881 -/
def rate156 : List CStmt := [
  .set (.var .kf) (.exp (.sub (.add (.num 31986731175506815 16) (.mul (.num 247 2) (.rd (.var .logT)))) (.div (.num 26066773459704623 13) (.rd (.var .T))))),
  .set (.arr .fwd 156) (.mul (.mul (.rd (.arr .C 12)) (.rd (.arr .C 7))) (.rd (.var .kf))),
  .ite (.rd (.var .T)) (.num 1000 0) (.var .Kc) (.sub (.add (.add (.neg (.num 74662274299999982 16)) (.mul (.num 15019710499999999 16) (.rd (.var .logT)))) (.mul (.rd (.var .T)) (.add (.neg (.num 99441143215000007 19)) (.mul (.rd (.var .T)) (.add (.num 79790933899999987 22) (.mul (.rd (.var .T)) (.add (.neg (.num 36918697041666675 25)) (.mul (.num 73966229350000002 29) (.rd (.var .T)))))))))) (.div (.neg (.num 86942562600000019 13)) (.rd (.var .T)))) (.sub (.add (.add (.num 13184849914999999 15) (.mul (.neg (.num 23586581749999995 16)) (.rd (.var .logT)))) (.mul (.rd (.var .T)) (.add (.num 17412747600000001 19) (.mul (.rd (.var .T)) (.add (.neg (.num 24633008499999989 23)) (.mul (.rd (.var .T)) (.add (.num 30858424166666656 27) (.mul (.neg (.num 18549906799999997 31)) (.rd (.var .T)))))))))) (.div (.neg (.num 82702844770000011 13)) (.rd (.var .T)))),
  .set (.var .Kc) (.mul (.num 1 0) (.exp (.rd (.var .Kc)))),
  .set (.arr .rev 155) (.div (.mul (.mul (.rd (.arr .C 13)) (.rd (.arr .C 6))) (.rd (.var .kf))) (.rd (.var .Kc)))]

/-- utilities/mechanisms/gri30/lib/src/rxn_rates.c:1882-1893 -/
def rate157 : List CStmt := [
  .set (.var .kf) (.exp (.sub (.sub (.num 31846107295846778 15) (.mul (.num 118 2) (.rd (.var .logT)))) (.div (.num 32910559541789235 14) (.rd (.var .T))))),
  .set (.arr .fwd 157) (.mul (.mul (.rd (.arr .C 12)) (.rd (.arr .C 12))) (.rd (.var .kf))),
  .ite (.rd (.var .T)) (.num 1000 0) (.var .Kc) (.sub (.add (.add (.num 25134503800000001 16) (.mul (.neg (.num 20557558800000004 16)) (.rd (.var .logT)))) (.mul (.rd (.var .T)) (.add (.neg (.num 47617231000000003 19)) (.mul (.rd (.var .T)) (.add (.num 80805652800000013 22) (.mul (.rd (.var .T)) (.add (.neg (.num 47586900000000002 25)) (.mul (.num 10890431210000001 28) (.rd (.var .T)))))))))) (.div (.neg (.num 44412203099999999 12)) (.rd (.var .T)))) (.sub (.add (.add (.num 16550210599999993 16) (.mul (.neg (.num 24995539400000002 16)) (.rd (.var .logT)))) (.mul (.rd (.var .T)) (.add (.num 36027334800000001 19) (.mul (.rd (.var .T)) (.add (.neg (.num 67521995666666668 23)) (.mul (.rd (.var .T)) (.add (.num 85229226833333329 27) (.mul (.neg (.num 48286005599999995 31)) (.rd (.var .T)))))))))) (.div (.neg (.num 44977561799999996 12)) (.rd (.var .T)))),
  .set (.var .Kc) (.mul (.num 82057360967184814 18) (.exp (.rd (.var .Kc)))),
  .set (.arr .rev 156) (.div (.mul (.rd (.arr .C 26)) (.rd (.var .kf))) (.rd (.var .Kc)))]

/-- utilities/mechanisms/gri30/lib/src/rxn_rates.c:1894-1905 -/
def rate158 : List CStmt := [
  .set (.var .kf) (.exp (.sub (.add (.num 22646053568580871 15) (.mul (.num 1 1) (.rd (.var .logT)))) (.div (.num 53341273875071238 13) (.rd (.var .T))))),
  .set (.arr .fwd 158) (.mul (.mul (.rd (.arr .C 12)) (.rd (.arr .C 12))) (.rd (.var .kf))),
  .ite (.rd (.var .T)) (.num 1000 0) (.var .Kc) (.sub (.add (.add (.num 15921128470000006 16) (.mul (.neg (.num 54071512000000066 17)) (.rd (.var .logT)))) (.mul (.rd (.var .T)) (.add (.neg (.num 4104246209647334 18)) (.mul (.rd (.var .T)) (.add (.num 63756405963340138 22) (.mul (.rd (.var .T)) (.add (.neg (.num 38475260081415982 25)) (.mul (.num 89815928595361359 29) (.rd (.var .T)))))))))) (.div (.num 54252887999999948 13) (.rd (.var .T)))) (.sub (.add (.add (.neg (.num 38276131840000023 16)) (.mul (.neg (.num 11677901000000013 17)) (.rd (.var .logT)))) (.mul (.rd (.var .T)) (.add (.num 14587357184578514 19) (.mul (.rd (.var .T)) (.add (.neg (.num 33462995064063426 23)) (.mul (.rd (.var .T)) (.add (.num 46733966438737313 27) (.mul (.neg (.num 28105348350901323 31)) (.rd (.var .T)))))))))) (.div (.num 47800113000000056 13) (.rd (.var .T)))),
  .set (.var .Kc) (.mul (.num 1 0) (.exp (.rd (.var .Kc)))),
  .set (.arr .rev 157) (.div (.mul (.mul (.rd (.arr .C 1)) (.rd (.arr .C 25))) (.rd (.var .kf))) (.rd (.var .Kc)))]

/-- utilities/mechanisms/gri30/lib/src/rxn_rates.c:1906-1917 -/
def rate159 : List CStmt := [
  .set (.var .kf) (.num 26480000000 0),
  .set (.arr .fwd 159) (.mul (.mul (.rd (.arr .C 12)) (.rd (.arr .C 16))) (.rd (.var .kf))),
  .ite (.rd (.var .T)) (.num 1000 0) (.var .Kc) (.sub (.add (.add (.neg (.num 69664645999999983 16)) (.mul (.num 83463335999999977 17) (.rd (.var .logT)))) (.mul (.rd (.var .T)) (.add (.neg (.num 6524179455000001 18)) (.mul (.rd (.var .T)) (.add (.num 51144518450000005 22) (.mul (.rd (.var .T)) (.add (.neg (.num 22818094305000002 25)) (.mul (.num 44417125555000006 29) (.rd (.var .T)))))))))) (.div (.neg (.num 44875297360000004 12)) (.rd (.var .T)))) (.sub (.add (.add (.num 10245444005000003 15) (.mul (.neg (.num 22678549950000004 16)) (.rd (.var .logT)))) (.mul (.rd (.var .T)) (.add (.num 16283092500000004 19) (.mul (.rd (.var .T)) (.add (.neg (.num 2100140418333332 22)) (.mul (.rd (.var .T)) (.add (.num 22344327999999988 27) (.mul (.neg (.num 11056845550000002 31)) (.rd (.var .T)))))))))) (.div (.neg (.num 44407719440000001 12)) (.rd (.var .T)))),
  .set (.var .Kc) (.mul (.num 1 0) (.exp (.rd (.var .Kc)))),
  .set (.arr .rev 158) (.div (.mul (.mul (.rd (.arr .C 13)) (.rd (.arr .C 14))) (.rd (.var .kf))) (.rd (.var .Kc)))]

/-- utilities/mechanisms/gri30/lib/src/rxn_rates.c:1918-1929 -/
def rate160 : List CStmt := [
  .set (.var .kf) (.exp (.sub (.add (.num 1199964782928397 15) (.mul (.num 281 2) (.rd (.var .logT)))) (.div (.num 29488666500746931 13) (.rd (.var .T))))),
  .set (.arr .fwd 160) (.mul (.mul (.rd (.arr .C 17)) (.rd (.arr .C 12))) (.rd (.var .kf))),
  .ite (.rd (.var .T)) (.num 1000 0) (.var .Kc) (.sub (.add (.add (.neg (.num 43580569799999989 16)) (.mul (.num 90374842000000033 17) (.rd (.var .logT)))) (.mul (.rd (.var .T)) (.add (.neg (.num 45087610900000005 19)) (.mul (.rd (.var .T)) (.add (.num 3317964190000001 21) (.mul (.rd (.var .T)) (.add (.neg (.num 14157509625000007 25)) (.mul (.num 26429808550000006 29) (.rd (.var .T)))))))))) (.div (.neg (.num 85431247400000011 13)) (.rd (.var .T)))) (.sub (.add (.add (.num 72986500549999986 16) (.mul (.neg (.num 1199381925 9)) (.rd (.var .logT)))) (.mul (.rd (.var .T)) (.add (.num 95400038499999975 20) (.mul (.rd (.var .T)) (.add (.neg (.num 13459710166666672 23)) (.mul (.rd (.var .T)) (.add (.num 17499196999999993 27) (.mul (.neg (.num 1003254884999999 30)) (.rd (.var .T)))))))))) (.div (.neg (.num 82361784399999997 13)) (.rd (.var .T)))),
  .set (.var .Kc) (.mul (.num 1 0) (.exp (.rd (.var .Kc)))),
  .set (.arr .rev 159) (.div (.mul (.mul (.rd (.arr .C 13)) (.rd (.arr .C 16))) (.rd (.var .kf))) (.rd (.var .Kc)))]

/-- utilities/mechanisms/gri30/lib/src/rxn_rates.c:1930-1941 -/
def rate161 : List CStmt := [
  .set (.var .kf) (.exp (.sub (.add (.num 10308952660644293 15) (.mul (.num 15 1) (.rd (.var .logT)))) (.div (.num 50020024747000762 13) (.rd (.var .T))))),
  .set (.arr .fwd 161) (.mul (.mul (.rd (.arr .C 20)) (.rd (.arr .C 12))) (.rd (.var .kf))),
  .ite (.rd (.var .T)) (.num 1000 0) (.var .Kc) (.sub (.add (.add (.num 11064734800000013 16) (.mul (.neg (.num 37522091000000035 17)) (.rd (.var .logT)))) (.mul (.rd (.var .T)) (.add (.num 25728526950000007 19) (.mul (.rd (.var .T)) (.add (.neg (.num 26435927083333335 22)) (.mul (.rd (.var .T)) (.add (.num 15853632791666665 25) (.mul (.neg (.num 38200293799999995 29)) (.rd (.var .T)))))))))) (.div (.neg (.num 42427944700000025 13)) (.rd (.var .T)))) (.sub (.add (.add (.num 15732245049999998 16) (.mul (.neg (.num 30790844500000003 17)) (.rd (.var .logT)))) (.mul (.rd (.var .T)) (.add (.num 35149254999999966 20) (.mul (.rd (.var .T)) (.add (.neg (.num 21952910000000029 24)) (.mul (.rd (.var .T)) (.add (.num 27303743333333296 28) (.mul (.neg (.num 1447495350000015 31)) (.rd (.var .T)))))))))) (.div (.neg (.num 41115604599999988 13)) (.rd (.var .T)))),
  .set (.var .Kc) (.mul (.num 1 0) (.exp (.rd (.var .Kc)))),
  .set (.arr .rev 160) (.div (.mul (.mul (.rd (.arr .C 18)) (.rd (.arr .C 13))) (.rd (.var .kf))) (.rd (.var .Kc)))]

/-- utilities/mechanisms/gri30/lib/src/rxn_rates.c:1942-1953 -/
def rate162 : List CStmt := [
  .set (.var .kf) (.exp (.sub (.add (.num 92103403719761836 16) (.mul (.num 15 1) (.rd (.var .logT)))) (.div (.num 50020024747000762 13) (.rd (.var .T))))),
  .set (.arr .fwd 162) (.mul (.mul (.rd (.arr .C 20)) (.rd (.arr .C 12))) (.rd (.var .kf))),
  .ite (.rd (.var .T)) (.num 1000 0) (.var .Kc) (.sub (.add (.add (.num 10543313230000003 15) (.mul (.neg (.num 21329060900000005 16)) (.rd (.var .logT)))) (.mul (.rd (.var .T)) (.add (.num 33827886749999998 19) (.mul (.rd (.var .T)) (.add (.neg (.num 27426336933333328 22)) (.mul (.rd (.var .T)) (.add (.num 18416603791666661 25) (.mul (.neg (.num 4967060769999998 28)) (.rd (.var .T)))))))))) (.div (.neg (.num 70279700000002777 15)) (.rd (.var .T)))) (.sub (.add (.add (.neg (.num 13857659549999992 16)) (.mul (.neg (.num 22977513500000035 17)) (.rd (.var .logT)))) (.mul (.rd (.var .T)) (.add (.neg (.num 35642934999999092 21)) (.mul (.rd (.var .T)) (.add (.num 16048495666666665 23) (.mul (.rd (.var .T)) (.add (.neg (.num 30002253666666662 27)) (.mul (.num 204171347 23) (.rd (.var .T)))))))))) (.div (.neg (.num 74122166999999899 14)) (.rd (.var .T)))),
  .set (.var .Kc) (.mul (.num 1 0) (.exp (.rd (.var .Kc)))),
  .set (.arr .rev 161) (.div (.mul (.mul (.rd (.arr .C 19)) (.rd (.arr .C 13))) (.rd (.var .kf))) (.rd (.var .Kc)))]

/-- utilities/mechanisms/gri30/lib/src/rxn_rates.c:1954-1965 -/
def rate163 : List CStmt := [
  .set (.var .kf) (.exp (.sub (.add (.num 54249500174814029 16) (.mul (.num 2 0) (.rd (.var .logT)))) (.div (.num 46296199967042967 13) (.rd (.var .T))))),
  .set (.arr .fwd 163) (.mul (.mul (.rd (.arr .C 12)) (.rd (.arr .C 24))) (.rd (.var .kf))),
  .ite (.rd (.var .T)) (.num 1000 0) (.var .Kc) (.sub (.add (.add (.neg (.num 25622094999999985 16)) (.mul (.num 72955069999999989 17) (.rd (.var .logT)))) (.mul (.rd (.var .T)) (.add (.neg (.num 32983082299999997 19)) (.mul (.rd (.var .T)) (.add (.num 20452922233333337 22) (.mul (.rd (.var .T)) (.add (.neg (.num 6841698125000011 25)) (.mul (.num 92609412999999793 30) (.rd (.var .T)))))))))) (.div (.num 30784244699999981 13) (.rd (.var .T)))) (.sub (.add (.add (.num 86694540750000009 16) (.mul (.neg (.num 12302533850000001 16)) (.rd (.var .logT)))) (.mul (.rd (.var .T)) (.add (.num 91793021500000127 20) (.mul (.rd (.var .T)) (.add (.neg (.num 11929315833333311 23)) (.mul (.rd (.var .T)) (.add (.num 14387029666666653 27) (.mul (.neg (.num 78272168499999992 32)) (.rd (.var .T)))))))))) (.div (.num 34290588699999998 13) (.rd (.var .T)))),
  .set (.var .Kc) (.mul (.num 1 0) (.exp (.rd (.var .Kc)))),
  .set (.arr .rev 162) (.div (.mul (.mul (.rd (.arr .C 23)) (.rd (.arr .C 13))) (.rd (.var .kf))) (.rd (.var .Kc)))]

/-- utilities/mechanisms/gri30/lib/src/rxn_rates.c:1966-1977 -/
def rate164 : List CStmt := [
  .set (.var .kf) (.exp (.sub (.add (.num 8722580021141189 15) (.mul (.num 174 2) (.rd (.var .logT)))) (.div (.num 52586444527782496 13) (.rd (.var .T))))),
  .set (.arr .fwd 164) (.mul (.mul (.rd (.arr .C 26)) (.rd (.arr .C 12))) (.rd (.var .kf))),
  .ite (.rd (.var .T)) (.num 1000 0) (.var .Kc) (.sub (.add (.add (.neg (.num 56968084999999977 16)) (.mul (.num 14913264899999996 16) (.rd (.var .logT)))) (.mul (.rd (.var .T)) (.add (.neg (.num 71834883850000007 19)) (.mul (.rd (.var .T)) (.add (.num 55367155399999999 22) (.mul (.rd (.var .T)) (.add (.neg (.num 25557633708333321 25)) (.mul (.num 51539307800000025 29) (.rd (.var .T)))))))))) (.div (.neg (.num 23278144000000011 13)) (.rd (.var .T)))) (.sub (.add (.add (.num 96321611149999988 16) (.mul (.neg (.num 13280913050000001 16)) (.rd (.var .logT)))) (.mul (.rd (.var .T)) (.add (.num 9315254150000004 19) (.mul (.rd (.var .T)) (.add (.neg (.num 11702909833333329 23)) (.mul (.rd (.var .T)) (.add (.num 13774798833333342 27) (.mul (.neg (.num 73692383000000025 32)) (.rd (.var .T)))))))))) (.div (.neg (.num 19600156899999984 13)) (.rd (.var .T)))),
  .set (.var .Kc) (.mul (.num 1 0) (.exp (.rd (.var .Kc)))),
  .set (.arr .rev 163) (.div (.mul (.mul (.rd (.arr .C 25)) (.rd (.arr .C 13))) (.rd (.var .kf))) (.rd (.var .Kc)))]

/-- utilities/mechanisms/gri30/lib/src/rxn_rates.c:1978-1989 -/
def rate165 : List CStmt := [
  .set (.var .kf) (.exp (.sub (.sub (.num 34944241503018851 15) (.mul (.num 1 0) (.rd (.var .logT)))) (.div (.num 85547326026057654 13) (.rd (.var .T))))),
  .set (.arr .fwd 165) (.mul (.mul (.rd (.arr .C 5)) (.rd (.arr .C 16))) (.rd (.var .kf))),
  .ite (.rd (.var .T)) (.num 1000 0) (.var .Kc) (.sub (.add (.add (.neg (.num 21909936329999997 16)) (.mul (.num 85834762999999903 17) (.rd (.var .logT)))) (.mul (.rd (.var .T)) (.add (.num 13167858203526664 19) (.mul (.rd (.var .T)) (.add (.neg (.num 21271883786659866 22)) (.mul (.rd (.var .T)) (.add (.num 11851179321917348 25) (.mul (.neg (.num 2621056574963866 28)) (.rd (.var .T)))))))))) (.div (.num 72900089399999997 13) (.rd (.var .T)))) (.sub (.add (.add (.neg (.num 4869351354 9)) (.mul (.num 14430112399999997 16) (.rd (.var .logT)))) (.mul (.rd (.var .T)) (.add (.neg (.num 14472139265421485 19)) (.mul (.rd (.var .T)) (.add (.num 24760506252603246 23) (.mul (.rd (.var .T)) (.add (.neg (.num 29925731227929364 27)) (.mul (.num 1649304999909868 30) (.rd (.var .T)))))))))) (.div (.num 7309869349999999 12) (.rd (.var .T)))),
  .set (.var .Kc) (.mul (.num 12186597134166982 15) (.exp (.rd (.var .Kc)))),
  .set (.arr .rev 164) (.div (.mul (.mul (.mul (.rd (.arr .C 1)) (.rd (.arr .C 5))) (.rd (.arr .C 14))) (.rd (.var .kf))) (.rd (.var .Kc)))]

/-- utilities/mechanisms/gri30/lib/src/rxn_rates.c:1990-2001 -/
def rate166 : List CStmt := [
  .set (.var .kf) (.exp (.sub (.sub (.num 32862129732783131 15) (.mul (.num 1 0) (.rd (.var .logT)))) (.div (.num 85547326026057654 13) (.rd (.var .T))))),
  .set (.arr .fwd 166) (.mul (.rd (.arr .C 16)) (.rd (.var .kf))),
  .ite (.rd (.var .T)) (.num 1000 0) (.var .Kc) (.sub (.add (.add (.neg (.num 21909936329999997 16)) (.mul (.num 85834762999999903 17) (.rd (.var .logT)))) (.mul (.rd (.var .T)) (.add (.num 13167858203526664 19) (.mul (.rd (.var .T)) (.add (.neg (.num 21271883786659866 22)) (.mul (.rd (.var .T)) (.add (.num 11851179321917348 25) (.mul (.neg (.num 2621056574963866 28)) (.rd (.var .T)))))))))) (.div (.num 72900089399999997 13) (.rd (.var .T)))) (.sub (.add (.add (.neg (.num 4869351354 9)) (.mul (.num 14430112399999997 16) (.rd (.var .logT)))) (.mul (.rd (.var .T)) (.add (.neg (.num 14472139265421485 19)) (.mul (.rd (.var .T)) (.add (.num 24760506252603246 23) (.mul (.rd (.var .T)) (.add (.neg (.num 29925731227929364 27)) (.mul (.num 1649304999909868 30) (.rd (.var .T)))))))))) (.div (.num 7309869349999999 12) (.rd (.var .T)))),
  .set (.var .Kc) (.mul (.num 12186597134166982 15) (.exp (.rd (.var .Kc)))),
  .set (.arr .rev 165) (.div (.mul (.mul (.rd (.arr .C 1)) (.rd (.arr .C 14))) (.rd (.var .kf))) (.rd (.var .Kc)))]

/-- utilities/mechanisms/gri30/lib/src/rxn_rates.c:2002-2013 -/
def rate167 : List CStmt := [
  .set (.var .kf) (.exp (.sub (.num 2332224494299426 14) (.div (.num 20128782594366504 14) (.rd (.var .T))))),
  .set (.arr .fwd 167) (.mul (.mul (.rd (.arr .C 16)) (.rd (.arr .C 3))) (.rd (.var .kf))),
  .ite (.rd (.var .T)) (.num 1000 0) (.var .Kc) (.sub (.add (.add (.num 29533429000000044 17) (.mul (.neg (.num 12231072000000021 17)) (.rd (.var .logT)))) (.mul (.rd (.var .T)) (.add (.num 44059264500000009 20) (.mul (.rd (.var .T)) (.add (.neg (.num 24202386333333375 23)) (.mul (.rd (.var .T)) (.add (.neg (.num 31139927166666888 27)) (.mul (.num 40320486050000074 30) (.rd (.var .T)))))))))) (.div (.neg (.num 16824899359999999 12)) (.rd (.var .T)))) (.sub (.add (.add (.neg (.num 43254706299999999 16)) (.mul (.num 67768429000000019 17) (.rd (.var .logT)))) (.mul (.rd (.var .T)) (.add (.neg (.num 10688476199999996 19)) (.mul (.rd (.var .T)) (.add (.num 26832314633333334 23) (.mul (.rd (.var .T)) (.add (.neg (.num 37861079583333334 27)) (.mul (.num 21933512699999998 31) (.rd (.var .T)))))))))) (.div (.neg (.num 16963476117000002 12)) (.rd (.var .T)))),
  .set (.var .Kc) (.mul (.num 1 0) (.exp (.rd (.var .Kc)))),
  .set (.arr .rev 166) (.div (.mul (.mul (.rd (.arr .C 14)) (.rd (.arr .C 6))) (.rd (.var .kf))) (.rd (.var .Kc)))]

/-- utilities/mechanisms/gri30/lib/src/rxn_rates.c:2014-2025 -/
def rate168 : List CStmt := [
  .set (.var .kf) (.exp (.sub (.num 23613637594842576 15) (.div (.num 45289760837324638 14) (.rd (.var .T))))),
  .set (.arr .fwd 168) (.mul (.mul (.rd (.arr .C 18)) (.rd (.arr .C 3))) (.rd (.var .kf))),
  .ite (.rd (.var .T)) (.num 1000 0) (.var .Kc) (.sub (.add (.add (.neg (.num 62603984299999995 16)) (.mul (.num 14491756199999997 16) (.rd (.var .logT)))) (.mul (.rd (.var .T)) (.add (.neg (.num 86287215400000002 19)) (.mul (.rd (.var .T)) (.add (.num 71167116633333333 22) (.mul (.rd (.var .T)) (.add (.neg (.num 35058682675 19)) (.mul (.num 74280576450000006 29) (.rd (.var .T)))))))))) (.div (.neg (.num 97562914300000011 13)) (.rd (.var .T)))) (.sub (.add (.add (.num 73750642600000003 16) (.mul (.neg (.num 11973025499999999 16)) (.rd (.var .logT)))) (.mul (.rd (.var .T)) (.add (.num 65548271999999982 20) (.mul (.rd (.var .T)) (.add (.neg (.num 91211401833333308 24)) (.mul (.rd (.var .T)) (.add (.num 10329441583333321 27) (.mul (.neg (.num 63246090000000006 32)) (.rd (.var .T)))))))))) (.div (.neg (.num 95530115970000006 13)) (.rd (.var .T)))),
  .set (.var .Kc) (.mul (.num 1 0) (.exp (.rd (.var .Kc)))),
  .set (.arr .rev 167) (.div (.mul (.mul (.rd (.arr .C 17)) (.rd (.arr .C 6))) (.rd (.var .kf))) (.rd (.var .Kc)))]

/-- utilities/mechanisms/gri30/lib/src/rxn_rates.c:2026-2037 -/
def rate169 : List CStmt := [
  .set (.var .kf) (.exp (.sub (.add (.neg (.num 35387408478311023 15)) (.mul (.num 76 1) (.rd (.var .logT)))) (.div (.neg (.num 17763650639528441 13)) (.rd (.var .T))))),
  .set (.arr .fwd 169) (.mul (.mul (.rd (.arr .C 19)) (.rd (.arr .C 3))) (.rd (.var .kf))),
  .ite (.rd (.var .T)) (.num 1000 0) (.var .Kc) (.sub (.add (.add (.neg (.num 15697238179999999 15)) (.mul (.num 32068607999999998 16) (.rd (.var .logT)))) (.mul (.rd (.var .T)) (.add (.neg (.num 94386575199999993 19)) (.mul (.rd (.var .T)) (.add (.num 72157526483333326 22) (.mul (.rd (.var .T)) (.add (.neg (.num 37621653674999999 25)) (.mul (.num 85750890350000001 29) (.rd (.var .T)))))))))) (.div (.neg (.num 13928806200000001 12)) (.rd (.var .T)))) (.sub (.add (.add (.num 10334054720000001 15) (.mul (.neg (.num 12754358599999995 16)) (.rd (.var .logT)))) (.mul (.rd (.var .T)) (.add (.num 10426182050000004 19) (.mul (.rd (.var .T)) (.add (.neg (.num 27364926849999996 23)) (.mul (.rd (.var .T)) (.add (.num 43062069583333329 27) (.mul (.neg (.num 28189239050000005 31)) (.rd (.var .T)))))))))) (.div (.neg (.num 12923350387 6)) (.rd (.var .T)))),
  .set (.var .Kc) (.mul (.num 1 0) (.exp (.rd (.var .Kc)))),
  .set (.arr .rev 168) (.div (.mul (.mul (.rd (.arr .C 17)) (.rd (.arr .C 6))) (.rd (.var .kf))) (.rd (.var .Kc)))]

/-- utilities/mechanisms/gri30/lib/src/rxn_rates.c:2038-2049 -/
def rate170 : List CStmt := [
  .set (.var .kf) (.exp (.sub (.num 23025850929940457 15) (.div (.neg (.num 37993077146866779 14)) (.rd (.var .T))))),
  .set (.arr .fwd 170) (.mul (.mul (.rd (.arr .C 21)) (.rd (.arr .C 3))) (.rd (.var .kf))),
  .ite (.rd (.var .T)) (.num 1000 0) (.var .Kc) (.sub (.add (.add (.neg (.num 41064640199999998 16)) (.mul (.num 11286056200000001 16) (.rd (.var .logT)))) (.mul (.rd (.var .T)) (.add (.neg (.num 71337529699999989 19)) (.mul (.rd (.var .T)) (.add (.num 55710678366666671 22) (.mul (.rd (.var .T)) (.add (.neg (.num 26837677355000006 25)) (.mul (.num 55613434404999995 29) (.rd (.var .T)))))))))) (.div (.neg (.num 76279970680000013 12)) (.rd (.var .T)))) (.sub (.add (.add (.num 64908909700000006 16) (.mul (.neg (.num 96298437000000003 17)) (.rd (.var .logT)))) (.mul (.rd (.var .T)) (.add (.num 39208806500000014 20) (.mul (.rd (.var .T)) (.add (.neg (.num 14790741033333336 23)) (.mul (.rd (.var .T)) (.add (.num 25462831583333343 27) (.mul (.neg (.num 17160293150000003 31)) (.rd (.var .T)))))))))) (.div (.neg (.num 76172561529999992 12)) (.rd (.var .T)))),
  .set (.var .Kc) (.mul (.num 1 0) (.exp (.rd (.var .Kc)))),
  .set (.arr .rev 169) (.div (.mul (.mul (.rd (.arr .C 14)) (.rd (.arr .C 16))) (.rd (.var .kf))) (.rd (.var .Kc)))]

/-- utilities/mechanisms/gri30/lib/src/rxn_rates.c:2050-2061 -/
def rate171 : List CStmt := [
  .set (.var .kf) (.exp (.sub (.add (.num 17855046883691379 15) (.mul (.num 9 1) (.rd (.var .logT)))) (.div (.num 10029165927643112 13) (.rd (.var .T))))),
  .set (.arr .fwd 171) (.mul (.mul (.rd (.arr .C 0)) (.rd (.arr .C 21))) (.rd (.var .kf))),
  .ite (.rd (.var .T)) (.num 1000 0) (.var .Kc) (.sub (.add (.add (.num 85123549849999982 16) (.mul (.neg (.num 1925307356 9)) (.rd (.var .logT)))) (.mul (.rd (.var .T)) (.add (.num 98554052535266678 20) (.mul (.rd (.var .T)) (.add (.num 20729865996673464 22) (.mul (.rd (.var .T)) (.add (.neg (.num 18017558498082656 25)) (.mul (.num 49042694845361333 29) (.rd (.var .T)))))))))) (.div (.neg (.num 14018817427000009 12)) (.rd (.var .T)))) (.sub (.add (.add (.neg (.num 52503194940000011 16)) (.mul (.num 14248393000000048 17) (.rd (.var .logT)))) (.mul (.rd (.var .T)) (.add (.num 62942503500785108 20) (.mul (.rd (.var .T)) (.add (.neg (.num 17242241864063419 23)) (.mul (.rd (.var .T)) (.add (.num 28565692355403972 27) (.mul (.neg (.num 1921289070090132 30)) (.rd (.var .T)))))))))) (.div (.neg (.num 14761246978000003 12)) (.rd (.var .T)))),
  .set (.var .Kc) (.mul (.num 1 0) (.exp (.rd (.var .Kc)))),
  .set (.arr .rev 170) (.div (.mul (.mul (.rd (.arr .C 1)) (.rd (.arr .C 22))) (.rd (.var .kf))) (.rd (.var .Kc)))]

/-- utilities/mechanisms/gri30/lib/src/rxn_rates.c:2062-2073 -/
def rate172 : List CStmt := [
  .set (.var .kf) (.exp (.sub (.sub (.num 31455305207048688 15) (.mul (.num 139 2) (.rd (.var .logT)))) (.div (.num 51076785833205008 14) (.rd (.var .T))))),
  .set (.arr .fwd 172) (.mul (.mul (.rd (.arr .C 23)) (.rd (.arr .C 3))) (.rd (.var .kf))),
  .ite (.rd (.var .T)) (.num 1000 0) (.var .Kc) (.sub (.add (.add (.neg (.num 10191016829999999 15)) (.mul (.num 20199861800000005 16) (.rd (.var .logT)))) (.mul (.rd (.var .T)) (.add (.neg (.num 58351582350000004 19)) (.mul (.rd (.var .T)) (.add (.num 25556170316666676 22) (.mul (.rd (.var .T)) (.add (.neg (.num 4829879675 19)) (.mul (.neg (.num 22193090999999984 30)) (.rd (.var .T)))))))))) (.div (.neg (.num 44265294979999999 12)) (.rd (.var .T)))) (.sub (.add (.add (.num 11980510229999998 15) (.mul (.neg (.num 17663973799999999 16)) (.rd (.var .logT)))) (.mul (.rd (.var .T)) (.add (.num 11718196699999997 19) (.mul (.rd (.var .T)) (.add (.neg (.num 24470901683333341 23)) (.mul (.rd (.var .T)) (.add (.num 30705871916666657 27) (.mul (.neg (.num 16901975800000012 31)) (.rd (.var .T)))))))))) (.div (.neg (.num 43508330330000004 12)) (.rd (.var .T)))),
  .set (.var .Kc) (.mul (.num 1 0) (.exp (.rd (.var .Kc)))),
  .set (.arr .rev 171) (.div (.mul (.mul (.rd (.arr .C 17)) (.rd (.arr .C 16))) (.rd (.var .kf))) (.rd (.var .Kc)))]

/-- utilities/mechanisms/gri30/lib/src/rxn_rates.c:2074-2085 -/
def rate173 : List CStmt := [
  .set (.var .kf) (.exp (.sub (.add (.num 29710462657608385 15) (.mul (.num 44 2) (.rd (.var .logT)))) (.div (.num 43664361642829543 12) (.rd (.var .T))))),
  .set (.arr .fwd 173) (.mul (.rd (.arr .C 24)) (.rd (.var .kf))),
  .ite (.rd (.var .T)) (.num 1000 0) (.var .Kc) (.sub (.add (.add (.num 11331573643999999 15) (.mul (.neg (.num 18061892659999998 16)) (.rd (.var .logT)))) (.mul (.rd (.var .T)) (.add (.num 19456303059999999 18) (.mul (.rd (.var .T)) (.add (.neg (.num 18682393616666667 21)) (.mul (.rd (.var .T)) (.add (.num 97776106999999999 25) (.mul (.neg (.num 21432642325000001 28)) (.rd (.var .T)))))))))) (.div (.num 20421269596999999 12) (.rd (.var .T)))) (.sub (.add (.add (.neg (.num 20189411500000002 15)) (.mul (.num 44487376799999998 16) (.rd (.var .logT)))) (.mul (.rd (.var .T)) (.add (.neg (.num 43665754665499993 19)) (.mul (.rd (.var .T)) (.add (.num 80621456800000012 23) (.mul (.rd (.var .T)) (.add (.neg (.num 98698621083333346 27)) (.mul (.num 54804038649999998 31) (.rd (.var .T)))))))))) (.div (.num 20045954138000001 12) (.rd (.var .T)))),
  .set (.var .Kc) (.mul (.num 12186597134166982 15) (.exp (.rd (.var .Kc)))),
  .set (.arr .rev 172) (.div (.mul (.mul (.rd (.arr .C 0)) (.rd (.arr .C 22))) (.rd (.var .kf))) (.rd (.var .Kc)))]

/-- utilities/mechanisms/gri30/lib/src/rxn_rates.c:2086-2097 -/
def rate174 : List CStmt := [
  .set (.var .kf) (.exp (.sub (.num 20548912449801634 15) (.div (.num 19499758138292552 13) (.rd (.var .T))))),
  .set (.arr .fwd 174) (.mul (.mul (.rd (.arr .C 25)) (.rd (.arr .C 3))) (.rd (.var .kf))),
  .ite (.rd (.var .T)) (.num 1000 0) (.var .Kc) (.sub (.add (.add (.neg (.num 72296901000000036 17)) (.mul (.num 17207745000000019 17) (.rd (.var .logT)))) (.mul (.rd (.var .T)) (.add (.neg (.num 25681599499999992 19)) (.mul (.rd (.var .T)) (.add (.num 31159559316666656 22) (.mul (.rd (.var .T)) (.add (.neg (.num 19867757508333331 25)) (.mul (.num 49930298850000008 29) (.rd (.var .T)))))))))) (.div (.neg (.num 63930989700000009 13)) (.rd (.var .T)))) (.sub (.add (.add (.neg (.num 56413219399999974 16)) (.mul (.num 81612780000000029 17) (.rd (.var .logT)))) (.mul (.rd (.var .T)) (.add (.neg (.num 9975622550000003 19)) (.mul (.rd (.var .T)) (.add (.num 23259934149999997 23) (.mul (.rd (.var .T)) (.add (.neg (.num 31264320416666646 27)) (.mul (.num 17408220449999992 31) (.rd (.var .T)))))))))) (.div (.neg (.num 67173194270000004 13)) (.rd (.var .T)))),
  .set (.var .Kc) (.mul (.num 1 0) (.exp (.rd (.var .Kc)))),
  .set (.arr .rev 173) (.div (.mul (.mul (.rd (.arr .C 24)) (.rd (.arr .C 6))) (.rd (.var .kf))) (.rd (.var .Kc)))]

/-- utilities/mechanisms/gri30/lib/src/rxn_rates.c:2098-2109 -/
def rate175 : List CStmt := [
  .set (.var .kf) (.exp (.sub (.num 21886416646752092 15) (.div (.num 42974950838972489 14) (.rd (.var .T))))),
  .set (.arr .fwd 175) (.mul (.mul (.rd (.arr .C 27)) (.rd (.arr .C 3))) (.rd (.var .kf))),
  .ite (.rd (.var .T)) (.num 1000 0) (.var .Kc) (.sub (.add (.add (.neg (.num 14352104237999999 15)) (.mul (.num 41169046099999989 16) (.rd (.var .logT)))) (.mul (.rd (.var .T)) (.add (.neg (.num 91401558600000005 19)) (.mul (.rd (.var .T)) (.add (.num 34222276766666667 22) (.mul (.rd (.var .T)) (.add (.neg (.num 80513212266666685 26)) (.mul (.num 68900921600000025 30) (.rd (.var .T)))))))))) (.div (.neg (.num 44068596879999997 12)) (.rd (.var .T)))) (.sub (.add (.add (.num 18978584499999997 15) (.mul (.neg (.num 13874847500000005 16)) (.rd (.var .logT)))) (.mul (.rd (.var .T)) (.add (.neg (.num 44747153199999978 20)) (.mul (.rd (.var .T)) (.add (.num 80045842499999959 24) (.mul (.rd (.var .T)) (.add (.neg (.num 10297601216666666 27)) (.mul (.num 60456528999999974 32) (.rd (.var .T)))))))))) (.div (.neg (.num 42683845080000006 12)) (.rd (.var .T)))),
  .set (.var .Kc) (.mul (.num 12186597134166982 15) (.exp (.rd (.var .Kc)))),
  .set (.arr .rev 174) (.div (.mul (.mul (.mul (.rd (.arr .C 14)) (.rd (.arr .C 14))) (.rd (.arr .C 4))) (.rd (.var .kf))) (.rd (.var .Kc)))]

/-- utilities/mechanisms/gri30/lib/src/rxn_rates.c:2110-2121 -/
def rate176 : List CStmt := [
  .set (.var .kf) (.num 10000000000 0),
  .set (.arr .fwd 176) (.mul (.mul (.rd (.arr .C 27)) (.rd (.arr .C 27))) (.rd (.var .kf))),
  .ite (.rd (.var .T)) (.num 1000 0) (.var .Kc) (.sub (.add (.add (.neg (.num 74886155740000007 16)) (.mul (.num 24643052339999993 16) (.rd (.var .logT)))) (.mul (.rd (.var .T)) (.add (.neg (.num 65845932299999996 19)) (.mul (.rd (.var .T)) (.add (.num 23291081933333327 22) (.mul (.rd (.var .T)) (.add (.neg (.num 39352187766666722 26)) (.mul (.neg (.num 88308268999998846 31)) (.rd (.var .T)))))))))) (.div (.neg (.num 423780893 4)) (.rd (.var .T)))) (.sub (.add (.add (.num 2394608397 8) (.mul (.neg (.num 26784707399999999 16)) (.rd (.var .logT)))) (.mul (.rd (.var .T)) (.add (.num 95802064999999954 20) (.mul (.rd (.var .T)) (.add (.neg (.num 19728177700000007 23)) (.mul (.rd (.var .T)) (.add (.num 29583095583333331 27) (.mul (.neg (.num 19018700250000007 31)) (.rd (.var .T)))))))))) (.div (.neg (.num 41022175600000002 12)) (.rd (.var .T)))),
  .set (.var .Kc) (.mul (.num 12186597134166982 15) (.exp (.rd (.var .Kc)))),
  .set (.arr .rev 175) (.div (.mul (.mul (.mul (.rd (.arr .C 14)) (.rd (.arr .C 14))) (.rd (.arr .C 22))) (.rd (.var .kf))) (.rd (.var .Kc)))]

/-- utilities/mechanisms/gri30/lib/src/rxn_rates.c:2122-2133 -/
def rate177 : List CStmt := [
  .set (.var .kf) (.exp (.sub (.num 2401910270295074 14) (.div (.num 17864294552500274 14) (.rd (.var .T))))),
  .set (.arr .fwd 177) (.mul (.mul (.rd (.arr .C 30)) (.rd (.arr .C 35))) (.rd (.var .kf))),
  .ite (.rd (.var .T)) (.num 1000 0) (.var .Kc) (.sub (.add (.add (.neg (.num 22091744000000002 17)) (.mul (.neg (.num 25153219999999976 17)) (.rd (.var .logT)))) (.mul (.rd (.var .T)) (.add (.num 13839487800000002 19) (.mul (.rd (.var .T)) (.add (.neg (.num 13935300066666667 22)) (.mul (.rd (.var .T)) (.add (.num 73746534666666676 26) (.mul (.neg (.num 1567885645 22)) (.rd (.var .T)))))))))) (.div (.neg (.num 37847900699999998 12)) (.rd (.var .T)))) (.sub (.add (.add (.neg (.num 73557940000001487 18)) (.mul (.neg (.num 18048771999999991 17)) (.rd (.var .logT)))) (.mul (.rd (.var .T)) (.add (.num 18003868149999965 21) (.mul (.rd (.var .T)) (.add (.num 3611104816666669 24) (.mul (.rd (.var .T)) (.add (.neg (.num 72760949166666755 29)) (.mul (.num 27234700500000027 33) (.rd (.var .T)))))))))) (.div (.neg (.num 37759966200000003 12)) (.rd (.var .T)))),
  .set (.var .Kc) (.mul (.num 1 0) (.exp (.rd (.var .Kc)))),
  .set (.arr .rev 176) (.div (.mul (.mul (.rd (.arr .C 52)) (.rd (.arr .C 2))) (.rd (.var .kf))) (.rd (.var .Kc)))]

/-- utilities/mechanisms/gri30/lib/src/rxn_rates.c:2134-2145 -/
def rate178 : List CStmt := [
  .set (.var .kf) (.exp (.sub (.add (.num 16012735135300492 15) (.mul (.num 1 0) (.rd (.var .logT)))) (.div (.num 32709271715845571 13) (.rd (.var .T))))),
  .set (.arr .fwd 178) (.mul (.mul (.rd (.arr .C 3)) (.rd (.arr .C 30))) (.rd (.var .kf))),
  .ite (.rd (.var .T)) (.num 1000 0) (.var .Kc) (.sub (.add (.add (.neg (.num 46230916099999995 16)) (.mul (.num 11042870400000004 16) (.rd (.var .logT)))) (.mul (.rd (.var .T)) (.add (.neg (.num 24607803399999996 19)) (.mul (.rd (.var .T)) (.add (.num 13061306583333336 22) (.mul (.rd (.var .T)) (.add (.neg (.num 48190887916666673 26)) (.mul (.num 83625417000000004 30) (.rd (.var .T)))))))))) (.div (.neg (.num 16073811240000003 12)) (.rd (.var .T)))) (.sub (.add (.add (.num 91925481000000087 17) (.mul (.num 13154564000000013 17) (.rd (.var .logT)))) (.mul (.rd (.var .T)) (.add (.neg (.num 27642400185000002 20)) (.mul (.rd (.var .T)) (.add (.num 81628056316666668 24) (.mul (.rd (.var .T)) (.add (.neg (.num 15021409241666664 27)) (.mul (.num 10451302304999998 31) (.rd (.var .T)))))))))) (.div (.neg (.num 15906761580000006 12)) (.rd (.var .T)))),
  .set (.var .Kc) (.mul (.num 1 0) (.exp (.rd (.var .Kc)))),
  .set (.arr .rev 177) (.div (.mul (.mul (.rd (.arr .C 2)) (.rd (.arr .C 35))) (.rd (.var .kf))) (.rd (.var .Kc)))]

/-- utilities/mechanisms/gri30/lib/src/rxn_rates.c:2146-2157 -/
def rate179 : List CStmt := [
  .set (.var .kf) (.exp (.sub (.num 24237791903915571 15) (.div (.num 19373953247077762 14) (.rd (.var .T))))),
  .set (.arr .fwd 179) (.mul (.mul (.rd (.arr .C 30)) (.rd (.arr .C 4))) (.rd (.var .kf))),
  .ite (.rd (.var .T)) (.num 1000 0) (.var .Kc) (.sub (.add (.add (.neg (.num 24822805649999991 16)) (.mul (.num 22646086999999993 17) (.rd (.var .logT)))) (.mul (.rd (.var .T)) (.add (.neg (.num 11188292396473339 19)) (.mul (.rd (.var .T)) (.add (.num 10705139313340135 22) (.mul (.rd (.var .T)) (.add (.neg (.num 45458350564159866 26)) (.mul (.num 71973114953613397 30) (.rd (.var .T)))))))))) (.div (.neg (.num 24401434660000003 12)) (.rd (.var .T)))) (.sub (.add (.add (.neg (.num 3455460953999999 15)) (.mul (.num 25177503999999962 17) (.rd (.var .logT)))) (.mul (.rd (.var .T)) (.add (.num 23389195545785136 20) (.mul (.rd (.var .T)) (.add (.neg (.num 72775333640634197 24)) (.mul (.rd (.var .T)) (.add (.num 10598131238737304 27) (.mul (.neg (.num 68693744009013213 32)) (.rd (.var .T)))))))))) (.div (.neg (.num 245977955 4)) (.rd (.var .T)))),
  .set (.var .Kc) (.mul (.num 1 0) (.exp (.rd (.var .Kc)))),
  .set (.arr .rev 178) (.div (.mul (.mul (.rd (.arr .C 1)) (.rd (.arr .C 35))) (.rd (.var .kf))) (.rd (.var .Kc)))]

/-- utilities/mechanisms/gri30/lib/src/rxn_rates.c:2158-2169 -/
def rate180 : List CStmt := [
  .set (.var .kf) (.exp (.sub (.num 21059738073567623 15) (.div (.num 5439803496127548 12) (.rd (.var .T))))),
  .set (.arr .fwd 180) (.mul (.mul (.rd (.arr .C 37)) (.rd (.arr .C 2))) (.rd (.var .kf))),
  .ite (.rd (.var .T)) (.num 1000 0) (.var .Kc) (.sub (.add (.add (.neg (.num 68575937899999992 16)) (.mul (.num 165571606 8) (.rd (.var .logT)))) (.mul (.rd (.var .T)) (.add (.neg (.num 48069514600000002 19)) (.mul (.rd (.var .T)) (.add (.num 21520558416666661 22) (.mul (.rd (.var .T)) (.add (.neg (.num 63280787083333353 26)) (.mul (.num 80846643000000009 30) (.rd (.var .T)))))))))) (.div (.neg (.num 39948877059999999 12)) (.rd (.var .T)))) (.sub (.add (.add (.num 10034457189999999 15) (.mul (.neg (.num 11833158400000001 16)) (.rd (.var .logT)))) (.mul (.rd (.var .T)) (.add (.num 21500667685000015 20) (.mul (.rd (.var .T)) (.add (.neg (.num 68313731316666671 24)) (.mul (.rd (.var .T)) (.add (.num 13370966241666666 27) (.mul (.neg (.num 99391185050000003 32)) (.rd (.var .T)))))))))) (.div (.neg (.num 39302239320000001 12)) (.rd (.var .T)))),
  .set (.var .Kc) (.mul (.num 1 0) (.exp (.rd (.var .Kc)))),
  .set (.arr .rev 179) (.div (.mul (.mul (.rd (.arr .C 52)) (.rd (.arr .C 3))) (.rd (.var .kf))) (.rd (.var .Kc)))]

/-- utilities/mechanisms/gri30/lib/src/rxn_rates.c:2170-2181 -/
def rate181 : List CStmt := [
  .set (.var .kf) (.exp (.sub (.num 24090561666932885 15) (.div (.num 11649532926489615 12) (.rd (.var .T))))),
  .set (.arr .fwd 181) (.mul (.mul (.rd (.arr .C 37)) (.rd (.arr .C 2))) (.rd (.var .kf))),
  .ite (.rd (.var .T)) (.num 1000 0) (.var .Kc) (.sub (.add (.add (.neg (.num 11259767959999998 15)) (.mul (.num 30115352999999998 16) (.rd (.var .logT)))) (.mul (.rd (.var .T)) (.add (.neg (.num 86516805799999996 19)) (.mul (.rd (.var .T)) (.add (.num 48517165066666666 22) (.mul (.rd (.var .T)) (.add (.neg (.num 18521820966666668 25)) (.mul (.num 32126062450000001 29) (.rd (.var .T)))))))))) (.div (.neg (.num 18174787600000003 12)) (.rd (.var .T)))) (.sub (.add (.add (.num 1102726994 8) (.mul (.neg (.num 87128248000000008 17)) (.rd (.var .logT)))) (.mul (.rd (.var .T)) (.add (.neg (.num 79421193149999938 21)) (.mul (.rd (.var .T)) (.add (.num 97032201833333181 25) (.mul (.rd (.var .T)) (.add (.neg (.num 92283350833333214 29)) (.mul (.num 23983679500000027 33) (.rd (.var .T)))))))))) (.div (.neg (.num 174490347 4)) (.rd (.var .T)))),
  .set (.var .Kc) (.mul (.num 1 0) (.exp (.rd (.var .Kc)))),
  .set (.arr .rev 180) (.div (.mul (.mul (.rd (.arr .C 35)) (.rd (.arr .C 35))) (.rd (.var .kf))) (.rd (.var .Kc)))]

/-- utilities/mechanisms/gri30/lib/src/rxn_rates.c:2182-2193 -/
def rate182 : List CStmt := [
  .set (.var .kf) (.exp (.sub (.num 26681690529976194 15) (.div (.num 950078538454099 11) (.rd (.var .T))))),
  .set (.arr .fwd 182) (.mul (.mul (.rd (.arr .C 1)) (.rd (.arr .C 37))) (.rd (.var .kf))),
  .ite (.rd (.var .T)) (.num 1000 0) (.var .Kc) (.sub (.add (.add (.neg (.num 89984048350000005 16)) (.mul (.num 25335422300000001 16) (.rd (.var .logT)))) (.mul (.rd (.var .T)) (.add (.neg (.num 61489025603526665 19)) (.mul (.rd (.var .T)) (.add (.num 23876725686659865 22) (.mul (.rd (.var .T)) (.add (.neg (.num 66013324435840145 26)) (.mul (.num 92498945046386628 30) (.rd (.var .T)))))))))) (.div (.neg (.num 31621253640000003 12)) (.rd (.var .T)))) (.sub (.add (.add (.num 14409172953999999 15) (.mul (.neg (.num 13035452399999992 16)) (.rd (.var .logT)))) (.mul (.rd (.var .T)) (.add (.neg (.num 29530928045785128 20)) (.mul (.rd (.var .T)) (.add (.num 86089658640634181 24) (.mul (.rd (.var .T)) (.add (.neg (.num 12248574238737303 27)) (.mul (.num 7381558200901322 31) (.rd (.var .T)))))))))) (.div (.neg (.num 30611205399999999 12)) (.rd (.var .T)))),
  .set (.var .Kc) (.mul (.num 1 0) (.exp (.rd (.var .Kc)))),
  .set (.arr .rev 181) (.div (.mul (.mul (.rd (.arr .C 52)) (.rd (.arr .C 4))) (.rd (.var .kf))) (.rd (.var .Kc)))]

/-- utilities/mechanisms/gri30/lib/src/rxn_rates.c:2194-2205 -/
def rate183 : List CStmt := [
  .set (.var .kf) (.exp (.sub (.num 21416413017506358 15) (.div (.num 10597804035933965 12) (.rd (.var .T))))),
  .set (.arr .fwd 183) (.mul (.mul (.rd (.arr .C 37)) (.rd (.arr .C 4))) (.rd (.var .kf))),
  .ite (.rd (.var .T)) (.num 1000 0) (.var .Kc) (.sub (.add (.add (.neg (.num 43383414719999989 16)) (.mul (.num 13513093800000004 16) (.rd (.var .logT)))) (.mul (.rd (.var .T)) (.add (.neg (.num 6122145295 12)) (.mul (.rd (.var .T)) (.add (.num 43747412816666665 22) (.mul (.rd (.var .T)) (.add (.neg (.num 2036310139166667 24)) (.mul (.num 42070003700000005 29) (.rd (.var .T)))))))))) (.div (.neg (.num 13082946820000001 12)) (.rd (.var .T)))) (.sub (.add (.add (.num 84627644199999992 16) (.mul (.neg (.num 97210966999999959 17)) (.rd (.var .logT)))) (.mul (.rd (.var .T)) (.add (.num 27617105700000007 20) (.mul (.rd (.var .T)) (.add (.neg (.num 61688439666666685 24)) (.mul (.rd (.var .T)) (.add (.num 11929648800000004 27) (.mul (.neg (.num 97551058999999984 32)) (.rd (.var .T)))))))))) (.div (.neg (.num 12743002787000001 12)) (.rd (.var .T)))),
  .set (.var .Kc) (.mul (.num 1 0) (.exp (.rd (.var .Kc)))),
  .set (.arr .rev 182) (.div (.mul (.mul (.rd (.arr .C 52)) (.rd (.arr .C 6))) (.rd (.var .kf))) (.rd (.var .Kc)))]

/-- utilities/mechanisms/gri30/lib/src/rxn_rates.c:2206-2217 -/
def rate184 : List CStmt := [
  .set (.var .kf) (.exp (.sub (.num 2509397871172002 14) (.div (.num 28190360023410292 12) (.rd (.var .T))))),
  .set (.arr .fwd 184) (.mul (.rd (.arr .C 37)) (.rd (.var .kf))),
  .ite (.rd (.var .T)) (.num 1000 0) (.var .Kc) (.sub (.add (.add (.neg (.num 89654804400000003 16)) (.mul (.num 32097939000000002 16) (.rd (.var .logT)))) (.mul (.rd (.var .T)) (.add (.neg (.num 658790322 11)) (.mul (.rd (.var .T)) (.add (.num 27251934933333331 22) (.mul (.rd (.var .T)) (.add (.neg (.num 84737765333333335 26)) (.mul (.num 1299261955 22) (.rd (.var .T)))))))))) (.div (.num 19359584900000002 12) (.rd (.var .T)))) (.sub (.add (.add (.num 12293599459999999 15) (.mul (.neg (.num 32701211999999957 17)) (.rd (.var .logT)))) (.mul (.rd (.var .T)) (.add (.neg (.num 61251120684999996 20)) (.mul (.rd (.var .T)) (.add (.num 71996866483333315 24) (.mul (.rd (.var .T)) (.add (.neg (.num 57545433249999993 28)) (.mul (.num 21251081050000004 32) (.rd (.var .T)))))))))) (.div (.num 202213766 4) (.rd (.var .T)))),
  .set (.var .Kc) (.mul (.num 12186597134166982 15) (.exp (.rd (.var .Kc)))),
  .set (.arr .rev 183) (.div (.mul (.mul (.rd (.arr .C 52)) (.rd (.arr .C 2))) (.rd (.var .kf))) (.rd (.var .Kc)))]

/-- utilities/mechanisms/gri30/lib/src/rxn_rates.c:2218-2229 -/
def rate185 : List CStmt := [
  .set (.var .kf) (.exp (.sub (.num 21469953784434388 15) (.div (.neg (.num 24154539113239807 14)) (.rd (.var .T))))),
  .set (.arr .fwd 185) (.mul (.mul (.rd (.arr .C 6)) (.rd (.arr .C 35))) (.rd (.var .kf))),
  .ite (.rd (.var .T)) (.num 1000 0) (.var .Kc) (.sub (.add (.add (.num 79478507199999937 17) (.mul (.neg (.num 58422767999999969 17)) (.rd (.var .logT)))) (.mul (.rd (.var .T)) (.add (.num 27006749950000001 19) (.mul (.rd (.var .T)) (.add (.neg (.num 18205934483333328 22)) (.mul (.rd (.var .T)) (.add (.num 77133045583333372 26) (.mul (.neg (.num 14483285700000006 29)) (.rd (.var .T)))))))))) (.div (.neg (.num 36277325799999999 13)) (.rd (.var .T)))) (.sub (.add (.add (.neg (.num 64949510700000008 16)) (.mul (.num 69982536999999923 17) (.rd (.var .logT)))) (.mul (.rd (.var .T)) (.add (.neg (.num 35504955699999991 20)) (.mul (.rd (.var .T)) (.add (.num 60210799666666659 24) (.mul (.rd (.var .T)) (.add (.neg (.num 95145912166666687 28)) (.mul (.num 80274029999999995 32) (.rd (.var .T)))))))))) (.div (.neg (.num 38576760129999993 13)) (.rd (.var .T)))),
  .set (.var .Kc) (.mul (.num 1 0) (.exp (.rd (.var .Kc)))),
  .set (.arr .rev 184) (.div (.mul (.mul (.rd (.arr .C 36)) (.rd (.arr .C 4))) (.rd (.var .kf))) (.rd (.var .Kc)))]

/-- utilities/mechanisms/gri30/lib/src/rxn_rates.c:2230-2241 -/
def rate186 : List CStmt := [
  .set (.var .kf) (.exp (.sub (.num 32294460210040619 15) (.mul (.num 141 2) (.rd (.var .logT))))),
  .set (.arr .fwd 186) (.mul (.mul (.rd (.arr .C 2)) (.rd (.arr .C 35))) (.rd (.var .kf))),
  .ite (.rd (.var .T)) (.num 1000 0) (.var .Kc) (.sub (.add (.add (.num 54219240400000004 16) (.mul (.neg (.num 24427121999999999 16)) (.rd (.var .logT)))) (.mul (.rd (.var .T)) (.add (.num 31664329200000001 19) (.mul (.rd (.var .T)) (.add (.neg (.num 17104565999999997 23)) (.mul (.rd (.var .T)) (.add (.neg (.num 41760203000000003 26)) (.mul (.num 14594098449999999 29) (.rd (.var .T)))))))))) (.div (.neg (.num 36070264299999995 12)) (.rd (.var .T)))) (.sub (.add (.add (.neg (.num 10325786109999999 15)) (.mul (.num 5472781999999965 17) (.rd (.var .logT)))) (.mul (.rd (.var .T)) (.add (.num 53363270684999989 20) (.mul (.rd (.var .T)) (.add (.neg (.num 73474506483333341 24)) (.mul (.rd (.var .T)) (.add (.num 81696009083333325 28) (.mul (.neg (.num 38528110049999998 32)) (.rd (.var .T)))))))))) (.div (.neg (.num 36822055399999997 12)) (.rd (.var .T)))),
  .set (.var .Kc) (.mul (.num 82057360967184814 18) (.exp (.rd (.var .Kc)))),
  .set (.arr .rev 185) (.div (.mul (.rd (.arr .C 36)) (.rd (.var .kf))) (.rd (.var .Kc)))]

/-- utilities/mechanisms/gri30/lib/src/rxn_rates.c:2242-2253 -/
def rate187 : List CStmt := [
  .set (.var .kf) (.exp (.sub (.num 22084242390082011 15) (.div (.neg (.num 12077269556619903 14)) (.rd (.var .T))))),
  .set (.arr .fwd 187) (.mul (.mul (.rd (.arr .C 36)) (.rd (.arr .C 2))) (.rd (.var .kf))),
  .ite (.rd (.var .T)) (.num 1000 0) (.var .Kc) (.sub (.add (.add (.neg (.num 33140373899999997 16)) (.mul (.num 88863436000000018 17) (.rd (.var .logT)))) (.mul (.rd (.var .T)) (.add (.neg (.num 13854811599999998 19)) (.mul (.rd (.var .T)) (.add (.neg (.num 40209199166666701 23)) (.mul (.rd (.var .T)) (.add (.num 63217181249999996 26) (.mul (.neg (.num 19502053699999998 29)) (.rd (.var .T)))))))))) (.div (.neg (.num 23238197660000002 12)) (.rd (.var .T)))) (.sub (.add (.add (.num 80666438400000011 16) (.mul (.neg (.num 9110315400000002 16)) (.rd (.var .logT)))) (.mul (.rd (.var .T)) (.add (.num 29388517685 14) (.mul (.rd (.var .T)) (.add (.neg (.num 66836091316666672 24)) (.mul (.rd (.var .T)) (.add (.num 10955908658333333 27) (.mul (.neg (.num 82114156049999994 32)) (.rd (.var .T)))))))))) (.div (.neg (.num 22701560519999999 12)) (.rd (.var .T)))),
  .set (.var .Kc) (.mul (.num 1 0) (.exp (.rd (.var .Kc)))),
  .set (.arr .rev 186) (.div (.mul (.mul (.rd (.arr .C 3)) (.rd (.arr .C 35))) (.rd (.var .kf))) (.rd (.var .Kc)))]

/-- utilities/mechanisms/gri30/lib/src/rxn_rates.c:2254-2265 -/
def rate188 : List CStmt := [
  .set (.var .kf) (.exp (.sub (.num 25606067759532781 15) (.div (.num 18115904334929854 14) (.rd (.var .T))))),
  .set (.arr .fwd 188) (.mul (.mul (.rd (.arr .C 1)) (.rd (.arr .C 36))) (.rd (.var .kf))),
  .ite (.rd (.var .T)) (.num 1000 0) (.var .Kc) (.sub (.add (.add (.neg (.num 54548484350000006 16)) (.mul (.num 17664605299999994 16) (.rd (.var .logT)))) (.mul (.rd (.var .T)) (.add (.neg (.num 27274322603526666 19)) (.mul (.rd (.var .T)) (.add (.neg (.num 16647526466734684 23)) (.mul (.rd (.var .T)) (.add (.num 60484643897493183 26) (.mul (.neg (.num 18336823495361336 29)) (.rd (.var .T)))))))))) (.div (.neg (.num 14910574239999998 12)) (.rd (.var .T)))) (.sub (.add (.add (.num 12441359604000001 15) (.mul (.neg (.num 10312609400000001 16)) (.rd (.var .logT)))) (.mul (.rd (.var .T)) (.add (.neg (.num 21643078045785133 20)) (.mul (.rd (.var .T)) (.add (.num 87567298640634207 24) (.mul (.rd (.var .T)) (.add (.neg (.num 14663631822070636 27)) (.mul (.num 91092611009013219 32) (.rd (.var .T)))))))))) (.div (.neg (.num 14010526599999997 12)) (.rd (.var .T)))),
  .set (.var .Kc) (.mul (.num 1 0) (.exp (.rd (.var .Kc)))),
  .set (.arr .rev 187) (.div (.mul (.mul (.rd (.arr .C 35)) (.rd (.arr .C 4))) (.rd (.var .kf))) (.rd (.var .Kc)))]

/-- utilities/mechanisms/gri30/lib/src/rxn_rates.c:2266-2277 -/
def rate189 : List CStmt := [
  .set (.var .kf) (.num 40000000000 0),
  .set (.arr .fwd 189) (.mul (.mul (.rd (.arr .C 31)) (.rd (.arr .C 2))) (.rd (.var .kf))),
  .ite (.rd (.var .T)) (.num 1000 0) (.var .Kc) (.sub (.add (.add (.neg (.num 21233984129999999 16)) (.mul (.num 57300699999999871 18) (.rd (.var .logT)))) (.mul (.rd (.var .T)) (.add (.neg (.num 83572456964733401 20)) (.mul (.rd (.var .T)) (.add (.num 98116773966734655 23) (.mul (.rd (.var .T)) (.add (.neg (.num 47414277980826538 26)) (.mul (.num 86330699453613401 30) (.rd (.var .T)))))))))) (.div (.neg (.num 35684605300000003 12)) (.rd (.var .T)))) (.sub (.add (.add (.neg (.num 50099907839999993 16)) (.mul (.num 40749202999999978 17) (.rd (.var .logT)))) (.mul (.rd (.var .T)) (.add (.neg (.num 26382304692148654 21)) (.mul (.rd (.var .T)) (.add (.neg (.num 77230754573008722 25)) (.mul (.rd (.var .T)) (.add (.num 93911930403970893 30) (.mul (.num 12125034409867904 33) (.rd (.var .T)))))))))) (.div (.neg (.num 35943792600000001 12)) (.rd (.var .T)))),
  .set (.var .Kc) (.mul (.num 1 0) (.exp (.rd (.var .Kc)))),
  .set (.arr .rev 188) (.div (.mul (.mul (.rd (.arr .C 1)) (.rd (.arr .C 35))) (.rd (.var .kf))) (.rd (.var .Kc)))]

/-- utilities/mechanisms/gri30/lib/src/rxn_rates.c:2278-2289 -/
def rate190 : List CStmt := [
  .set (.var .kf) (.exp (.sub (.num 24189001739746139 15) (.div (.num 16606245640352367 14) (.rd (.var .T))))),
  .set (.arr .fwd 190) (.mul (.mul (.rd (.arr .C 31)) (.rd (.arr .C 1))) (.rd (.var .kf))),
  .ite (.rd (.var .T)) (.num 1000 0) (.var .Kc) (.sub (.add (.add (.num 46238513709999998 16) (.mul (.neg (.num 11485773799999999 16)) (.rd (.var .logT)))) (.mul (.rd (.var .T)) (.add (.num 38343643846473333 19) (.mul (.rd (.var .T)) (.add (.neg (.num 29981837663340132 22)) (.mul (.rd (.var .T)) (.add (.num 14729637664749321 25) (.mul (.neg (.num 3170210454536134 28)) (.rd (.var .T)))))))))) (.div (.neg (.num 12167587072999995 12)) (.rd (.var .T)))) (.sub (.add (.add (.neg (.num 43190399859999999 16)) (.mul (.num 4695292900000001 16) (.rd (.var .logT)))) (.mul (.rd (.var .T)) (.add (.neg (.num 60217740000785135 20)) (.mul (.rd (.var .T)) (.add (.num 13420225697396753 23) (.mul (.rd (.var .T)) (.add (.neg (.num 18974053772070638 27)) (.mul (.num 11746942950901323 31) (.rd (.var .T)))))))))) (.div (.neg (.num 12410893821999998 12)) (.rd (.var .T)))),
  .set (.var .Kc) (.mul (.num 1 0) (.exp (.rd (.var .Kc)))),
  .set (.arr .rev 189) (.div (.mul (.mul (.rd (.arr .C 0)) (.rd (.arr .C 30))) (.rd (.var .kf))) (.rd (.var .Kc)))]

/-- utilities/mechanisms/gri30/lib/src/rxn_rates.c:2290-2301 -/
def rate191 : List CStmt := [
  .set (.var .kf) (.num 20000000000 0),
  .set (.arr .fwd 191) (.mul (.mul (.rd (.arr .C 31)) (.rd (.arr .C 4))) (.rd (.var .kf))),
  .ite (.rd (.var .T)) (.num 1000 0) (.var .Kc) (.sub (.add (.add (.num 10188835000001006 18) (.mul (.neg (.num 45143233000000027 17)) (.rd (.var .logT)))) (.mul (.rd (.var .T)) (.add (.neg (.num 17900457796473335 19)) (.mul (.rd (.var .T)) (.add (.num 25573861646673468 22) (.mul (.rd (.var .T)) (.add (.neg (.num 13114670723082653 25)) (.mul (.num 26085196495361335 29) (.rd (.var .T)))))))))) (.div (.neg (.num 84737526600000037 13)) (.rd (.var .T)))) (.sub (.add (.add (.neg (.num 16604565539999991 16)) (.mul (.neg (.num 39732956000000019 17)) (.rd (.var .logT)))) (.mul (.rd (.var .T)) (.add (.num 80806658045785124 20) (.mul (.rd (.var .T)) (.add (.neg (.num 81203753640634213 24)) (.mul (.rd (.var .T)) (.add (.num 55897703220706377 28) (.mul (.neg (.num 32150746309013209 32)) (.rd (.var .T)))))))))) (.div (.neg (.num 87552630999999965 13)) (.rd (.var .T)))),
  .set (.var .Kc) (.mul (.num 1 0) (.exp (.rd (.var .Kc)))),
  .set (.arr .rev 190) (.div (.mul (.mul (.rd (.arr .C 1)) (.rd (.arr .C 38))) (.rd (.var .kf))) (.rd (.var .Kc)))]

/-- utilities/mechanisms/gri30/lib/src/rxn_rates.c:2302-2313 -/
def rate192 : List CStmt := [
  .set (.var .kf) (.exp (.add (.num 14508657738524219 15) (.mul (.num 12 1) (.rd (.var .logT))))),
  .set (.arr .fwd 192) (.mul (.mul (.rd (.arr .C 31)) (.rd (.arr .C 4))) (.rd (.var .kf))),
  .ite (.rd (.var .T)) (.num 1000 0) (.var .Kc) (.sub (.add (.add (.num 23867575199999997 16) (.mul (.neg (.num 78628336999999959 17)) (.rd (.var .logT)))) (.mul (.rd (.var .T)) (.add (.num 26545719999999939 21) (.mul (.rd (.var .T)) (.add (.num 56525201666666661 23) (.mul (.rd (.var .T)) (.add (.neg (.num 34070679083333336 26)) (.mul (.num 72178008500000003 30) (.rd (.var .T)))))))))) (.div (.neg (.num 19684799259999996 12)) (.rd (.var .T)))) (.sub (.add (.add (.neg (.num 17445122000000035 17)) (.mul (.neg (.num 42664507999999968 17)) (.rd (.var .logT)))) (.mul (.rd (.var .T)) (.add (.num 2367679870000001 19) (.mul (.rd (.var .T)) (.add (.num 25298389999999985 25) (.mul (.rd (.var .T)) (.add (.neg (.num 47681739499999993 28)) (.mul (.num 42736052000000001 32) (.rd (.var .T)))))))))) (.div (.neg (.num 19850029099999996 12)) (.rd (.var .T)))),
  .set (.var .Kc) (.mul (.num 1 0) (.exp (.rd (.var .Kc)))),
  .set (.arr .rev 191) (.div (.mul (.mul (.rd (.arr .C 5)) (.rd (.arr .C 30))) (.rd (.var .kf))) (.rd (.var .Kc)))]

/-- utilities/mechanisms/gri30/lib/src/rxn_rates.c:2314-2325 -/
def rate193 : List CStmt := [
  .set (.var .kf) (.exp (.sub (.add (.num 61333980429966486 16) (.mul (.num 2 0) (.rd (.var .logT)))) (.div (.num 32709271715845571 13) (.rd (.var .T))))),
  .set (.arr .fwd 193) (.mul (.mul (.rd (.arr .C 31)) (.rd (.arr .C 3))) (.rd (.var .kf))),
  .ite (.rd (.var .T)) (.num 1000 0) (.var .Kc) (.sub (.add (.add (.neg (.num 21306222099999994 16)) (.mul (.num 42639383999999936 17) (.rd (.var .logT)))) (.mul (.rd (.var .T)) (.add (.neg (.num 31319968799999997 19)) (.mul (.rd (.var .T)) (.add (.num 27930028916666664 22) (.mul (.rd (.var .T)) (.add (.neg (.num 13387924458333333 25)) (.mul (.num 272504267 21) (.rd (.var .T)))))))))) (.div (.neg (.num 1461292400000018 13)) (.rd (.var .T)))) (.sub (.add (.add (.num 27142592100000007 16) (.mul (.neg (.num 51755895999999968 17)) (.rd (.var .logT)))) (.mul (.rd (.var .T)) (.add (.num 29775062315000008 20) (.mul (.rd (.var .T)) (.add (.num 73199636316666652 24) (.mul (.rd (.var .T)) (.add (.neg (.num 20029770158333333 27)) (.mul (.num 14105602075 25) (.rd (.var .T)))))))))) (.div (.neg (.num 64229180000000497 15)) (.rd (.var .T)))),
  .set (.var .Kc) (.mul (.num 1 0) (.exp (.rd (.var .Kc)))),
  .set (.arr .rev 192) (.div (.mul (.mul (.rd (.arr .C 38)) (.rd (.arr .C 2))) (.rd (.var .kf))) (.rd (.var .Kc)))]

/-- utilities/mechanisms/gri30/lib/src/rxn_rates.c:2326-2337 -/
def rate194 : List CStmt := [
  .set (.var .kf) (.exp (.sub (.add (.num 71546153569136628 16) (.mul (.num 15 1) (.rd (.var .logT)))) (.div (.num 5032195648591626 14) (.rd (.var .T))))),
  .set (.arr .fwd 194) (.mul (.mul (.rd (.arr .C 31)) (.rd (.arr .C 3))) (.rd (.var .kf))),
  .ite (.rd (.var .T)) (.num 1000 0) (.var .Kc) (.sub (.add (.add (.neg (.num 42642094580000007 16)) (.mul (.num 9351268699999995 16) (.rd (.var .logT)))) (.mul (.rd (.var .T)) (.add (.neg (.num 21776756700000004 19)) (.mul (.rd (.var .T)) (.add (.num 12167844666666669 22) (.mul (.rd (.var .T)) (.add (.neg (.num 50146815333333341 26)) (.mul (.num 97983001500000021 30) (.rd (.var .T)))))))))) (.div (.neg (.num 27356981879999999 12)) (.rd (.var .T)))) (.sub (.add (.add (.neg (.num 63527501999999902 17)) (.mul (.num 28726262999999985 17) (.rd (.var .logT)))) (.mul (.rd (.var .T)) (.add (.neg (.num 53669826199999999 20)) (.mul (.rd (.var .T)) (.add (.num 14668031449999999 23) (.mul (.rd (.var .T)) (.add (.neg (.num 2552562855 20)) (.mul (.num 1744192705 24) (.rd (.var .T)))))))))) (.div (.neg (.num 27252758679999999 12)) (.rd (.var .T)))),
  .set (.var .Kc) (.mul (.num 1 0) (.exp (.rd (.var .Kc)))),
  .set (.arr .rev 193) (.div (.mul (.mul (.rd (.arr .C 35)) (.rd (.arr .C 4))) (.rd (.var .kf))) (.rd (.var .Kc)))]

/-- utilities/mechanisms/gri30/lib/src/rxn_rates.c:2338-2349 -/
def rate195 : List CStmt := [
  .set (.var .kf) (.num 15000000000 0),
  .set (.arr .fwd 195) (.mul (.mul (.rd (.arr .C 31)) (.rd (.arr .C 30))) (.rd (.var .kf))),
  .ite (.rd (.var .T)) (.num 1000 0) (.var .Kc) (.sub (.add (.add (.neg (.num 23443158529999994 16)) (.mul (.neg (.num 19423149999999989 17)) (.rd (.var .logT)))) (.mul (.rd (.var .T)) (.add (.num 54822421035266632 20) (.mul (.rd (.var .T)) (.add (.neg (.num 41236226699931982 23)) (.mul (.rd (.var .T)) (.add (.num 26332256685840138 26) (.mul (.neg (.num 70457865046386596 30)) (.rd (.var .T)))))))))) (.div (.neg (.num 73532506000000008 12)) (.rd (.var .T)))) (.sub (.add (.add (.neg (.num 50835487239999999 16)) (.mul (.num 22700430999999988 17) (.rd (.var .logT)))) (.mul (.rd (.var .T)) (.add (.neg (.num 83784365421486279 22)) (.mul (.rd (.var .T)) (.add (.neg (.num 41119706406342132 25)) (.mul (.rd (.var .T)) (.add (.neg (.num 63369756126269595 29)) (.mul (.num 39359734909867919 33) (.rd (.var .T)))))))))) (.div (.neg (.num 73703758799999996 12)) (.rd (.var .T)))),
  .set (.var .Kc) (.mul (.num 1 0) (.exp (.rd (.var .Kc)))),
  .set (.arr .rev 194) (.div (.mul (.mul (.rd (.arr .C 1)) (.rd (.arr .C 52))) (.rd (.var .kf))) (.rd (.var .Kc)))]

/-- utilities/mechanisms/gri30/lib/src/rxn_rates.c:2350-2361 -/
def rate196 : List CStmt := [
  .set (.var .kf) (.exp (.sub (.num 23718998110500401 15) (.div (.num 69695909732994023 13) (.rd (.var .T))))),
  .set (.arr .fwd 196) (.mul (.mul (.rd (.arr .C 31)) (.rd (.arr .C 5))) (.rd (.var .kf))),
  .ite (.rd (.var .T)) (.num 1000 0) (.var .Kc) (.sub (.add (.add (.num 22472826860000001 16) (.mul (.neg (.num 81372634000000099 17)) (.rd (.var .logT)))) (.mul (.rd (.var .T)) (.add (.num 20177728849999996 19) (.mul (.rd (.var .T)) (.add (.neg (.num 10060496183333333 22)) (.mul (.rd (.var .T)) (.add (.num 5022034850000001 25) (.mul (.neg (.num 12834708900000004 29)) (.rd (.var .T)))))))))) (.div (.neg (.num 95654047300000093 14)) (.rd (.var .T)))) (.sub (.add (.add (.neg (.num 58050453199999987 16)) (.mul (.num 49884480999999958 17) (.rd (.var .logT)))) (.mul (.rd (.var .T)) (.add (.neg (.num 3087880654999999 20)) (.mul (.rd (.var .T)) (.add (.num 50468664333333311 24) (.mul (.rd (.var .T)) (.add (.neg (.num 86161095000000015 28)) (.mul (.num 42582631200000017 32) (.rd (.var .T)))))))))) (.div (.neg (.num 13161278219999986 13)) (.rd (.var .T)))),
  .set (.var .Kc) (.mul (.num 1 0) (.exp (.rd (.var .Kc)))),
  .set (.arr .rev 195) (.div (.mul (.mul (.rd (.arr .C 0)) (.rd (.arr .C 38))) (.rd (.var .kf))) (.rd (.var .Kc)))]

/-- utilities/mechanisms/gri30/lib/src/rxn_rates.c:2362-2373 -/
def rate197 : List CStmt := [
  .set (.var .kf) (.exp (.sub (.num 23795959151636531 15) (.mul (.num 23 2) (.rd (.var .logT))))),
  .set (.arr .fwd 197) (.mul (.mul (.rd (.arr .C 31)) (.rd (.arr .C 35))) (.rd (.var .kf))),
  .ite (.rd (.var .T)) (.num 1000 0) (.var .Kc) (.sub (.add (.add (.num 13796471199999938 17) (.mul (.neg (.num 42069236999999982 17)) (.rd (.var .logT)))) (.mul (.rd (.var .T)) (.add (.num 16670534500000001 19) (.mul (.rd (.var .T)) (.add (.neg (.num 14828761983333334 22)) (.mul (.rd (.var .T)) (.add (.num 71790607250000009 26) (.mul (.neg (.num 14243097999999998 29)) (.rd (.var .T)))))))))) (.div (.neg (.num 49131071340000002 12)) (.rd (.var .T)))) (.sub (.add (.add (.neg (.num 16280877700000014 16)) (.mul (.neg (.num 24770729999999297 18)) (.rd (.var .logT)))) (.mul (.rd (.var .T)) (.add (.neg (.num 24227039200000011 20)) (.mul (.rd (.var .T)) (.add (.num 68663362999999991 24) (.mul (.rd (.var .T)) (.add (.neg (.num 112318288 19)) (.mul (.num 726297175 24) (.rd (.var .T)))))))))) (.div (.neg (.num 49105963300000003 12)) (.rd (.var .T)))),
  .set (.var .Kc) (.mul (.num 1 0) (.exp (.rd (.var .Kc)))),
  .set (.arr .rev 196) (.div (.mul (.mul (.rd (.arr .C 52)) (.rd (.arr .C 4))) (.rd (.var .kf))) (.rd (.var .Kc)))]

/-- utilities/mechanisms/gri30/lib/src/rxn_rates.c:2374-2385 -/
def rate198 : List CStmt := [
  .set (.var .kf) (.exp (.sub (.num 26623163190528903 15) (.mul (.num 45 2) (.rd (.var .logT))))),
  .set (.arr .fwd 198) (.mul (.mul (.rd (.arr .C 31)) (.rd (.arr .C 35))) (.rd (.var .kf))),
  .ite (.rd (.var .T)) (.num 1000 0) (.var .Kc) (.sub (.add (.add (.num 91363695469999993 16) (.mul (.neg (.num 29542345999999999 16)) (.rd (.var .logT)))) (.mul (.rd (.var .T)) (.add (.num 78159560103526673 19) (.mul (.rd (.var .T)) (.add (.neg (.num 3870548766999319 21)) (.mul (.rd (.var .T)) (.add (.num 13780393168584013 25) (.mul (.neg (.num 23492992504638658 29)) (.rd (.var .T)))))))))) (.div (.neg (.num 175098177 4)) (.rd (.var .T)))) (.sub (.add (.add (.neg (.num 16037260723999999 15)) (.mul (.num 12787745099999999 16) (.rd (.var .logT)))) (.mul (.rd (.var .T)) (.add (.num 53038888457851169 21) (.mul (.rd (.var .T)) (.add (.neg (.num 1742629564063419 23)) (.mul (.rd (.var .T)) (.add (.num 10167454387373029 28) (.mul (.neg (.num 11858645090132172 33)) (.rd (.var .T)))))))))) (.div (.neg (.num 18494757899999997 12)) (.rd (.var .T)))),
  .set (.var .Kc) (.mul (.num 1 0) (.exp (.rd (.var .Kc)))),
  .set (.arr .rev 197) (.div (.mul (.mul (.rd (.arr .C 1)) (.rd (.arr .C 37))) (.rd (.var .kf))) (.rd (.var .Kc)))]

/-- utilities/mechanisms/gri30/lib/src/rxn_rates.c:2386-2397 -/
def rate199 : List CStmt := [
  .set (.var .kf) (.num 3000000000 0),
  .set (.arr .fwd 199) (.mul (.mul (.rd (.arr .C 2)) (.rd (.arr .C 32))) (.rd (.var .kf))),
  .ite (.rd (.var .T)) (.num 1000 0) (.var .Kc) (.sub (.add (.add (.neg (.num 27834256799999935 17)) (.mul (.num 11265393000000001 17) (.rd (.var .logT)))) (.mul (.rd (.var .T)) (.add (.num 16479659 10) (.mul (.rd (.var .T)) (.add (.neg (.num 17701681250000001 22)) (.mul (.rd (.var .T)) (.add (.num 86167473416666659 26) (.mul (.neg (.num 17141567050000001 29)) (.rd (.var .T)))))))))) (.div (.neg (.num 55124596399999973 13)) (.rd (.var .T)))) (.sub (.add (.add (.neg (.num 15596965300000001 16)) (.mul (.num 47241758999999961 17) (.rd (.var .logT)))) (.mul (.rd (.var .T)) (.add (.neg (.num 62153068515000002 20)) (.mul (.rd (.var .T)) (.add (.num 98947389850000025 24) (.mul (.rd (.var .T)) (.add (.neg (.num 11384117058333333 27)) (.mul (.num 6464534044999999 31) (.rd (.var .T)))))))))) (.div (.neg (.num 54100311000000002 13)) (.rd (.var .T)))),
  .set (.var .Kc) (.mul (.num 1 0) (.exp (.rd (.var .Kc)))),
  .set (.arr .rev 198) (.div (.mul (.mul (.rd (.arr .C 31)) (.rd (.arr .C 4))) (.rd (.var .kf))) (.rd (.var .Kc)))]

/-- utilities/mechanisms/gri30/lib/src/rxn_rates.c:2398-2409 -/
def rate200 : List CStmt := [
  .set (.var .kf) (.num 39000000000 0),
  .set (.arr .fwd 200) (.mul (.mul (.rd (.arr .C 2)) (.rd (.arr .C 32))) (.rd (.var .kf))),
  .ite (.rd (.var .T)) (.num 1000 0) (.var .Kc) (.sub (.add (.add (.neg (.num 26815373299999834 17)) (.mul (.neg (.num 33877840000000026 17)) (.rd (.var .logT)))) (.mul (.rd (.var .T)) (.add (.neg (.num 14207987964733352 20)) (.mul (.rd (.var .T)) (.add (.num 78721803966734651 23) (.mul (.rd (.var .T)) (.add (.neg (.num 44979233814159869 26)) (.mul (.num 89436294453613366 30) (.rd (.var .T)))))))))) (.div (.neg (.num 13986212300000003 12)) (.rd (.var .T)))) (.sub (.add (.add (.neg (.num 32201530839999988 16)) (.mul (.num 75088029999999417 18) (.rd (.var .logT)))) (.mul (.rd (.var .T)) (.add (.num 18653589530785134 20) (.mul (.rd (.var .T)) (.add (.num 17743636209365799 24) (.mul (.rd (.var .T)) (.add (.neg (.num 57943467362626953 28)) (.mul (.num 32494594140986786 32) (.rd (.var .T)))))))))) (.div (.neg (.num 14165294199999997 12)) (.rd (.var .T)))),
  .set (.var .Kc) (.mul (.num 1 0) (.exp (.rd (.var .Kc)))),
  .set (.arr .rev 199) (.div (.mul (.mul (.rd (.arr .C 1)) (.rd (.arr .C 38))) (.rd (.var .kf))) (.rd (.var .Kc)))]

/-- utilities/mechanisms/gri30/lib/src/rxn_rates.c:2410-2421 -/
def rate201 : List CStmt := [
  .set (.var .kf) (.exp (.sub (.num 24412145291060348 15) (.div (.num 18367514117359435 13) (.rd (.var .T))))),
  .set (.arr .fwd 201) (.mul (.mul (.rd (.arr .C 1)) (.rd (.arr .C 32))) (.rd (.var .kf))),
  .ite (.rd (.var .T)) (.num 1000 0) (.var .Kc) (.sub (.add (.add (.num 39866266510000004 16) (.mul (.neg (.num 8667632799999998 16)) (.rd (.var .logT)))) (.mul (.rd (.var .T)) (.add (.num 51992256146473331 19) (.mul (.rd (.var .T)) (.add (.neg (.num 46790056996673468 22)) (.mul (.rd (.var .T)) (.add (.num 23541977748082654 25) (.mul (.neg (.num 50279430045361343 29)) (.rd (.var .T)))))))))) (.div (.neg (.num 63968760729999958 13)) (.rd (.var .T)))) (.sub (.add (.add (.neg (.num 43242066860000001 16)) (.mul (.num 78622988999999999 17) (.rd (.var .logT)))) (.mul (.rd (.var .T)) (.add (.neg (.num 96343382500785129 20)) (.mul (.rd (.var .T)) (.add (.num 16809738864063421 23) (.mul (.rd (.var .T)) (.add (.neg (.num 19853951522070637 27)) (.mul (.num 11220852250901322 31) (.rd (.var .T)))))))))) (.div (.neg (.num 64749278220000015 13)) (.rd (.var .T)))),
  .set (.var .Kc) (.mul (.num 1 0) (.exp (.rd (.var .Kc)))),
  .set (.arr .rev 200) (.div (.mul (.mul (.rd (.arr .C 0)) (.rd (.arr .C 31))) (.rd (.var .kf))) (.rd (.var .Kc)))]

/-- utilities/mechanisms/gri30/lib/src/rxn_rates.c:2422-2433 -/
def rate202 : List CStmt := [
  .set (.var .kf) (.exp (.sub (.add (.num 11407564949312402 15) (.mul (.num 15 1) (.rd (.var .logT)))) (.div (.neg (.num 23148099983521482 14)) (.rd (.var .T))))),
  .set (.arr .fwd 202) (.mul (.mul (.rd (.arr .C 32)) (.rd (.arr .C 4))) (.rd (.var .kf))),
  .ite (.rd (.var .T)) (.num 1000 0) (.var .Kc) (.sub (.add (.add (.num 17495328000000008 16) (.mul (.neg (.num 50446926999999997 17)) (.rd (.var .logT)))) (.mul (.rd (.var .T)) (.add (.num 13914069500000001 19) (.mul (.rd (.var .T)) (.add (.neg (.num 11155699166666667 22)) (.mul (.rd (.var .T)) (.add (.num 54052721750000006 26) (.mul (.neg (.num 1135952465 22)) (.rd (.var .T)))))))))) (.div (.neg (.num 13914088259999999 12)) (.rd (.var .T)))) (.sub (.add (.add (.neg (.num 1796179200000001 16)) (.mul (.neg (.num 10994448000000023 17)) (.rd (.var .logT)))) (.mul (.rd (.var .T)) (.add (.neg (.num 12448843799999973 20)) (.mul (.rd (.var .T)) (.add (.num 36424970666666685 24) (.mul (.rd (.var .T)) (.add (.neg (.num 56480716999999996 28)) (.mul (.num 37475144999999996 32) (.rd (.var .T)))))))))) (.div (.neg (.num 13914063099999999 12)) (.rd (.var .T)))),
  .set (.var .Kc) (.mul (.num 1 0) (.exp (.rd (.var .Kc)))),
  .set (.arr .rev 201) (.div (.mul (.mul (.rd (.arr .C 31)) (.rd (.arr .C 5))) (.rd (.var .kf))) (.rd (.var .Kc)))]

/-- utilities/mechanisms/gri30/lib/src/rxn_rates.c:2434-2445 -/
def rate203 : List CStmt := [
  .set (.var .kf) (.num 330000000 0),
  .set (.arr .fwd 203) (.mul (.rd (.arr .C 34)) (.rd (.var .kf))),
  .ite (.rd (.var .T)) (.num 1000 0) (.var .Kc) (.sub (.add (.add (.neg (.num 9282361529999994 16)) (.mul (.num 45398429999999967 17) (.rd (.var .logT)))) (.mul (.rd (.var .T)) (.add (.num 31289738003526663 19) (.mul (.rd (.var .T)) (.add (.neg (.num 40037801669993201 22)) (.mul (.rd (.var .T)) (.add (.num 22806649168584014 25) (.mul (.neg (.num 51959039504638663 29)) (.rd (.var .T)))))))))) (.div (.neg (.num 43392130000000034 13)) (.rd (.var .T)))) (.sub (.add (.add (.neg (.num 59654722400000004 17)) (.mul (.num 6598856099999999 16) (.rd (.var .logT)))) (.mul (.rd (.var .T)) (.add (.neg (.num 70176571154214869 20)) (.mul (.rd (.var .T)) (.add (.num 78864336026032444 24) (.mul (.rd (.var .T)) (.add (.neg (.num 56212970612626955 28)) (.mul (.num 16692727490986789 32) (.rd (.var .T)))))))))) (.div (.neg (.num 40998348000000005 13)) (.rd (.var .T)))),
  .set (.var .Kc) (.mul (.num 12186597134166982 15) (.exp (.rd (.var .Kc)))),
  .set (.arr .rev 202) (.div (.mul (.mul (.rd (.arr .C 1)) (.rd (.arr .C 52))) (.rd (.var .kf))) (.rd (.var .Kc)))]

/-- utilities/mechanisms/gri30/lib/src/rxn_rates.c:2446-2457 -/
def rate204 : List CStmt := [
  .set (.var .kf) (.exp (.sub (.sub (.num 25590800287401994 15) (.mul (.num 11 2) (.rd (.var .logT)))) (.div (.num 25060334329986299 13) (.rd (.var .T))))),
  .set (.arr .fwd 204) (.mul (.rd (.arr .C 34)) (.rd (.var .kf))),
  .ite (.rd (.var .T)) (.num 1000 0) (.var .Kc) (.sub (.add (.add (.neg (.num 9282361529999994 16)) (.mul (.num 45398429999999967 17) (.rd (.var .logT)))) (.mul (.rd (.var .T)) (.add (.num 31289738003526663 19) (.mul (.rd (.var .T)) (.add (.neg (.num 40037801669993201 22)) (.mul (.rd (.var .T)) (.add (.num 22806649168584014 25) (.mul (.neg (.num 51959039504638663 29)) (.rd (.var .T)))))))))) (.div (.neg (.num 43392130000000034 13)) (.rd (.var .T)))) (.sub (.add (.add (.neg (.num 59654722400000004 17)) (.mul (.num 6598856099999999 16) (.rd (.var .logT)))) (.mul (.rd (.var .T)) (.add (.neg (.num 70176571154214869 20)) (.mul (.rd (.var .T)) (.add (.num 78864336026032444 24) (.mul (.rd (.var .T)) (.add (.neg (.num 56212970612626955 28)) (.mul (.num 16692727490986789 32) (.rd (.var .T)))))))))) (.div (.neg (.num 40998348000000005 13)) (.rd (.var .T)))),
  .set (.var .Kc) (.mul (.num 12186597134166982 15) (.exp (.rd (.var .Kc)))),
  .set (.arr .rev 203) (.div (.mul (.mul (.rd (.arr .C 1)) (.rd (.arr .C 52))) (.rd (.var .kf))) (.rd (.var .Kc)))]

/-- utilities/mechanisms/gri30/lib/src/rxn_rates.c:2458-2469 -/
def rate205 : List CStmt := [
  .set (.var .kf) (.num 5000000000 0),
  .set (.arr .fwd 205) (.mul (.mul (.rd (.arr .C 3)) (.rd (.arr .C 34))) (.rd (.var .kf))),
  .ite (.rd (.var .T)) (.num 1000 0) (.var .Kc) (.sub (.add (.add (.num 15580917700000008 16) (.mul (.neg (.num 52667405 8)) (.rd (.var .logT)))) (.mul (.rd (.var .T)) (.add (.num 22527806249999999 19) (.mul (.rd (.var .T)) (.add (.neg (.num 21186156516666671 22)) (.mul (.rd (.var .T)) (.add (.num 10644070574999998 25) (.mul (.neg (.num 21716425149999994 29)) (.rd (.var .T)))))))))) (.div (.neg (.num 28454121300000003 12)) (.rd (.var .T)))) (.sub (.add (.add (.neg (.num 52666499999999949 18)) (.mul (.neg (.num 10544133999999961 17)) (.rd (.var .logT)))) (.mul (.rd (.var .T)) (.add (.neg (.num 32339940499999994 20)) (.mul (.rd (.var .T)) (.add (.num 9958241983333331 23) (.mul (.rd (.var .T)) (.add (.neg (.num 13556645416666662 27)) (.mul (.num 71097354499999995 32) (.rd (.var .T)))))))))) (.div (.neg (.num 28373180267 6)) (.rd (.var .T)))),
  .set (.var .Kc) (.mul (.num 1 0) (.exp (.rd (.var .Kc)))),
  .set (.arr .rev 204) (.div (.mul (.mul (.rd (.arr .C 52)) (.rd (.arr .C 6))) (.rd (.var .kf))) (.rd (.var .Kc)))]

/-- utilities/mechanisms/gri30/lib/src/rxn_rates.c:2470-2481 -/
def rate206 : List CStmt := [
  .set (.var .kf) (.num 25000000000 0),
  .set (.arr .fwd 206) (.mul (.mul (.rd (.arr .C 2)) (.rd (.arr .C 34))) (.rd (.var .kf))),
  .ite (.rd (.var .T)) (.num 1000 0) (.var .Kc) (.sub (.add (.add (.neg (.num 96116054799999961 17)) (.mul (.neg (.num 22226737000000041 17)) (.rd (.var .logT)))) (.mul (.rd (.var .T)) (.add (.num 35679744599999997 19) (.mul (.rd (.var .T)) (.add (.neg (.num 43413010916666667 22)) (.mul (.rd (.var .T)) (.add (.num 24679093258333334 25) (.mul (.neg (.num 55701764549999998 29)) (.rd (.var .T)))))))))) (.div (.neg (.num 5532005154 5)) (.rd (.var .T)))) (.sub (.add (.add (.num 15190262699999999 16) (.mul (.neg (.num 31664750999999969 17)) (.rd (.var .logT)))) (.mul (.rd (.var .T)) (.add (.neg (.num 38456378515000023 20)) (.mul (.rd (.var .T)) (.add (.num 92957128183333311 24) (.mul (.rd (.var .T)) (.add (.neg (.num 12115327974999999 27)) (.mul (.num 69257228449999995 32) (.rd (.var .T)))))))))) (.div (.neg (.num 54932416799999999 12)) (.rd (.var .T)))),
  .set (.var .Kc) (.mul (.num 1 0) (.exp (.rd (.var .Kc)))),
  .set (.arr .rev 205) (.div (.mul (.mul (.rd (.arr .C 52)) (.rd (.arr .C 4))) (.rd (.var .kf))) (.rd (.var .Kc)))]

/-- utilities/mechanisms/gri30/lib/src/rxn_rates.c:2482-2493 -/
def rate207 : List CStmt := [
  .set (.var .kf) (.num 70000000000 0),
  .set (.arr .fwd 207) (.mul (.mul (.rd (.arr .C 2)) (.rd (.arr .C 34))) (.rd (.var .kf))),
  .ite (.rd (.var .T)) (.num 1000 0) (.var .Kc) (.sub (.add (.add (.neg (.num 10991252599999992 16)) (.mul (.num 19842499999999896 17) (.rd (.var .logT)))) (.mul (.rd (.var .T)) (.add (.num 19009210099999998 19) (.mul (.rd (.var .T)) (.add (.neg (.num 28584248933333337 22)) (.mul (.rd (.var .T)) (.add (.num 17500032533333333 25) (.mul (.neg (.num 4145866655 22)) (.rd (.var .T)))))))))) (.div (.neg (.num 61889802000000018 13)) (.rd (.var .T)))) (.sub (.add (.add (.num 31471140400000013 16) (.mul (.neg (.num 29187678000000039 17)) (.rd (.var .logT)))) (.mul (.rd (.var .T)) (.add (.neg (.num 14229339315000012 20)) (.mul (.rd (.var .T)) (.add (.num 24293765183333307 24) (.mul (.rd (.var .T)) (.add (.neg (.num 88349917499999914 29)) (.mul (.neg (.num 33724890499999951 33)) (.rd (.var .T)))))))))) (.div (.neg (.num 58264534999999996 13)) (.rd (.var .T)))),
  .set (.var .Kc) (.mul (.num 1 0) (.exp (.rd (.var .Kc)))),
  .set (.arr .rev 206) (.div (.mul (.mul (.rd (.arr .C 31)) (.rd (.arr .C 35))) (.rd (.var .kf))) (.rd (.var .Kc)))]

/-- utilities/mechanisms/gri30/lib/src/rxn_rates.c:2494-2505 -/
def rate208 : List CStmt := [
  .set (.var .kf) (.num 50000000000 0),
  .set (.arr .fwd 208) (.mul (.mul (.rd (.arr .C 1)) (.rd (.arr .C 34))) (.rd (.var .kf))),
  .ite (.rd (.var .T)) (.num 1000 0) (.var .Kc) (.sub (.add (.add (.num 33038086710000005 16) (.mul (.neg (.num 12016845800000002 16)) (.rd (.var .logT)))) (.mul (.rd (.var .T)) (.add (.num 71192341746473334 19) (.mul (.rd (.var .T)) (.add (.neg (.num 72501386663340136 22)) (.mul (.rd (.var .T)) (.add (.num 39604323664749323 25) (.mul (.neg (.num 88839627545361345 29)) (.rd (.var .T)))))))))) (.div (.neg (.num 56204467972999999 12)) (.rd (.var .T)))) (.sub (.add (.add (.neg (.num 12454838859999997 16)) (.mul (.neg (.num 28352099999997549 19)) (.rd (.var .logT)))) (.mul (.rd (.var .T)) (.add (.neg (.num 7264669250078514 19)) (.mul (.rd (.var .T)) (.add (.num 1621071269739675 22) (.mul (.rd (.var .T)) (.add (.neg (.num 20585162438737304 27)) (.mul (.num 11682041050901321 31) (.rd (.var .T)))))))))) (.div (.neg (.num 55997313521999997 12)) (.rd (.var .T)))),
  .set (.var .Kc) (.mul (.num 1 0) (.exp (.rd (.var .Kc)))),
  .set (.arr .rev 207) (.div (.mul (.mul (.rd (.arr .C 0)) (.rd (.arr .C 52))) (.rd (.var .kf))) (.rd (.var .Kc)))]

/-- utilities/mechanisms/gri30/lib/src/rxn_rates.c:2506-2517 -/
def rate209 : List CStmt := [
  .set (.var .kf) (.num 20000000000 0),
  .set (.arr .fwd 209) (.mul (.mul (.rd (.arr .C 34)) (.rd (.arr .C 4))) (.rd (.var .kf))),
  .ite (.rd (.var .T)) (.num 1000 0) (.var .Kc) (.sub (.add (.add (.num 1066714820000001 15) (.mul (.neg (.num 8393905699999995 16)) (.rd (.var .logT)))) (.mul (.rd (.var .T)) (.add (.num 33114155099999995 19) (.mul (.rd (.var .T)) (.add (.neg (.num 36867028833333335 22)) (.mul (.rd (.var .T)) (.add (.num 2146761809166667 24) (.mul (.neg (.num 49919722149999996 29)) (.rd (.var .T)))))))))) (.div (.neg (.num 63721680160000004 12)) (.rd (.var .T)))) (.sub (.add (.add (.num 28991048799999999 16) (.mul (.neg (.num 89900957999999997 17)) (.rd (.var .logT)))) (.mul (.rd (.var .T)) (.add (.num 11247846200000005 20) (.mul (.rd (.var .T)) (.add (.num 30434708999999984 24) (.mul (.rd (.var .T)) (.add (.neg (.num 6379282616666666 27)) (.mul (.num 42087033000000001 32) (.rd (.var .T)))))))))) (.div (.neg (.num 63436448799999998 12)) (.rd (.var .T)))),
  .set (.var .Kc) (.mul (.num 1 0) (.exp (.rd (.var .Kc)))),
  .set (.arr .rev 208) (.div (.mul (.mul (.rd (.arr .C 5)) (.rd (.arr .C 52))) (.rd (.var .kf))) (.rd (.var .Kc)))]

/-- utilities/mechanisms/gri30/lib/src/rxn_rates.c:2518-2529 -/
def rate210 : List CStmt := [
  .set (.var .kf) (.num 25000000000 0),
  .set (.arr .fwd 210) (.mul (.mul (.rd (.arr .C 12)) (.rd (.arr .C 34))) (.rd (.var .kf))),
  .ite (.rd (.var .T)) (.num 1000 0) (.var .Kc) (.sub (.add (.add (.neg (.num 57037071199999989 16)) (.mul (.num 43027002999999997 17) (.rd (.var .logT)))) (.mul (.rd (.var .T)) (.add (.neg (.num 47119914749999998 19)) (.mul (.rd (.var .T)) (.add (.num 32378600566666669 22) (.mul (.rd (.var .T)) (.add (.neg (.num 11862624458333336 25)) (.mul (.num 18668651799999997 29) (.rd (.var .T)))))))))) (.div (.neg (.num 565045193 4)) (.rd (.var .T)))) (.sub (.add (.add (.num 14518248135000002 15) (.mul (.neg (.num 30509806250000002 16)) (.rd (.var .logT)))) (.mul (.rd (.var .T)) (.add (.num 23737574650000001 19) (.mul (.rd (.var .T)) (.add (.neg (.num 3787547683333332 22)) (.mul (.rd (.var .T)) (.add (.num 46648762166666668 27) (.mul (.neg (.num 25880622800000005 31)) (.rd (.var .T)))))))))) (.div (.neg (.num 55817423589999999 12)) (.rd (.var .T)))),
  .set (.var .Kc) (.mul (.num 1 0) (.exp (.rd (.var .Kc)))),
  .set (.arr .rev 209) (.div (.mul (.mul (.rd (.arr .C 52)) (.rd (.arr .C 13))) (.rd (.var .kf))) (.rd (.var .Kc)))]

/-- utilities/mechanisms/gri30/lib/src/rxn_rates.c:2530-2541 -/
def rate211 : List CStmt := [
  .set (.var .kf) (.exp (.sub (.sub (.num 31433229255349488 15) (.mul (.num 132 2) (.rd (.var .logT)))) (.div (.num 37238247799578033 14) (.rd (.var .T))))),
  .set (.arr .fwd 211) (.mul (.mul (.rd (.arr .C 1)) (.rd (.arr .C 35))) (.rd (.var .kf))),
  .ite (.rd (.var .T)) (.num 1000 0) (.var .Kc) (.sub (.add (.add (.num 21006628530000002 16) (.mul (.neg (.num 11849847000000002 16)) (.rd (.var .logT)))) (.mul (.rd (.var .T)) (.add (.neg (.num 51532055035266588 20)) (.mul (.rd (.var .T)) (.add (.num 12386975003326531 22) (.mul (.rd (.var .T)) (.add (.neg (.num 650079883525068 24)) (.mul (.num 13709401504638663 29) (.rd (.var .T)))))))))) (.div (.neg (.num 237699859 4)) (.rd (.var .T)))) (.sub (.add (.add (.num 54651077239999992 16) (.mul (.neg (.num 178135471 8)) (.rd (.var .logT)))) (.mul (.rd (.var .T)) (.add (.num 11516508115421487 19) (.mul (.rd (.var .T)) (.add (.neg (.num 59387886026032471 24)) (.mul (.rd (.var .T)) (.add (.neg (.num 99817252207063742 29)) (.mul (.num 19201251209013214 32) (.rd (.var .T)))))))))) (.div (.neg (.num 23644052499999998 12)) (.rd (.var .T)))),
  .set (.var .Kc) (.mul (.num 82057360967184814 18) (.exp (.rd (.var .Kc)))),
  .set (.arr .rev 210) (.div (.mul (.rd (.arr .C 38)) (.rd (.var .kf))) (.rd (.var .Kc)))]

/-- utilities/mechanisms/gri30/lib/src/rxn_rates.c:2542-2553 -/
def rate212 : List CStmt := [
  .set (.var .kf) (.num 25000000000 0),
  .set (.arr .fwd 212) (.mul (.mul (.rd (.arr .C 38)) (.rd (.arr .C 2))) (.rd (.var .kf))),
  .ite (.rd (.var .T)) (.num 1000 0) (.var .Kc) (.sub (.add (.add (.neg (.num 21335872480000009 16)) (.mul (.num 5087330299999997 16) (.rd (.var .logT)))) (.mul (.rd (.var .T)) (.add (.num 95432120999999932 20) (.mul (.rd (.var .T)) (.add (.neg (.num 15762184249999999 22)) (.mul (.rd (.var .T)) (.add (.num 8373242924999999 25) (.mul (.neg (.num 17452126549999997 29)) (.rd (.var .T)))))))))) (.div (.neg (.num 27210852640000001 12)) (.rd (.var .T)))) (.sub (.add (.add (.neg (.num 33495342299999993 16)) (.mul (.num 80482158999999953 17) (.rd (.var .logT)))) (.mul (.rd (.var .T)) (.add (.neg (.num 83444888515000007 20)) (.mul (.rd (.var .T)) (.add (.num 73480678183333338 24) (.mul (.rd (.var .T)) (.add (.neg (.num 54958583916666665 28)) (.mul (.num 3336324975 25) (.rd (.var .T)))))))))) (.div (.neg (.num 27188529499999997 12)) (.rd (.var .T)))),
  .set (.var .Kc) (.mul (.num 1 0) (.exp (.rd (.var .Kc)))),
  .set (.arr .rev 211) (.div (.mul (.mul (.rd (.arr .C 35)) (.rd (.arr .C 4))) (.rd (.var .kf))) (.rd (.var .Kc)))]

/-- utilities/mechanisms/gri30/lib/src/rxn_rates.c:2554-2565 -/
def rate213 : List CStmt := [
  .set (.var .kf) (.exp (.sub (.add (.num 20617905321288585 15) (.mul (.num 72 2) (.rd (.var .logT)))) (.div (.num 33212491280704734 14) (.rd (.var .T))))),
  .set (.arr .fwd 213) (.mul (.mul (.rd (.arr .C 1)) (.rd (.arr .C 38))) (.rd (.var .kf))),
  .ite (.rd (.var .T)) (.num 1000 0) (.var .Kc) (.sub (.add (.add (.num 21313819709999997 16) (.mul (.neg (.num 47068417999999923 17)) (.rd (.var .logT)))) (.mul (.rd (.var .T)) (.add (.num 4505580924647333 18) (.mul (.rd (.var .T)) (.add (.neg (.num 44850559996673466 22)) (.mul (.rd (.var .T)) (.add (.num 23298473331415985 25) (.mul (.neg (.num 50589989545361344 29)) (.rd (.var .T)))))))))) (.div (.neg (.num 28095269072999996 12)) (.rd (.var .T)))) (.sub (.add (.add (.neg (.num 61140443859999998 16)) (.mul (.num 11186338899999995 16) (.rd (.var .logT)))) (.mul (.rd (.var .T)) (.add (.neg (.num 11763520250078516 19)) (.mul (.rd (.var .T)) (.add (.num 14263067697396752 23) (.mul (.rd (.var .T)) (.add (.neg (.num 13965692855403972 27)) (.mul (.num 80926431809013212 32) (.rd (.var .T)))))))))) (.div (.neg (.num 28253426222000002 12)) (.rd (.var .T)))),
  .set (.var .Kc) (.mul (.num 1 0) (.exp (.rd (.var .Kc)))),
  .set (.arr .rev 212) (.div (.mul (.mul (.rd (.arr .C 0)) (.rd (.arr .C 35))) (.rd (.var .kf))) (.rd (.var .Kc)))]

/-- utilities/mechanisms/gri30/lib/src/rxn_rates.c:2566-2577 -/
def rate214 : List CStmt := [
  .set (.var .kf) (.exp (.sub (.add (.num 94727046364436731 16) (.mul (.num 19 1) (.rd (.var .logT)))) (.div (.neg (.num 47805858661620448 14)) (.rd (.var .T))))),
  .set (.arr .fwd 214) (.mul (.mul (.rd (.arr .C 38)) (.rd (.arr .C 4))) (.rd (.var .kf))),
  .ite (.rd (.var .T)) (.num 1000 0) (.var .Kc) (.sub (.add (.add (.neg (.num 10571187999999943 17)) (.mul (.neg (.num 1083901699999994 16)) (.rd (.var .logT)))) (.mul (.rd (.var .T)) (.add (.num 69776225999999939 20) (.mul (.rd (.var .T)) (.add (.neg (.num 92162021666666634 23)) (.mul (.rd (.var .T)) (.add (.num 51617677583333336 26) (.mul (.neg (.num 1167008415 22)) (.rd (.var .T)))))))))) (.div (.neg (.num 3561248126 5)) (.rd (.var .T)))) (.sub (.add (.add (.neg (.num 19694556200000002 16)) (.mul (.num 22245952000000013 17) (.rd (.var .logT)))) (.mul (.rd (.var .T)) (.add (.neg (.num 33740663799999989 20)) (.mul (.rd (.var .T)) (.add (.num 10958259000000014 24) (.mul (.rd (.var .T)) (.add (.num 24018696666666694 29) (.mul (.num 61930543000000063 33) (.rd (.var .T)))))))))) (.div (.neg (.num 35692561500000003 12)) (.rd (.var .T)))),
  .set (.var .Kc) (.mul (.num 1 0) (.exp (.rd (.var .Kc)))),
  .set (.arr .rev 213) (.div (.mul (.mul (.rd (.arr .C 5)) (.rd (.arr .C 35))) (.rd (.var .kf))) (.rd (.var .Kc)))]

/-- utilities/mechanisms/gri30/lib/src/rxn_rates.c:2578-2589 -/
def rate215 : List CStmt := [
  .set (.var .kf) (.exp (.sub (.num 23025850929940457 15) (.div (.num 65418543431691141 13) (.rd (.var .T))))),
  .set (.arr .fwd 215) (.mul (.mul (.rd (.arr .C 3)) (.rd (.arr .C 38))) (.rd (.var .kf))),
  .ite (.rd (.var .T)) (.num 1000 0) (.var .Kc) (.sub (.add (.add (.num 38566506999999994 17) (.mul (.num 2043263500000001 16) (.rd (.var .logT)))) (.mul (.rd (.var .T)) (.add (.neg (.num 3608726249999996 19)) (.mul (.rd (.var .T)) (.add (.num 64646701500000039 23) (.mul (.rd (.var .T)) (.add (.neg (.num 56617797583333357 26)) (.mul (.num 16533212850000012 29) (.rd (.var .T)))))))))) (.div (.neg (.num 34492240000000129 14)) (.rd (.var .T)))) (.sub (.add (.add (.neg (.num 4921227 6)) (.mul (.num 10160277600000005 16) (.rd (.var .logT)))) (.mul (.rd (.var .T)) (.add (.neg (.num 77328450499999999 20)) (.mul (.rd (.var .T)) (.add (.num 80105969833333337 24) (.mul (.rd (.var .T)) (.add (.neg (.num 6937175833333329 27)) (.mul (.num 35203375799999995 32) (.rd (.var .T)))))))))) (.div (.neg (.num 62929296700000123 14)) (.rd (.var .T)))),
  .set (.var .Kc) (.mul (.num 1 0) (.exp (.rd (.var .Kc)))),
  .set (.arr .rev 214) (.div (.mul (.mul (.rd (.arr .C 6)) (.rd (.arr .C 35))) (.rd (.var .kf))) (.rd (.var .Kc)))]

/-- utilities/mechanisms/gri30/lib/src/rxn_rates.c:2590-2601 -/
def rate216 : List CStmt := [
  .set (.var .kf) (.num 77000000000 0),
  .set (.arr .fwd 216) (.mul (.mul (.rd (.arr .C 39)) (.rd (.arr .C 2))) (.rd (.var .kf))),
  .ite (.rd (.var .T)) (.num 1000 0) (.var .Kc) (.sub (.add (.add (.num 23715537499999999 16) (.mul (.neg (.num 70166873000000063 17)) (.rd (.var .logT)))) (.mul (.rd (.var .T)) (.add (.num 1812239215 12) (.mul (.rd (.var .T)) (.add (.neg (.num 12950912216666667 22)) (.mul (.rd (.var .T)) (.add (.num 61251961283333326 26) (.mul (.neg (.num 12763903245000001 29)) (.rd (.var .T)))))))))) (.div (.neg (.num 3907004819999999 11)) (.rd (.var .T)))) (.sub (.add (.add (.num 60814713499999993 16) (.mul (.neg (.num 11842727700000002 16)) (.rd (.var .logT)))) (.mul (.rd (.var .T)) (.add (.num 11399707093500001 19) (.mul (.rd (.var .T)) (.add (.neg (.num 24280962665000002 23)) (.mul (.rd (.var .T)) (.add (.num 28245736574999998 27) (.mul (.neg (.num 14021312005000001 31)) (.rd (.var .T)))))))))) (.div (.neg (.num 38771866500000004 12)) (.rd (.var .T)))),
  .set (.var .Kc) (.mul (.num 1 0) (.exp (.rd (.var .Kc)))),
  .set (.arr .rev 215) (.div (.mul (.mul (.rd (.arr .C 14)) (.rd (.arr .C 30))) (.rd (.var .kf))) (.rd (.var .Kc)))]

/-- utilities/mechanisms/gri30/lib/src/rxn_rates.c:2602-2613 -/
def rate217 : List CStmt := [
  .set (.var .kf) (.num 40000000000 0),
  .set (.arr .fwd 217) (.mul (.mul (.rd (.arr .C 39)) (.rd (.arr .C 4))) (.rd (.var .kf))),
  .ite (.rd (.var .T)) (.num 1000 0) (.var .Kc) (.sub (.add (.add (.num 75052274350000001 16) (.mul (.neg (.num 227801973 8)) (.rd (.var .logT)))) (.mul (.rd (.var .T)) (.add (.num 60809997953526667 19) (.mul (.rd (.var .T)) (.add (.neg (.num 25248082519993201 22)) (.mul (.rd (.var .T)) (.add (.num 74983274685840126 26) (.mul (.neg (.num 11155853204638662 29)) (.rd (.var .T)))))))))) (.div (.neg (.num 15167283659999999 12)) (.rd (.var .T)))) (.sub (.add (.add (.neg (.num 11067721453999999 15)) (.mul (.num 81331633999999964 17) (.rd (.var .logT)))) (.mul (.rd (.var .T)) (.add (.num 85664779295785128 20) (.mul (.rd (.var .T)) (.add (.neg (.num 21731609697396752 23)) (.mul (.rd (.var .T)) (.add (.num 25374078072070638 27) (.mul (.neg (.num 12626227000901322 31)) (.rd (.var .T)))))))))) (.div (.neg (.num 15917062100000003 12)) (.rd (.var .T)))),
  .set (.var .Kc) (.mul (.num 1 0) (.exp (.rd (.var .Kc)))),
  .set (.arr .rev 216) (.div (.mul (.mul (.rd (.arr .C 1)) (.rd (.arr .C 46))) (.rd (.var .kf))) (.rd (.var .Kc)))]

/-- utilities/mechanisms/gri30/lib/src/rxn_rates.c:2614-2625 -/
def rate218 : List CStmt := [
  .set (.var .kf) (.exp (.sub (.num 22802707378626248 15) (.div (.num 37540179538493535 13) (.rd (.var .T))))),
  .set (.arr .fwd 218) (.mul (.mul (.rd (.arr .C 5)) (.rd (.arr .C 39))) (.rd (.var .kf))),
  .ite (.rd (.var .T)) (.num 1000 0) (.var .Kc) (.sub (.add (.add (.num 72416207799999999 16) (.mul (.neg (.num 15605716300000005 16)) (.rd (.var .logT)))) (.mul (.rd (.var .T)) (.add (.num 53208999249999998 19) (.mul (.rd (.var .T)) (.add (.neg (.num 28997540666666668 22)) (.mul (.rd (.var .T)) (.add (.num 10011957933333334 25) (.mul (.neg (.num 14762313550000001 29)) (.rd (.var .T)))))))))) (.div (.neg (.num 30868997399999935 13)) (.rd (.var .T)))) (.sub (.add (.add (.neg (.num 18165278799999998 16)) (.mul (.num 11515388000000026 17) (.rd (.var .logT)))) (.mul (.rd (.var .T)) (.add (.num 73724185049999988 20) (.mul (.rd (.var .T)) (.add (.neg (.num 17828343233333334 23)) (.mul (.rd (.var .T)) (.add (.num 20328767283333333 27) (.mul (.neg (.num 96460179500000001 32)) (.rd (.var .T)))))))))) (.div (.neg (.num 3265941899999998 12)) (.rd (.var .T)))),
  .set (.var .Kc) (.mul (.num 1 0) (.exp (.rd (.var .Kc)))),
  .set (.arr .rev 217) (.div (.mul (.mul (.rd (.arr .C 40)) (.rd (.arr .C 4))) (.rd (.var .kf))) (.rd (.var .Kc)))]

/-- utilities/mechanisms/gri30/lib/src/rxn_rates.c:2626-2637 -/
def rate219 : List CStmt := [
  .set (.var .kf) (.exp (.sub (.num 22538090579105461 15) (.div (.neg (.num 22141660853803157 14)) (.rd (.var .T))))),
  .set (.arr .fwd 219) (.mul (.mul (.rd (.arr .C 39)) (.rd (.arr .C 3))) (.rd (.var .kf))),
  .ite (.rd (.var .T)) (.num 1000 0) (.var .Kc) (.sub (.add (.add (.num 53644163899999997 16) (.mul (.neg (.num 14001935599999999 16)) (.rd (.var .logT)))) (.mul (.rd (.var .T)) (.add (.num 47390486950000003 19) (.mul (.rd (.var .T)) (.add (.neg (.num 22891915249999997 22)) (.mul (.rd (.var .T)) (.add (.num 72250737333333334 26) (.mul (.neg (.num 9990623000000001 29)) (.rd (.var .T)))))))))) (.div (.neg (.num 68396602399999974 13)) (.rd (.var .T)))) (.sub (.add (.add (.neg (.num 66930056899999997 16)) (.mul (.num 6930869400000006 16) (.rd (.var .logT)))) (.mul (.rd (.var .T)) (.add (.num 34633183565000011 20) (.mul (.rd (.var .T)) (.add (.neg (.num 62912707016666668 24)) (.mul (.rd (.var .T)) (.add (.neg (.num 24546240833333437 29)) (.mul (.num 46944497049999995 32) (.rd (.var .T)))))))))) (.div (.neg (.num 72260281800000066 13)) (.rd (.var .T)))),
  .set (.var .Kc) (.mul (.num 1 0) (.exp (.rd (.var .Kc)))),
  .set (.arr .rev 218) (.div (.mul (.mul (.rd (.arr .C 2)) (.rd (.arr .C 46))) (.rd (.var .kf))) (.rd (.var .Kc)))]

/-- utilities/mechanisms/gri30/lib/src/rxn_rates.c:2638-2649 -/
def rate220 : List CStmt := [
  .set (.var .kf) (.exp (.sub (.add (.num 56869753563398202 16) (.mul (.num 245 2) (.rd (.var .logT)))) (.div (.num 11272118252845244 13) (.rd (.var .T))))),
  .set (.arr .fwd 220) (.mul (.mul (.rd (.arr .C 0)) (.rd (.arr .C 39))) (.rd (.var .kf))),
  .ite (.rd (.var .T)) (.num 1000 0) (.var .Kc) (.sub (.add (.add (.num 50045269289999998 16) (.mul (.neg (.num 11982776200000003 16)) (.rd (.var .logT)))) (.mul (.rd (.var .T)) (.add (.num 1513081260352667 18) (.mul (.rd (.var .T)) (.add (.num 66368171633401331 23) (.mul (.rd (.var .T)) (.add (.neg (.num 81247476397493195 26)) (.mul (.num 2415759184536134 28) (.rd (.var .T)))))))))) (.div (.neg (.num 10604111926999998 12)) (.rd (.var .T)))) (.sub (.add (.add (.num 23280608859999998 16) (.mul (.neg (.num 78102048999999996 17)) (.rd (.var .logT)))) (.mul (.rd (.var .T)) (.add (.num 15761872375078514 19) (.mul (.rd (.var .T)) (.add (.neg (.num 30995585030730089 23)) (.mul (.rd (.var .T)) (.add (.num 34534647105403977 27) (.mul (.neg (.num 17119355700901321 31)) (.rd (.var .T)))))))))) (.div (.neg (.num 10705077178 6)) (.rd (.var .T)))),
  .set (.var .Kc) (.mul (.num 1 0) (.exp (.rd (.var .Kc)))),
  .set (.arr .rev 219) (.div (.mul (.mul (.rd (.arr .C 1)) (.rd (.arr .C 40))) (.rd (.var .kf))) (.rd (.var .Kc)))]

/-- utilities/mechanisms/gri30/lib/src/rxn_rates.c:2650-2661 -/
def rate221 : List CStmt := [
  .set (.var .kf) (.num 23500000000 0),
  .set (.arr .fwd 221) (.mul (.mul (.rd (.arr .C 2)) (.rd (.arr .C 46))) (.rd (.var .kf))),
  .ite (.rd (.var .T)) (.num 1000 0) (.var .Kc) (.sub (.add (.add (.neg (.num 76159542499999997 16)) (.mul (.num 18028118700000002 16) (.rd (.var .logT)))) (.mul (.rd (.var .T)) (.add (.neg (.num 53875898200000001 19)) (.mul (.rd (.var .T)) (.add (.num 23002309616666666 22) (.mul (.rd (.var .T)) (.add (.neg (.num 5918966396666666 25)) (.mul (.num 55892614550000019 30) (.rd (.var .T)))))))))) (.div (.neg (.num 48304199200000003 12)) (.rd (.var .T)))) (.sub (.add (.add (.num 13693731850000001 15) (.mul (.neg (.num 17458140700000002 16)) (.rd (.var .logT)))) (.mul (.rd (.var .T)) (.add (.num 51721487185000018 20) (.mul (.rd (.var .T)) (.add (.neg (.num 98268863316666706 24)) (.mul (.rd (.var .T)) (.add (.num 13469789741666665 27) (.mul (.neg (.num 82644594050000015 32)) (.rd (.var .T)))))))))) (.div (.neg (.num 47452599900000001 12)) (.rd (.var .T)))),
  .set (.var .Kc) (.mul (.num 1 0) (.exp (.rd (.var .Kc)))),
  .set (.arr .rev 220) (.div (.mul (.mul (.rd (.arr .C 14)) (.rd (.arr .C 35))) (.rd (.var .kf))) (.rd (.var .Kc)))]

/-- utilities/mechanisms/gri30/lib/src/rxn_rates.c:2662-2673 -/
def rate222 : List CStmt := [
  .set (.var .kf) (.num 54000000000 0),
  .set (.arr .fwd 222) (.mul (.mul (.rd (.arr .C 1)) (.rd (.arr .C 46))) (.rd (.var .kf))),
  .ite (.rd (.var .T)) (.num 1000 0) (.var .Kc) (.sub (.add (.add (.neg (.num 54925558370000003 16)) (.mul (.num 17455111699999999 16) (.rd (.var .logT)))) (.mul (.rd (.var .T)) (.add (.neg (.num 4551865250352667 18)) (.mul (.rd (.var .T)) (.add (.num 131906322199932 20) (.mul (.rd (.var .T)) (.add (.neg (.num 11775385985840132 26)) (.mul (.neg (.num 30438084903613382 30)) (.rd (.var .T)))))))))) (.div (.neg (.num 12619593899999998 12)) (.rd (.var .T)))) (.sub (.add (.add (.num 18703722634000002 15) (.mul (.neg (.num 21533061 7)) (.rd (.var .logT)))) (.mul (.rd (.var .T)) (.add (.num 543597176542149 18) (.mul (.rd (.var .T)) (.add (.neg (.num 90545787859365817 24)) (.mul (.rd (.var .T)) (.add (.num 13375877811262696 27) (.mul (.neg (.num 83857097490986806 32)) (.rd (.var .T)))))))))) (.div (.neg (.num 115088073 4)) (.rd (.var .T)))),
  .set (.var .Kc) (.mul (.num 1 0) (.exp (.rd (.var .Kc)))),
  .set (.arr .rev 221) (.div (.mul (.mul (.rd (.arr .C 31)) (.rd (.arr .C 14))) (.rd (.var .kf))) (.rd (.var .Kc)))]

/-- utilities/mechanisms/gri30/lib/src/rxn_rates.c:2674-2685 -/
def rate223 : List CStmt := [
  .set (.var .kf) (.num 2500000000 0),
  .set (.arr .fwd 223) (.mul (.mul (.rd (.arr .C 46)) (.rd (.arr .C 4))) (.rd (.var .kf))),
  .ite (.rd (.var .T)) (.num 1000 0) (.var .Kc) (.sub (.add (.add (.neg (.num 75830298550000004 16)) (.mul (.num 2479063539999999 15) (.rd (.var .logT)))) (.mul (.rd (.var .T)) (.add (.neg (.num 58265904796473344 19)) (.mul (.rd (.var .T)) (.add (.num 26377518863340136 22) (.mul (.rd (.var .T)) (.add (.neg (.num 7791410486415986 25)) (.mul (.num 93319865003613392 30) (.rd (.var .T)))))))))) (.div (.num 26766393399999984 13) (.rd (.var .T)))) (.sub (.add (.add (.num 11578158355999999 15) (.mul (.neg (.num 76928095000000019 17)) (.rd (.var .logT)))) (.mul (.rd (.var .T)) (.add (.num 2000129454578515 19) (.mul (.rd (.var .T)) (.add (.neg (.num 11236165547396755 23)) (.mul (.rd (.var .T)) (.add (.num 19963820655403973 27) (.mul (.neg (.num 13520909500901322 31)) (.rd (.var .T)))))))))) (.div (.num 33799821000000002 13) (.rd (.var .T)))),
  .set (.var .Kc) (.mul (.num 12186597134166982 15) (.exp (.rd (.var .Kc)))),
  .set (.arr .rev 222) (.div (.mul (.mul (.mul (.rd (.arr .C 1)) (.rd (.arr .C 14))) (.rd (.arr .C 35))) (.rd (.var .kf))) (.rd (.var .Kc)))]

/-- utilities/mechanisms/gri30/lib/src/rxn_rates.c:2686-2697 -/
def rate224 : List CStmt := [
  .set (.var .kf) (.num 20000000000 0),
  .set (.arr .fwd 224) (.mul (.mul (.rd (.arr .C 30)) (.rd (.arr .C 46))) (.rd (.var .kf))),
  .ite (.rd (.var .T)) (.num 1000 0) (.var .Kc) (.sub (.add (.add (.neg (.num 78368716899999997 16)) (.mul (.num 155127967 8) (.rd (.var .logT)))) (.mul (.rd (.var .T)) (.add (.neg (.num 40036410400000003 19)) (.mul (.rd (.var .T)) (.add (.num 90670095500000012 23) (.mul (.rd (.var .T)) (.add (.num 14556870700000011 26) (.mul (.neg (.num 10089594994999997 29)) (.rd (.var .T)))))))))) (.div (.neg (.num 86152099900000001 12)) (.rd (.var .T)))) (.sub (.add (.add (.num 13620173909999998 15) (.mul (.neg (.num 19263017900000001 16)) (.rd (.var .logT)))) (.mul (.rd (.var .T)) (.add (.num 53521874000000014 20) (.mul (.rd (.var .T)) (.add (.neg (.num 94657758499999997 24)) (.mul (.rd (.var .T)) (.add (.num 12742180249999999 27) (.mul (.neg (.num 7992112399999998 31)) (.rd (.var .T)))))))))) (.div (.neg (.num 85212566099999996 12)) (.rd (.var .T)))),
  .set (.var .Kc) (.mul (.num 1 0) (.exp (.rd (.var .Kc)))),
  .set (.arr .rev 223) (.div (.mul (.mul (.rd (.arr .C 52)) (.rd (.arr .C 14))) (.rd (.var .kf))) (.rd (.var .Kc)))]

/-- utilities/mechanisms/gri30/lib/src/rxn_rates.c:2698-2709 -/
def rate225 : List CStmt := [
  .set (.var .kf) (.exp (.sub (.num 21416413017506358 15) (.div (.num 10064391297183252 12) (.rd (.var .T))))),
  .set (.arr .fwd 225) (.mul (.mul (.rd (.arr .C 3)) (.rd (.arr .C 46))) (.rd (.var .kf))),
  .ite (.rd (.var .T)) (.num 1000 0) (.var .Kc) (.sub (.add (.add (.neg (.num 99210436999999985 17)) (.mul (.neg (.num 34137340000000016 18)) (.rd (.var .logT)))) (.mul (.rd (.var .T)) (.add (.neg (.num 73140693500000058 20)) (.mul (.rd (.var .T)) (.add (.num 40946178333333354 23) (.mul (.rd (.var .T)) (.add (.neg (.num 1664455408333333 25)) (.mul (.num 37375429100000019 30) (.rd (.var .T)))))))))) (.div (.neg (.num 52145880140000001 12)) (.rd (.var .T)))) (.sub (.add (.add (.num 70486319200000001 16) (.mul (.neg (.num 13166564499999991 16)) (.rd (.var .logT)))) (.mul (.rd (.var .T)) (.add (.num 90860545999999994 20) (.mul (.rd (.var .T)) (.add (.neg (.num 16761438683333339 23)) (.mul (.rd (.var .T)) (.add (.num 1963219350000001 26) (.mul (.neg (.num 10236223650000002 31)) (.rd (.var .T)))))))))) (.div (.neg (.num 51753856679999997 12)) (.rd (.var .T)))),
  .set (.var .Kc) (.mul (.num 1 0) (.exp (.rd (.var .Kc)))),
  .set (.arr .rev 224) (.div (.mul (.mul (.rd (.arr .C 15)) (.rd (.arr .C 35))) (.rd (.var .kf))) (.rd (.var .Kc)))]

/-- utilities/mechanisms/gri30/lib/src/rxn_rates.c:2710-2721 -/
def rate226 : List CStmt := [
  .set (.var .kf) (.exp (.sub (.num 26459838134425603 15) (.div (.num 2719901748063774 11) (.rd (.var .T))))),
  .set (.arr .fwd 226) (.mul (.rd (.arr .C 46)) (.rd (.var .kf))),
  .ite (.rd (.var .T)) (.num 1000 0) (.var .Kc) (.sub (.add (.add (.neg (.num 51007492900000004 16)) (.mul (.num 22526026699999995 16) (.rd (.var .logT)))) (.mul (.rd (.var .T)) (.add (.neg (.num 47077612400000003 19)) (.mul (.rd (.var .T)) (.add (.num 15672379550000001 22) (.mul (.rd (.var .T)) (.add (.neg (.num 32455754299999995 26)) (.mul (.num 21346750050000008 30) (.rd (.var .T)))))))))) (.div (.num 27078074000000008 12) (.rd (.var .T)))) (.sub (.add (.add (.num 15033619309999999 15) (.mul (.neg (.num 10210559899999998 16)) (.rd (.var .logT)))) (.mul (.rd (.var .T)) (.add (.neg (.num 33879009999999857 21)) (.mul (.rd (.var .T)) (.add (.neg (.num 39586321833333348 24)) (.mul (.rd (.var .T)) (.add (.num 9365689416666667 27) (.mul (.neg (.num 66515351000000013 32)) (.rd (.var .T)))))))))) (.div (.num 27977777600000001 12) (.rd (.var .T)))),
  .set (.var .Kc) (.mul (.num 12186597134166982 15) (.exp (.rd (.var .Kc)))),
  .set (.arr .rev 225) (.div (.mul (.mul (.rd (.arr .C 14)) (.rd (.arr .C 30))) (.rd (.var .kf))) (.rd (.var .Kc)))]

/-- utilities/mechanisms/gri30/lib/src/rxn_rates.c:2722-2733 -/
def rate227 : List CStmt := [
  .set (.var .kf) (.exp (.sub (.sub (.num 32878045188089033 15) (.mul (.num 152 2) (.rd (.var .logT)))) (.div (.num 37238247799578033 14) (.rd (.var .T))))),
  .set (.arr .fwd 227) (.mul (.mul (.rd (.arr .C 46)) (.rd (.arr .C 35))) (.rd (.var .kf))),
  .ite (.rd (.var .T)) (.num 1000 0) (.var .Kc) (.sub (.add (.add (.num 36438137100000003 16) (.mul (.neg (.num 120872343 8)) (.rd (.var .logT)))) (.mul (.rd (.var .T)) (.add (.num 32640907599999999 19) (.mul (.rd (.var .T)) (.add (.neg (.num 25514855449999996 22)) (.mul (.rd (.var .T)) (.add (.num 12602854570000002 25) (.mul (.neg (.num 26536800994999995 29)) (.rd (.var .T)))))))))) (.div (.neg (.num 30129411599999999 12)) (.rd (.var .T)))) (.sub (.add (.add (.num 26664619099999989 16) (.mul (.neg (.num 87453159000000014 17)) (.rd (.var .logT)))) (.mul (.rd (.var .T)) (.add (.num 59663606500000006 20) (.mul (.rd (.var .T)) (.add (.neg (.num 10797208350000001 23)) (.mul (.rd (.var .T)) (.add (.num 14392623250000002 27) (.mul (.neg (.num 85042962000000006 32)) (.rd (.var .T)))))))))) (.div (.neg (.num 30003565199999997 12)) (.rd (.var .T)))),
  .set (.var .Kc) (.mul (.num 1 0) (.exp (.rd (.var .Kc)))),
  .set (.arr .rev 226) (.div (.mul (.mul (.rd (.arr .C 14)) (.rd (.arr .C 37))) (.rd (.var .kf))) (.rd (.var .Kc)))]

/-- utilities/mechanisms/gri30/lib/src/rxn_rates.c:2734-2745 -/
def rate228 : List CStmt := [
  .set (.var .kf) (.exp (.sub (.sub (.num 35873777461643023 15) (.mul (.num 2 0) (.rd (.var .logT)))) (.div (.num 40257565188733008 14) (.rd (.var .T))))),
  .set (.arr .fwd 228) (.mul (.mul (.rd (.arr .C 46)) (.rd (.arr .C 35))) (.rd (.var .kf))),
  .ite (.rd (.var .T)) (.num 1000 0) (.var .Kc) (.sub (.add (.add (.num 34100697999999992 16) (.mul (.neg (.num 13899565799999998 16)) (.rd (.var .logT)))) (.mul (.rd (.var .T)) (.add (.num 31133221850000001 19) (.mul (.rd (.var .T)) (.add (.neg (.num 22901988816666668 22)) (.mul (.rd (.var .T)) (.add (.num 1052928685 18) (.mul (.neg (.num 20303855239999998 29)) (.rd (.var .T)))))))))) (.div (.neg (.num 73919969599999997 12)) (.rd (.var .T)))) (.sub (.add (.add (.num 60558191699999977 16) (.mul (.neg (.num 162868981 8)) (.rd (.var .logT)))) (.mul (.rd (.var .T)) (.add (.num 120303333 11) (.mul (.rd (.var .T)) (.add (.neg (.num 2456313383333334 22)) (.mul (.rd (.var .T)) (.add (.num 33925993250000005 27) (.mul (.neg (.num 20415178950000001 31)) (.rd (.var .T)))))))))) (.div (.neg (.num 73607061300000001 12)) (.rd (.var .T)))),
  .set (.var .Kc) (.mul (.num 1 0) (.exp (.rd (.var .Kc)))),
  .set (.arr .rev 227) (.div (.mul (.mul (.rd (.arr .C 52)) (.rd (.arr .C 15))) (.rd (.var .kf))) (.rd (.var .Kc)))]

/-- utilities/mechanisms/gri30/lib/src/rxn_rates.c:2746-2757 -/
def rate229 : List CStmt := [
  .set (.var .kf) (.exp (.sub (.sub (.num 59906433130998472 15) (.mul (.num 33 1) (.rd (.var .logT)))) (.div (.num 63707596911169989 12) (.rd (.var .T))))),
  .set (.arr .fwd 229) (.mul (.rd (.arr .C 40)) (.rd (.var .kf))),
  .ite (.rd (.var .T)) (.num 1000 0) (.var .Kc) (.sub (.add (.add (.neg (.num 92365717529999998 16)) (.mul (.num 28539464999999997 16) (.rd (.var .logT)))) (.mul (.rd (.var .T)) (.add (.neg (.num 55033416346473331 19)) (.mul (.rd (.var .T)) (.add (.num 25826767830006802 22) (.mul (.rd (.var .T)) (.add (.neg (.num 86729268564159869 26)) (.mul (.num 12722996195361339 29) (.rd (.var .T)))))))))) (.div (.num 62469366899999994 12) (.rd (.var .T)))) (.sub (.add (.add (.neg (.num 16791242240000002 16)) (.mul (.num 14437413100000001 16) (.rd (.var .logT)))) (.mul (.rd (.var .T)) (.add (.neg (.num 15514860240421486 19)) (.mul (.rd (.var .T)) (.add (.num 2267130593593658 22) (.mul (.rd (.var .T)) (.add (.neg (.num 19570781727929365 27)) (.mul (.num 71065873990986783 32) (.rd (.var .T)))))))))) (.div (.num 62602555899999992 12) (.rd (.var .T)))),
  .set (.var .Kc) (.mul (.num 12186597134166982 15) (.exp (.rd (.var .Kc)))),
  .set (.arr .rev 228) (.div (.mul (.mul (.rd (.arr .C 1)) (.rd (.arr .C 39))) (.rd (.var .kf))) (.rd (.var .Kc)))]

/-- utilities/mechanisms/gri30/lib/src/rxn_rates.c:2758-2769 -/
def rate230 : List CStmt := [
  .set (.var .kf) (.exp (.sub (.add (.num 30106208860477417 16) (.mul (.num 264 2) (.rd (.var .logT)))) (.div (.num 25060334329986299 13) (.rd (.var .T))))),
  .set (.arr .fwd 230) (.mul (.mul (.rd (.arr .C 40)) (.rd (.arr .C 2))) (.rd (.var .kf))),
  .ite (.rd (.var .T)) (.num 1000 0) (.var .Kc) (.sub (.add (.add (.neg (.num 17642687129999999 16)) (.mul (.neg (.num 10032489999999994 17)) (.rd (.var .logT)))) (.mul (.rd (.var .T)) (.add (.num 1016658820352667 18) (.mul (.rd (.var .T)) (.add (.neg (.num 27965239366598669 23)) (.mul (.rd (.var .T)) (.add (.num 6978447019173452 26) (.mul (.neg (.num 21755820546386616 30)) (.rd (.var .T)))))))))) (.div (.neg (.num 36787553000000044 13)) (.rd (.var .T)))) (.sub (.add (.add (.neg (.num 10631272183999998 15)) (.mul (.num 12805245299999997 16) (.rd (.var .logT)))) (.mul (.rd (.var .T)) (.add (.neg (.num 37763630469214883 20)) (.mul (.rd (.var .T)) (.add (.num 23489754542699136 24) (.mul (.rd (.var .T)) (.add (.neg (.num 69073456959603061 29)) (.mul (.neg (.num 26318950590132181 33)) (.rd (.var .T)))))))))) (.div (.neg (.num 4147088200000002 12)) (.rd (.var .T)))),
  .set (.var .Kc) (.mul (.num 1 0) (.exp (.rd (.var .Kc)))),
  .set (.arr .rev 229) (.div (.mul (.mul (.rd (.arr .C 1)) (.rd (.arr .C 46))) (.rd (.var .kf))) (.rd (.var .Kc)))]

/-- utilities/mechanisms/gri30/lib/src/rxn_rates.c:2770-2781 -/
def rate231 : List CStmt := [
  .set (.var .kf) (.exp (.sub (.add (.num 16233408176030919 16) (.mul (.num 264 2) (.rd (.var .logT)))) (.div (.num 25060334329986299 13) (.rd (.var .T))))),
  .set (.arr .fwd 231) (.mul (.mul (.rd (.arr .C 40)) (.rd (.arr .C 2))) (.rd (.var .kf))),
  .ite (.rd (.var .T)) (.num 1000 0) (.var .Kc) (.sub (.add (.add (.neg (.num 72568245499999993 16)) (.mul (.num 164518627 8) (.rd (.var .logT)))) (.mul (.rd (.var .T)) (.add (.neg (.num 353520643 11)) (.mul (.rd (.var .T)) (.add (.num 10394108283333336 22) (.mul (.rd (.var .T)) (.add (.neg (.num 47969389666666751 27)) (.mul (.neg (.num 52193905449999999 30)) (.rd (.var .T)))))))))) (.div (.neg (.num 16298349199999999 12)) (.rd (.var .T)))) (.sub (.add (.add (.num 80724504499999998 16) (.mul (.neg (.num 87278157000000034 17)) (.rd (.var .logT)))) (.mul (.rd (.var .T)) (.add (.num 16596087185000017 20) (.mul (.rd (.var .T)) (.add (.neg (.num 67056033316666684 24)) (.mul (.rd (.var .T)) (.add (.num 12685143241666666 27) (.mul (.neg (.num 86488992550000011 32)) (.rd (.var .T)))))))))) (.div (.neg (.num 15655895500000001 12)) (.rd (.var .T)))),
  .set (.var .Kc) (.mul (.num 1 0) (.exp (.rd (.var .Kc)))),
  .set (.arr .rev 230) (.div (.mul (.mul (.rd (.arr .C 31)) (.rd (.arr .C 14))) (.rd (.var .kf))) (.rd (.var .Kc)))]

/-- utilities/mechanisms/gri30/lib/src/rxn_rates.c:2782-2793 -/
def rate232 : List CStmt := [
  .set (.var .kf) (.exp (.sub (.add (.num 15179047931961549 15) (.mul (.num 158 2) (.rd (.var .logT)))) (.div (.num 13385640425253727 12) (.rd (.var .T))))),
  .set (.arr .fwd 232) (.mul (.mul (.rd (.arr .C 40)) (.rd (.arr .C 2))) (.rd (.var .kf))),
  .ite (.rd (.var .T)) (.num 1000 0) (.var .Kc) (.sub (.add (.add (.neg (.num 9269496148 9)) (.mul (.num 21776948299999996 16) (.rd (.var .logT)))) (.mul (.rd (.var .T)) (.add (.neg (.num 50643409749999996 19)) (.mul (.rd (.var .T)) (.add (.num 22451558583333336 22) (.mul (.rd (.var .T)) (.add (.neg (.num 68004827666666669 26)) (.mul (.num 89802711500000013 30) (.rd (.var .T)))))))))) (.div (.num 11488528359999997 12) (.rd (.var .T)))) (.sub (.add (.add (.num 43644927000000022 17) (.mul (.num 46720818999999958 17) (.rd (.var .logT)))) (.mul (.rd (.var .T)) (.add (.neg (.num 12342840976500001 19)) (.mul (.rd (.var .T)) (.add (.num 24080585151666668 23) (.mul (.rd (.var .T)) (.add (.neg (.num 26064812641666668 27)) (.mul (.num 12363037494999999 31) (.rd (.var .T)))))))))) (.div (.num 11769973900000001 12) (.rd (.var .T)))),
  .set (.var .Kc) (.mul (.num 1 0) (.exp (.rd (.var .Kc)))),
  .set (.arr .rev 231) (.div (.mul (.mul (.rd (.arr .C 39)) (.rd (.arr .C 4))) (.rd (.var .kf))) (.rd (.var .Kc)))]

/-- utilities/mechanisms/gri30/lib/src/rxn_rates.c:2794-2811 -/
def rate233 : List CStmt := [
  .set (.var .kf) (.exp (.sub (.add (.num 70030654587864616 16) (.mul (.num 203 2) (.rd (.var .logT)))) (.div (.num 67280455821670048 13) (.rd (.var .T))))),
  .set (.arr .fwd 233) (.mul (.mul (.rd (.arr .C 40)) (.rd (.arr .C 4))) (.rd (.var .kf))),
  .ite (.rd (.var .T)) (.num 1368 0) (.var .Kc) (.sub (.add (.add (.num 18468721000000001 16) (.mul (.num 27860495200000002 16) (.rd (.var .logT)))) (.mul (.rd (.var .T)) (.add (.num 34433396099999999 19) (.mul (.rd (.var .T)) (.add (.neg (.num 53581310666666662 23)) (.mul (.rd (.var .T)) (.add (.num 4309964725 20) (.mul (.num 59680394000000003 32) (.rd (.var .T)))))))))) (.div (.neg (.num 28269839999999999 13)) (.rd (.var .T)))) (.sub (.add (.add (.neg (.num 120795271 7)) (.mul (.num 48978488499999999 16) (.rd (.var .logT)))) (.mul (.rd (.var .T)) (.add (.num 1583946965 12) (.mul (.rd (.var .T)) (.add (.neg (.num 18633510666666667 23)) (.mul (.rd (.var .T)) (.add (.num 14770262 18) (.mul (.neg (.num 52169588499999993 32)) (.rd (.var .T)))))))))) (.div (.neg (.num 37065333099999998 13)) (.rd (.var .T)))),
  .ite (.rd (.var .T)) (.num 1000 0) (.var .Kc) (.add (.rd (.var .Kc)) (.sub (.add (.add (.neg (.num 55081952650000003 16)) (.mul (.neg (.num 27510040299999998 16)) (.rd (.var .logT)))) (.mul (.rd (.var .T)) (.add (.neg (.num 38249262396473334 19)) (.mul (.rd (.var .T)) (.add (.num 14556374313340135 22) (.mul (.rd (.var .T)) (.add (.neg (.num 51760130564159879 26)) (.mul (.num 82239404953613387 30) (.rd (.var .T)))))))))) (.div (.num 71459463399999986 13) (.rd (.var .T))))) (.add (.rd (.var .Kc)) (.sub (.add (.add (.neg (.num 21037122539999999 16)) (.mul (.neg (.num 339512686 8)) (.rd (.var .logT)))) (.mul (.rd (.var .T)) (.add (.neg (.num 18474262695421487 19)) (.mul (.rd (.var .T)) (.add (.num 15611888135936581 23) (.mul (.rd (.var .T)) (.add (.neg (.num 65209515945960296 28)) (.mul (.neg (.num 97074005090132177 33)) (.rd (.var .T)))))))))) (.div (.num 72077108999999991 13) (.rd (.var .T))))),
  .set (.var .Kc) (.mul (.num 1 0) (.exp (.rd (.var .Kc)))),
  .set (.arr .rev 232) (.div (.mul (.mul (.rd (.arr .C 44)) (.rd (.arr .C 1))) (.rd (.var .kf))) (.rd (.var .Kc)))]

/-- utilities/mechanisms/gri30/lib/src/rxn_rates.c:2812-2829 -/
def rate234 : List CStmt := [
  .set (.var .kf) (.exp (.sub (.add (.num 14816045409242156 16) (.mul (.num 226 2) (.rd (.var .logT)))) (.div (.num 32206052150986407 13) (.rd (.var .T))))),
  .set (.arr .fwd 234) (.mul (.mul (.rd (.arr .C 40)) (.rd (.arr .C 4))) (.rd (.var .kf))),
  .ite (.rd (.var .T)) (.num 1000 0) (.var .Kc) (.sub (.add (.add (.neg (.num 55081952650000003 16)) (.mul (.neg (.num 27510040299999998 16)) (.rd (.var .logT)))) (.mul (.rd (.var .T)) (.add (.neg (.num 38249262396473334 19)) (.mul (.rd (.var .T)) (.add (.num 14556374313340135 22) (.mul (.rd (.var .T)) (.add (.neg (.num 51760130564159879 26)) (.mul (.num 82239404953613387 30) (.rd (.var .T)))))))))) (.div (.num 71459463399999986 13) (.rd (.var .T)))) (.sub (.add (.add (.neg (.num 21037122539999999 16)) (.mul (.neg (.num 339512686 8)) (.rd (.var .logT)))) (.mul (.rd (.var .T)) (.add (.neg (.num 18474262695421487 19)) (.mul (.rd (.var .T)) (.add (.num 15611888135936581 23) (.mul (.rd (.var .T)) (.add (.neg (.num 65209515945960296 28)) (.mul (.neg (.num 97074005090132177 33)) (.rd (.var .T)))))))))) (.div (.num 72077108999999991 13) (.rd (.var .T)))),
  .ite (.rd (.var .T)) (.num 1478 0) (.var .Kc) (.add (.rd (.var .Kc)) (.sub (.add (.add (.num 25636141000000001 16) (.mul (.num 26309631699999998 16) (.rd (.var .logT)))) (.mul (.rd (.var .T)) (.add (.num 36514117850000001 19) (.mul (.rd (.var .T)) (.add (.neg (.num 38008333833333334 23)) (.mul (.rd (.var .T)) (.add (.neg (.num 55105941500000004 27)) (.mul (.num 18111787599999998 30) (.rd (.var .T)))))))))) (.div (.neg (.num 15587363600000001 12)) (.rd (.var .T))))) (.add (.rd (.var .Kc)) (.sub (.add (.add (.neg (.num 14606198750000001 15)) (.mul (.num 52239513400000002 16) (.rd (.var .logT)))) (.mul (.rd (.var .T)) (.add (.num 15893200200000001 19) (.mul (.rd (.var .T)) (.add (.neg (.num 182297925 15)) (.mul (.rd (.var .T)) (.add (.num 1422793025 20) (.mul (.neg (.num 49751097749999999 32)) (.rd (.var .T)))))))))) (.div (.neg (.num 16659934399999998 12)) (.rd (.var .T))))),
  .set (.var .Kc) (.mul (.num 1 0) (.exp (.rd (.var .Kc)))),
  .set (.arr .rev 233) (.div (.mul (.mul (.rd (.arr .C 45)) (.rd (.arr .C 1))) (.rd (.var .kf))) (.rd (.var .Kc)))]

/-- utilities/mechanisms/gri30/lib/src/rxn_rates.c:2830-2841 -/
def rate235 : List CStmt := [
  .set (.var .kf) (.exp (.sub (.add (.neg (.num 18325814637483102 16)) (.mul (.num 256 2) (.rd (.var .logT)))) (.div (.num 45289760837324638 13) (.rd (.var .T))))),
  .set (.arr .fwd 235) (.mul (.mul (.rd (.arr .C 40)) (.rd (.arr .C 4))) (.rd (.var .kf))),
  .ite (.rd (.var .T)) (.num 1000 0) (.var .Kc) (.sub (.add (.add (.neg (.num 6978481981999999 15)) (.mul (.num 15325323399999999 16) (.rd (.var .logT)))) (.mul (.rd (.var .T)) (.add (.neg (.num 51831723300000002 19)) (.mul (.rd (.var .T)) (.add (.num 28095789533333332 22) (.mul (.rd (.var .T)) (.add (.neg (.num 90964412383333334 26)) (.mul (.num 11922176505 23) (.rd (.var .T)))))))))) (.div (.neg (.num 1078588956 5)) (.rd (.var .T)))) (.sub (.add (.add (.num 96321469799999999 16) (.mul (.neg (.num 13451991599999999 16)) (.rd (.var .logT)))) (.mul (.rd (.var .T)) (.add (.num 78749155700000024 20) (.mul (.rd (.var .T)) (.add (.neg (.num 16600342316666668 23)) (.mul (.rd (.var .T)) (.add (.num 24069260299999997 27) (.mul (.neg (.num 15113433300000002 31)) (.rd (.var .T)))))))))) (.div (.neg (.num 10245864400000002 12)) (.rd (.var .T)))),
  .set (.var .Kc) (.mul (.num 1 0) (.exp (.rd (.var .Kc)))),
  .set (.arr .rev 234) (.div (.mul (.mul (.rd (.arr .C 14)) (.rd (.arr .C 32))) (.rd (.var .kf))) (.rd (.var .Kc)))]

/-- utilities/mechanisms/gri30/lib/src/rxn_rates.c:2842-2853 -/
def rate236 : List CStmt := [
  .set (.var .kf) (.num 33000000000 0),
  .set (.arr .fwd 236) (.mul (.mul (.rd (.arr .C 1)) (.rd (.arr .C 40))) (.rd (.var .kf))),
  .ite (.rd (.var .T)) (.num 1000 0) (.var .Kc) (.sub (.add (.add (.num 24303196529999997 16) (.mul (.neg (.num 9073275999999999 16)) (.rd (.var .logT)))) (.mul (.rd (.var .T)) (.add (.neg (.num 21779684503526664 19)) (.mul (.rd (.var .T)) (.add (.num 24038171669993201 22) (.mul (.rd (.var .T)) (.add (.neg (.num 97624675019173469 26)) (.mul (.num 13868959954638661 29) (.rd (.var .T)))))))))) (.div (.neg (.num 11548472899999999 12)) (.rd (.var .T)))) (.sub (.add (.add (.neg (.num 44807189760000012 16)) (.mul (.neg (.num 92536209999999564 18)) (.rd (.var .logT)))) (.mul (.rd (.var .T)) (.add (.neg (.num 8856583845785141 20)) (.mul (.rd (.var .T)) (.add (.num 12960992897396754 23) (.mul (.rd (.var .T)) (.add (.neg (.num 27479380438737304 27)) (.mul (.num 20116172750901319 31) (.rd (.var .T)))))))))) (.div (.neg (.num 12203842899999998 12)) (.rd (.var .T)))),
  .set (.var .Kc) (.mul (.num 82057360967184814 18) (.exp (.rd (.var .Kc)))),
  .set (.arr .rev 235) (.div (.mul (.rd (.arr .C 41)) (.rd (.var .kf))) (.rd (.var .Kc)))]

/-- utilities/mechanisms/gri30/lib/src/rxn_rates.c:2854-2865 -/
def rate237 : List CStmt := [
  .set (.var .kf) (.exp (.sub (.num 24817610399168512 15) (.div (.num 20128782594366504 14) (.rd (.var .T))))),
  .set (.arr .fwd 237) (.mul (.mul (.rd (.arr .C 41)) (.rd (.arr .C 30))) (.rd (.var .kf))),
  .ite (.rd (.var .T)) (.num 1000 0) (.var .Kc) (.sub (.add (.add (.neg (.num 93834506199999996 16)) (.mul (.num 17096946700000002 16) (.rd (.var .logT)))) (.mul (.rd (.var .T)) (.add (.neg (.num 16590602784999999 19)) (.mul (.rd (.var .T)) (.add (.neg (.num 37324393166666659 23)) (.mul (.rd (.var .T)) (.add (.num 28443462249999998 26) (.mul (.neg (.num 26116299999999988 30)) (.rd (.var .T)))))))))) (.div (.neg (.num 39759316800000001 12)) (.rd (.var .T)))) (.sub (.add (.add (.num 13771494410000003 15) (.mul (.neg (.num 18249047700000003 16)) (.rd (.var .logT)))) (.mul (.rd (.var .T)) (.add (.num 1000093985 12) (.mul (.rd (.var .T)) (.add (.neg (.num 26213989499999998 23)) (.mul (.rd (.var .T)) (.add (.num 41206556999999996 27) (.mul (.neg (.num 26961299249999999 31)) (.rd (.var .T)))))))))) (.div (.neg (.num 38470075700000001 12)) (.rd (.var .T)))),
  .set (.var .Kc) (.mul (.num 1 0) (.exp (.rd (.var .Kc)))),
  .set (.arr .rev 236) (.div (.mul (.mul (.rd (.arr .C 10)) (.rd (.arr .C 52))) (.rd (.var .kf))) (.rd (.var .Kc)))]

/-- utilities/mechanisms/gri30/lib/src/rxn_rates.c:2866-2877 -/
def rate238 : List CStmt := [
  .set (.var .kf) (.exp (.sub (.num 24866400563337944 15) (.div (.num 23158164374818665 12) (.rd (.var .T))))),
  .set (.arr .fwd 238) (.mul (.mul (.rd (.arr .C 8)) (.rd (.arr .C 52))) (.rd (.var .kf))),
  .ite (.rd (.var .T)) (.num 1000 0) (.var .Kc) (.sub (.add (.add (.neg (.num 56729083000000013 17)) (.mul (.num 2600185499999994 16) (.rd (.var .logT)))) (.mul (.rd (.var .T)) (.add (.neg (.num 10211079729999998 19)) (.mul (.rd (.var .T)) (.add (.num 89562124249999987 23) (.mul (.rd (.var .T)) (.add (.neg (.num 43537027841666673 26)) (.mul (.num 85701449699999992 30) (.rd (.var .T)))))))))) (.div (.num 23389993700000003 12) (.rd (.var .T)))) (.sub (.add (.add (.neg (.num 40882765499999998 16)) (.mul (.num 74261452000000006 17) (.rd (.var .logT)))) (.mul (.rd (.var .T)) (.add (.neg (.num 65881215170000005 20)) (.mul (.rd (.var .T)) (.add (.num 136490942 15) (.mul (.rd (.var .T)) (.add (.neg (.num 14735420325000001 27)) (.mul (.num 70017245149999993 32) (.rd (.var .T)))))))))) (.div (.num 23141463400000011 12) (.rd (.var .T)))),
  .set (.var .Kc) (.mul (.num 1 0) (.exp (.rd (.var .Kc)))),
  .set (.arr .rev 237) (.div (.mul (.mul (.rd (.arr .C 39)) (.rd (.arr .C 30))) (.rd (.var .kf))) (.rd (.var .Kc)))]

/-- utilities/mechanisms/gri30/lib/src/rxn_rates.c:2878-2889 -/
def rate239 : List CStmt := [
  .set (.var .kf) (.exp (.sub (.add (.num 14953343559785665 15) (.mul (.num 88 2) (.rd (.var .logT)))) (.div (.num 10129809840614944 12) (.rd (.var .T))))),
  .set (.arr .fwd 239) (.mul (.mul (.rd (.arr .C 52)) (.rd (.arr .C 9))) (.rd (.var .kf))),
  .ite (.rd (.var .T)) (.num 1000 0) (.var .Kc) (.sub (.add (.add (.num 91054725699999999 16) (.mul (.neg (.num 202950505 8)) (.rd (.var .logT)))) (.mul (.rd (.var .T)) (.add (.num 41595470295000001 19) (.mul (.rd (.var .T)) (.add (.neg (.num 12832583916666668 22)) (.mul (.rd (.var .T)) (.add (.num 10738839416666673 26) (.mul (.num 42102093499999997 30) (.rd (.var .T)))))))))) (.div (.num 1040876500000013 12) (.rd (.var .T)))) (.sub (.add (.add (.neg (.num 56535156600000001 16)) (.mul (.num 41307736999999989 17) (.rd (.var .logT)))) (.mul (.rd (.var .T)) (.add (.num 43121148450000004 20) (.mul (.rd (.var .T)) (.add (.neg (.num 12636864083333333 23)) (.mul (.rd (.var .T)) (.add (.num 18845106999999998 27) (.mul (.neg (.num 1134522125 24)) (.rd (.var .T)))))))))) (.div (.num 4514262999999919 13) (.rd (.var .T)))),
  .set (.var .Kc) (.mul (.num 1 0) (.exp (.rd (.var .Kc)))),
  .set (.arr .rev 238) (.div (.mul (.mul (.rd (.arr .C 40)) (.rd (.arr .C 30))) (.rd (.var .kf))) (.rd (.var .Kc)))]

/-- utilities/mechanisms/gri30/lib/src/rxn_rates.c:2890-2901 -/
def rate240 : List CStmt := [
  .set (.var .kf) (.exp (.add (.num 21854667948437513 15) (.mul (.num 15 2) (.rd (.var .logT))))),
  .set (.arr .fwd 240) (.mul (.mul (.rd (.arr .C 52)) (.rd (.arr .C 9))) (.rd (.var .kf))),
  .ite (.rd (.var .T)) (.num 1000 0) (.var .Kc) (.sub (.add (.add (.num 99056611700000001 16) (.mul (.neg (.num 32641742499999999 16)) (.rd (.var .logT)))) (.mul (.rd (.var .T)) (.add (.num 71142715294999995 19) (.mul (.rd (.var .T)) (.add (.neg (.num 21940235583333335 22)) (.mul (.rd (.var .T)) (.add (.num 27682097749999999 26) (.mul (.num 30760343499999991 30) (.rd (.var .T)))))))))) (.div (.neg (.num 15514409500000002 12)) (.rd (.var .T)))) (.sub (.add (.add (.neg (.num 16658089660000002 15)) (.mul (.num 10895314699999998 16) (.rd (.var .logT)))) (.mul (.rd (.var .T)) (.add (.num 76535270950000005 20) (.mul (.rd (.var .T)) (.add (.neg (.num 19570127583333331 23)) (.mul (.rd (.var .T)) (.add (.num 26850951583333335 27) (.mul (.neg (.num 1547463665 24)) (.rd (.var .T)))))))))) (.div (.neg (.num 16636697700000004 12)) (.rd (.var .T)))),
  .set (.var .Kc) (.mul (.num 82057360967184814 18) (.exp (.rd (.var .Kc)))),
  .set (.arr .rev 239) (.div (.mul (.rd (.arr .C 42)) (.rd (.var .kf))) (.rd (.var .Kc)))]

/-- utilities/mechanisms/gri30/lib/src/rxn_rates.c:2902-2913 -/
def rate241 : List CStmt := [
  .set (.var .kf) (.exp (.sub (.num 23025850929940457 15) (.div (.num 37238247799578035 12) (.rd (.var .T))))),
  .set (.arr .fwd 241) (.mul (.mul (.rd (.arr .C 10)) (.rd (.arr .C 52))) (.rd (.var .kf))),
  .ite (.rd (.var .T)) (.num 1000 0) (.var .Kc) (.sub (.add (.add (.num 656132442 8) (.mul (.neg (.num 13094585700000003 16)) (.rd (.var .logT)))) (.mul (.rd (.var .T)) (.add (.num 39929247185000001 19) (.mul (.rd (.var .T)) (.add (.neg (.num 22787479683333335 22)) (.mul (.rd (.var .T)) (.add (.num 89861581083333338 26) (.mul (.neg (.num 1643581345 22)) (.rd (.var .T)))))))))) (.div (.num 11610121800000004 12) (.rd (.var .T)))) (.sub (.add (.add (.neg (.num 56206721099999992 16)) (.mul (.num 78519086999999965 17) (.rd (.var .logT)))) (.mul (.rd (.var .T)) (.add (.neg (.num 33405195999999977 20)) (.mul (.rd (.var .T)) (.add (.num 81570500000000035 24) (.mul (.rd (.var .T)) (.add (.neg (.num 97169881666666662 28)) (.mul (.num 51109518499999994 32) (.rd (.var .T)))))))))) (.div (.num 11187333699999999 12) (.rd (.var .T)))),
  .set (.var .Kc) (.mul (.num 1 0) (.exp (.rd (.var .Kc)))),
  .set (.arr .rev 240) (.div (.mul (.mul (.rd (.arr .C 31)) (.rd (.arr .C 40))) (.rd (.var .kf))) (.rd (.var .Kc)))]

/-- utilities/mechanisms/gri30/lib/src/rxn_rates.c:2914-2925 -/
def rate242 : List CStmt := [
  .set (.var .kf) (.exp (.sub (.num 18420680743952367 15) (.div (.num 32709271715845571 12) (.rd (.var .T))))),
  .set (.arr .fwd 242) (.mul (.mul (.rd (.arr .C 11)) (.rd (.arr .C 52))) (.rd (.var .kf))),
  .ite (.rd (.var .T)) (.num 1000 0) (.var .Kc) (.sub (.add (.add (.num 9328900677 9) (.mul (.neg (.num 174538401 8)) (.rd (.var .logT)))) (.mul (.rd (.var .T)) (.add (.num 56606678849999998 19) (.mul (.rd (.var .T)) (.add (.neg (.num 31850919333333338 22)) (.mul (.rd (.var .T)) (.add (.num 11350531675 19) (.mul (.neg (.num 1771446435 22)) (.rd (.var .T)))))))))) (.div (.num 71173456000000042 13) (.rd (.var .T)))) (.sub (.add (.add (.neg (.num 86580432700000003 16)) (.mul (.num 13672535799999999 16) (.rd (.var .logT)))) (.mul (.rd (.var .T)) (.add (.neg (.num 83379868499999983 20)) (.mul (.rd (.var .T)) (.add (.num 18206608333333337 23) (.mul (.rd (.var .T)) (.add (.neg (.num 22860859083333339 27)) (.mul (.num 1271039175 24) (.rd (.var .T)))))))))) (.div (.num 65249379999999992 13) (.rd (.var .T)))),
  .set (.var .Kc) (.mul (.num 1 0) (.exp (.rd (.var .Kc)))),
  .set (.arr .rev 241) (.div (.mul (.mul (.rd (.arr .C 31)) (.rd (.arr .C 40))) (.rd (.var .kf))) (.rd (.var .Kc)))]

/-- utilities/mechanisms/gri30/lib/src/rxn_rates.c:2926-2937 -/
def rate243 : List CStmt := [
  .set (.var .kf) (.num 19000000000 0),
  .set (.arr .fwd 243) (.mul (.mul (.rd (.arr .C 8)) (.rd (.arr .C 35))) (.rd (.var .kf))),
  .ite (.rd (.var .T)) (.num 1000 0) (.var .Kc) (.sub (.add (.add (.neg (.num 78820827000000016 17)) (.mul (.num 84863500000000869 19) (.rd (.var .logT)))) (.mul (.rd (.var .T)) (.add (.num 36284080700000037 20) (.mul (.rd (.var .T)) (.add (.neg (.num 49790876416666681 23)) (.mul (.rd (.var .T)) (.add (.num 30209506825000003 26) (.mul (.neg (.num 71087114800000005 30)) (.rd (.var .T)))))))))) (.div (.neg (.num 14457906999999999 12)) (.rd (.var .T)))) (.sub (.add (.add (.neg (.num 41618344900000013 16)) (.mul (.num 5621267999999997 16) (.rd (.var .logT)))) (.mul (.rd (.var .T)) (.add (.neg (.num 64080828354999998 20)) (.mul (.rd (.var .T)) (.add (.num 14010204681666666 23) (.mul (.rd (.var .T)) (.add (.neg (.num 15463029816666667 27)) (.mul (.num 72740715199999998 32) (.rd (.var .T)))))))))) (.div (.neg (.num 146185028 4)) (.rd (.var .T)))),
  .set (.var .Kc) (.mul (.num 1 0) (.exp (.rd (.var .Kc)))),
  .set (.arr .rev 242) (.div (.mul (.mul (.rd (.arr .C 39)) (.rd (.arr .C 2))) (.rd (.var .kf))) (.rd (.var .Kc)))]

/-- utilities/mechanisms/gri30/lib/src/rxn_rates.c:2938-2949 -/
def rate244 : List CStmt := [
  .set (.var .kf) (.num 29000000000 0),
  .set (.arr .fwd 244) (.mul (.mul (.rd (.arr .C 8)) (.rd (.arr .C 35))) (.rd (.var .kf))),
  .ite (.rd (.var .T)) (.num 1000 0) (.var .Kc) (.sub (.add (.add (.num 15833454799999997 16) (.mul (.neg (.num 69318238000000054 17)) (.rd (.var .logT)))) (.mul (.rd (.var .T)) (.add (.num 21750800220000002 19) (.mul (.rd (.var .T)) (.add (.neg (.num 17929999858333333 22)) (.mul (.rd (.var .T)) (.add (.num 9146146810833334 25) (.mul (.neg (.num 19872614724999999 29)) (.rd (.var .T)))))))))) (.div (.neg (.num 53527955199999989 12)) (.rd (.var .T)))) (.sub (.add (.add (.num 19196368599999989 16) (.mul (.neg (.num 62214597000000005 17)) (.rd (.var .logT)))) (.mul (.rd (.var .T)) (.add (.num 49916242580000023 20) (.mul (.rd (.var .T)) (.add (.neg (.num 10270757983333334 23)) (.mul (.rd (.var .T)) (.add (.num 12782706758333331 27) (.mul (.neg (.num 67472404850000013 32)) (.rd (.var .T)))))))))) (.div (.neg (.num 53390369299999998 12)) (.rd (.var .T)))),
  .set (.var .Kc) (.mul (.num 1 0) (.exp (.rd (.var .Kc)))),
  .set (.arr .rev 243) (.div (.mul (.mul (.rd (.arr .C 14)) (.rd (.arr .C 30))) (.rd (.var .kf))) (.rd (.var .Kc)))]

/-- utilities/mechanisms/gri30/lib/src/rxn_rates.c:2950-2961 -/
def rate245 : List CStmt := [
  .set (.var .kf) (.num 41000000000 0),
  .set (.arr .fwd 245) (.mul (.mul (.rd (.arr .C 9)) (.rd (.arr .C 35))) (.rd (.var .kf))),
  .ite (.rd (.var .T)) (.num 1000 0) (.var .Kc) (.sub (.add (.add (.num 8884555129999999 15) (.mul (.neg (.num 22810372499999998 16)) (.rd (.var .logT)))) (.mul (.rd (.var .T)) (.add (.num 55434958095000007 19) (.mul (.rd (.var .T)) (.add (.neg (.num 26767883983333333 22)) (.mul (.rd (.var .T)) (.add (.num 84485374083333354 26) (.mul (.neg (.num 114686471 21)) (.rd (.var .T)))))))))) (.div (.neg (.num 36807024199999993 12)) (.rd (.var .T)))) (.sub (.add (.add (.neg (.num 57270736000000007 16)) (.mul (.num 23258965000000043 17) (.rd (.var .logT)))) (.mul (.rd (.var .T)) (.add (.num 44921535265000001 20) (.mul (.rd (.var .T)) (.add (.neg (.num 12275753601666667 23)) (.mul (.rd (.var .T)) (.add (.num 18117497508333332 27) (.mul (.neg (.num 11072874244999998 31)) (.rd (.var .T)))))))))) (.div (.neg (.num 37308539900000011 12)) (.rd (.var .T)))),
  .set (.var .Kc) (.mul (.num 1 0) (.exp (.rd (.var .Kc)))),
  .set (.arr .rev 244) (.div (.mul (.mul (.rd (.arr .C 40)) (.rd (.arr .C 2))) (.rd (.var .kf))) (.rd (.var .Kc)))]

/-- utilities/mechanisms/gri30/lib/src/rxn_rates.c:2962-2973 -/
def rate246 : List CStmt := [
  .set (.var .kf) (.num 16200000000 0),
  .set (.arr .fwd 246) (.mul (.mul (.rd (.arr .C 9)) (.rd (.arr .C 35))) (.rd (.var .kf))),
  .ite (.rd (.var .T)) (.num 1000 0) (.var .Kc) (.sub (.add (.add (.num 71202864169999991 16) (.mul (.neg (.num 23813621499999997 16)) (.rd (.var .logT)))) (.mul (.rd (.var .T)) (.add (.num 65601546298526669 19) (.mul (.rd (.var .T)) (.add (.neg (.num 29564407919993198 22)) (.mul (.rd (.var .T)) (.add (.num 91463821102506801 26) (.mul (.neg (.num 13644229154638662 29)) (.rd (.var .T)))))))))) (.div (.neg (.num 40485779499999997 12)) (.rd (.var .T)))) (.sub (.add (.add (.neg (.num 16358345784000001 15)) (.mul (.num 15131141799999996 16) (.rd (.var .logT)))) (.mul (.rd (.var .T)) (.add (.num 71579047957851232 21) (.mul (.rd (.var .T)) (.add (.neg (.num 99267781473967528 24)) (.mul (.rd (.var .T)) (.add (.num 17426762938737301 27) (.mul (.neg (.num 1133606375090132 30)) (.rd (.var .T)))))))))) (.div (.neg (.num 41455628100000009 12)) (.rd (.var .T)))),
  .set (.var .Kc) (.mul (.num 1 0) (.exp (.rd (.var .Kc)))),
  .set (.arr .rev 245) (.div (.mul (.mul (.rd (.arr .C 1)) (.rd (.arr .C 46))) (.rd (.var .kf))) (.rd (.var .Kc)))]

/-- utilities/mechanisms/gri30/lib/src/rxn_rates.c:2974-2985 -/
def rate247 : List CStmt := [
  .set (.var .kf) (.num 24600000000 0),
  .set (.arr .fwd 247) (.mul (.mul (.rd (.arr .C 9)) (.rd (.arr .C 35))) (.rd (.var .kf))),
  .ite (.rd (.var .T)) (.num 1000 0) (.var .Kc) (.sub (.add (.add (.num 42105307599999993 16) (.mul (.neg (.num 98710710999999929 17)) (.rd (.var .logT)))) (.mul (.rd (.var .T)) (.add (.num 53560756950000012 20) (.mul (.rd (.var .T)) (.add (.num 73798554166666652 23) (.mul (.rd (.var .T)) (.add (.neg (.num 59503726416666657 26)) (.mul (.num 147010116 21) (.rd (.var .T)))))))))) (.div (.neg (.num 20697714439999989 12)) (.rd (.var .T)))) (.sub (.add (.add (.num 35446248799999989 16) (.mul (.neg (.num 95095304999999986 17)) (.rd (.var .logT)))) (.mul (.rd (.var .T)) (.add (.num 14849139644999999 19) (.mul (.rd (.var .T)) (.add (.neg (.num 38645916583333338 23)) (.mul (.rd (.var .T)) (.add (.num 56718183583333342 27) (.mul (.neg (.num 34480648849999998 31)) (.rd (.var .T)))))))))) (.div (.neg (.num 20787719850000009 12)) (.rd (.var .T)))),
  .set (.var .Kc) (.mul (.num 1 0) (.exp (.rd (.var .Kc)))),
  .set (.arr .rev 246) (.div (.mul (.mul (.rd (.arr .C 16)) (.rd (.arr .C 30))) (.rd (.var .kf))) (.rd (.var .Kc)))]

/-- utilities/mechanisms/gri30/lib/src/rxn_rates.c:2986-3003 -/
def rate248 : List CStmt := [
  .set (.var .kf) (.exp (.sub (.sub (.num 33367593413407739 15) (.mul (.num 138 2) (.rd (.var .logT)))) (.div (.num 63908884737113658 14) (.rd (.var .T))))),
  .set (.arr .fwd 248) (.mul (.mul (.rd (.arr .C 10)) (.rd (.arr .C 35))) (.rd (.var .kf))),
  .ite (.rd (.var .T)) (.num 1000 0) (.var .Kc) (.sub (.add (.add (.num 11910938669999998 16) (.mul (.neg (.num 44811549700000004 16)) (.rd (.var .logT)))) (.mul (.rd (.var .T)) (.add (.num 18350519288526665 19) (.mul (.rd (.var .T)) (.add (.neg (.num 23059867353326534 22)) (.mul (.rd (.var .T)) (.add (.num 10989205776917348 25) (.mul (.neg (.num 2245497095463866 28)) (.rd (.var .T)))))))))) (.div (.neg (.num 30375003199999999 12)) (.rd (.var .T)))) (.sub (.add (.add (.neg (.num 9352472134000001 15)) (.mul (.neg (.num 26347067200000001 16)) (.rd (.var .logT)))) (.mul (.rd (.var .T)) (.add (.neg (.num 24237486215421488 19)) (.mul (.rd (.var .T)) (.add (.num 30635274435936579 23) (.mul (.rd (.var .T)) (.add (.neg (.num 27469768561262694 27)) (.mul (.num 1140318354909868 30) (.rd (.var .T)))))))))) (.div (.neg (.num 30710918700000002 12)) (.rd (.var .T)))),
  .ite (.rd (.var .T)) (.num 1478 0) (.var .Kc) (.add (.rd (.var .Kc)) (.sub (.add (.add (.num 25636141000000001 16) (.mul (.num 26309631699999998 16) (.rd (.var .logT)))) (.mul (.rd (.var .T)) (.add (.num 36514117850000001 19) (.mul (.rd (.var .T)) (.add (.neg (.num 38008333833333334 23)) (.mul (.rd (.var .T)) (.add (.neg (.num 55105941500000004 27)) (.mul (.num 18111787599999998 30) (.rd (.var .T)))))))))) (.div (.neg (.num 15587363600000001 12)) (.rd (.var .T))))) (.add (.rd (.var .Kc)) (.sub (.add (.add (.neg (.num 14606198750000001 15)) (.mul (.num 52239513400000002 16) (.rd (.var .logT)))) (.mul (.rd (.var .T)) (.add (.num 15893200200000001 19) (.mul (.rd (.var .T)) (.add (.neg (.num 182297925 15)) (.mul (.rd (.var .T)) (.add (.num 1422793025 20) (.mul (.neg (.num 49751097749999999 32)) (.rd (.var .T)))))))))) (.div (.neg (.num 16659934399999998 12)) (.rd (.var .T))))),
  .set (.var .Kc) (.mul (.num 1 0) (.exp (.rd (.var .Kc)))),
  .set (.arr .rev 247) (.div (.mul (.mul (.rd (.arr .C 45)) (.rd (.arr .C 1))) (.rd (.var .kf))) (.rd (.var .Kc)))]

/-- utilities/mechanisms/gri30/lib/src/rxn_rates.c:3004-3015 -/
def rate249 : List CStmt := [
  .set (.var .kf) (.exp (.sub (.sub (.num 26393146759926932 15) (.mul (.num 69 2) (.rd (.var .logT)))) (.div (.num 38244686929296358 14) (.rd (.var .T))))),
  .set (.arr .fwd 249) (.mul (.mul (.rd (.arr .C 10)) (.rd (.arr .C 35))) (.rd (.var .kf))),
  .ite (.rd (.var .T)) (.num 1000 0) (.var .Kc) (.sub (.add (.add (.num 66992891319999988 16) (.mul (.neg (.num 17301509400000001 16)) (.rd (.var .logT)))) (.mul (.rd (.var .T)) (.add (.num 56599781684999999 19) (.mul (.rd (.var .T)) (.add (.neg (.num 37616241666666665 22)) (.mul (.rd (.var .T)) (.add (.num 16165218833333336 25) (.mul (.neg (.num 30678911449999998 29)) (.rd (.var .T)))))))))) (.div (.neg (.num 37520949540000001 12)) (.rd (.var .T)))) (.sub (.add (.add (.neg (.num 72487598800000006 16)) (.mul (.num 76042014000000036 17) (.rd (.var .logT)))) (.mul (.rd (.var .T)) (.add (.neg (.num 57632235199999999 20)) (.mul (.rd (.var .T)) (.add (.num 15023386299999997 23) (.mul (.rd (.var .T)) (.add (.neg (.num 20948816966666665 27)) (.mul (.num 12373923600000001 31) (.rd (.var .T)))))))))) (.div (.neg (.num 379186296 4)) (.rd (.var .T)))),
  .set (.var .Kc) (.mul (.num 1 0) (.exp (.rd (.var .Kc)))),
  .set (.arr .rev 248) (.div (.mul (.mul (.rd (.arr .C 40)) (.rd (.arr .C 4))) (.rd (.var .kf))) (.rd (.var .Kc)))]

/-- utilities/mechanisms/gri30/lib/src/rxn_rates.c:3016-3033 -/
def rate250 : List CStmt := [
  .set (.var .kf) (.exp (.sub (.sub (.num 24360851996672796 15) (.mul (.num 36 2) (.rd (.var .logT)))) (.div (.num 29186734761831434 14) (.rd (.var .T))))),
  .set (.arr .fwd 250) (.mul (.mul (.rd (.arr .C 10)) (.rd (.arr .C 35))) (.rd (.var .kf))),
  .ite (.rd (.var .T)) (.num 1000 0) (.var .Kc) (.sub (.add (.add (.num 11910938669999998 16) (.mul (.neg (.num 44811549700000004 16)) (.rd (.var .logT)))) (.mul (.rd (.var .T)) (.add (.num 18350519288526665 19) (.mul (.rd (.var .T)) (.add (.neg (.num 23059867353326534 22)) (.mul (.rd (.var .T)) (.add (.num 10989205776917348 25) (.mul (.neg (.num 2245497095463866 28)) (.rd (.var .T)))))))))) (.div (.neg (.num 30375003199999999 12)) (.rd (.var .T)))) (.sub (.add (.add (.neg (.num 9352472134000001 15)) (.mul (.neg (.num 26347067200000001 16)) (.rd (.var .logT)))) (.mul (.rd (.var .T)) (.add (.neg (.num 24237486215421488 19)) (.mul (.rd (.var .T)) (.add (.num 30635274435936579 23) (.mul (.rd (.var .T)) (.add (.neg (.num 27469768561262694 27)) (.mul (.num 1140318354909868 30) (.rd (.var .T)))))))))) (.div (.neg (.num 30710918700000002 12)) (.rd (.var .T)))),
  .ite (.rd (.var .T)) (.num 1382 0) (.var .Kc) (.add (.rd (.var .Kc)) (.sub (.add (.add (.num 80860173100000008 16) (.mul (.num 16472798900000001 16) (.rd (.var .logT)))) (.mul (.rd (.var .T)) (.add (.num 63752671 10) (.mul (.rd (.var .T)) (.add (.neg (.num 17465705999999998 22)) (.mul (.rd (.var .T)) (.add (.num 36786069666666668 26) (.mul (.neg (.num 37876073300000002 30)) (.rd (.var .T)))))))))) (.div (.num 192990252 4) (.rd (.var .T))))) (.add (.rd (.var .Kc)) (.sub (.add (.add (.neg (.num 16929264459999999 15)) (.mul (.num 55986045600000001 16) (.rd (.var .logT)))) (.mul (.rd (.var .T)) (.add (.num 151389313 11) (.mul (.rd (.var .T)) (.add (.neg (.num 17950724333333333 23)) (.mul (.rd (.var .T)) (.add (.num 14305544 18) (.mul (.neg (.num 50719695499999999 32)) (.rd (.var .T)))))))))) (.div (.num 17966133900000001 12) (.rd (.var .T))))),
  .set (.var .Kc) (.mul (.num 1 0) (.exp (.rd (.var .Kc)))),
  .set (.arr .rev 249) (.div (.mul (.mul (.rd (.arr .C 1)) (.rd (.arr .C 43))) (.rd (.var .kf))) (.rd (.var .Kc)))]

/-- utilities/mechanisms/gri30/lib/src/rxn_rates.c:3034-3051 -/
def rate251 : List CStmt := [
  .set (.var .kf) (.exp (.sub (.sub (.num 33367593413407739 15) (.mul (.num 138 2) (.rd (.var .logT)))) (.div (.num 63908884737113658 14) (.rd (.var .T))))),
  .set (.arr .fwd 251) (.mul (.mul (.rd (.arr .C 11)) (.rd (.arr .C 35))) (.rd (.var .kf))),
  .ite (.rd (.var .T)) (.num 1000 0) (.var .Kc) (.sub (.add (.add (.num 39586701239999993 16) (.mul (.neg (.num 49170804099999996 16)) (.rd (.var .logT)))) (.mul (.rd (.var .T)) (.add (.num 35027950953526667 19) (.mul (.rd (.var .T)) (.add (.neg (.num 32123307003326533 22)) (.mul (.rd (.var .T)) (.add (.num 13353579343584013 25) (.mul (.neg (.num 23733621854638661 29)) (.rd (.var .T)))))))))) (.div (.neg (.num 34867779399999999 12)) (.rd (.var .T)))) (.sub (.add (.add (.neg (.num 12389843294 9)) (.mul (.neg (.num 20526440099999999 16)) (.rd (.var .logT)))) (.mul (.rd (.var .T)) (.add (.neg (.num 29234953465421486 19)) (.mul (.rd (.var .T)) (.add (.num 40684832769269914 23) (.mul (.rd (.var .T)) (.add (.neg (.num 40613639477929367 27)) (.mul (.num 19002623449098677 31) (.rd (.var .T)))))))))) (.div (.neg (.num 35373314400000003 12)) (.rd (.var .T)))),
  .ite (.rd (.var .T)) (.num 1478 0) (.var .Kc) (.add (.rd (.var .Kc)) (.sub (.add (.add (.num 25636141000000001 16) (.mul (.num 26309631699999998 16) (.rd (.var .logT)))) (.mul (.rd (.var .T)) (.add (.num 36514117850000001 19) (.mul (.rd (.var .T)) (.add (.neg (.num 38008333833333334 23)) (.mul (.rd (.var .T)) (.add (.neg (.num 55105941500000004 27)) (.mul (.num 18111787599999998 30) (.rd (.var .T)))))))))) (.div (.neg (.num 15587363600000001 12)) (.rd (.var .T))))) (.add (.rd (.var .Kc)) (.sub (.add (.add (.neg (.num 14606198750000001 15)) (.mul (.num 52239513400000002 16) (.rd (.var .logT)))) (.mul (.rd (.var .T)) (.add (.num 15893200200000001 19) (.mul (.rd (.var .T)) (.add (.neg (.num 182297925 15)) (.mul (.rd (.var .T)) (.add (.num 1422793025 20) (.mul (.neg (.num 49751097749999999 32)) (.rd (.var .T)))))))))) (.div (.neg (.num 16659934399999998 12)) (.rd (.var .T))))),
  .set (.var .Kc) (.mul (.num 1 0) (.exp (.rd (.var .Kc)))),
  .set (.arr .rev 250) (.div (.mul (.mul (.rd (.arr .C 45)) (.rd (.arr .C 1))) (.rd (.var .kf))) (.rd (.var .Kc)))]

/-- utilities/mechanisms/gri30/lib/src/rxn_rates.c:3052-3063 -/
def rate252 : List CStmt := [
  .set (.var .kf) (.exp (.sub (.sub (.num 26393146759926932 15) (.mul (.num 69 2) (.rd (.var .logT)))) (.div (.num 38244686929296358 14) (.rd (.var .T))))),
  .set (.arr .fwd 252) (.mul (.mul (.rd (.arr .C 11)) (.rd (.arr .C 35))) (.rd (.var .kf))),
  .ite (.rd (.var .T)) (.num 1000 0) (.var .Kc) (.sub (.add (.add (.num 94668653889999987 16) (.mul (.neg (.num 21660763799999998 16)) (.rd (.var .logT)))) (.mul (.rd (.var .T)) (.add (.num 73277213350000005 19) (.mul (.rd (.var .T)) (.add (.neg (.num 46679681316666663 22)) (.mul (.rd (.var .T)) (.add (.num 18529592400000001 25) (.mul (.neg (.num 31957562349999998 29)) (.rd (.var .T)))))))))) (.div (.neg (.num 42013725739999994 12)) (.rd (.var .T)))) (.sub (.add (.add (.neg (.num 10286131040000001 15)) (.mul (.num 13424828500000006 16) (.rd (.var .logT)))) (.mul (.rd (.var .T)) (.add (.neg (.num 10760690769999999 19)) (.mul (.rd (.var .T)) (.add (.num 25072944633333332 23) (.mul (.rd (.var .T)) (.add (.neg (.num 34092687883333338 27)) (.mul (.num 19973363500000001 31) (.rd (.var .T)))))))))) (.div (.neg (.num 42581025300000001 12)) (.rd (.var .T)))),
  .set (.var .Kc) (.mul (.num 1 0) (.exp (.rd (.var .Kc)))),
  .set (.arr .rev 251) (.div (.mul (.mul (.rd (.arr .C 40)) (.rd (.arr .C 4))) (.rd (.var .kf))) (.rd (.var .Kc)))]

/-- utilities/mechanisms/gri30/lib/src/rxn_rates.c:3064-3081 -/
def rate253 : List CStmt := [
  .set (.var .kf) (.exp (.sub (.sub (.num 24360851996672796 15) (.mul (.num 36 2) (.rd (.var .logT)))) (.div (.num 29186734761831434 14) (.rd (.var .T))))),
  .set (.arr .fwd 253) (.mul (.mul (.rd (.arr .C 11)) (.rd (.arr .C 35))) (.rd (.var .kf))),
  .ite (.rd (.var .T)) (.num 1000 0) (.var .Kc) (.sub (.add (.add (.num 39586701239999993 16) (.mul (.neg (.num 49170804099999996 16)) (.rd (.var .logT)))) (.mul (.rd (.var .T)) (.add (.num 35027950953526667 19) (.mul (.rd (.var .T)) (.add (.neg (.num 32123307003326533 22)) (.mul (.rd (.var .T)) (.add (.num 13353579343584013 25) (.mul (.neg (.num 23733621854638661 29)) (.rd (.var .T)))))))))) (.div (.neg (.num 34867779399999999 12)) (.rd (.var .T)))) (.sub (.add (.add (.neg (.num 12389843294 9)) (.mul (.neg (.num 20526440099999999 16)) (.rd (.var .logT)))) (.mul (.rd (.var .T)) (.add (.neg (.num 29234953465421486 19)) (.mul (.rd (.var .T)) (.add (.num 40684832769269914 23) (.mul (.rd (.var .T)) (.add (.neg (.num 40613639477929367 27)) (.mul (.num 19002623449098677 31) (.rd (.var .T)))))))))) (.div (.neg (.num 35373314400000003 12)) (.rd (.var .T)))),
  .ite (.rd (.var .T)) (.num 1382 0) (.var .Kc) (.add (.rd (.var .Kc)) (.sub (.add (.add (.num 80860173100000008 16) (.mul (.num 16472798900000001 16) (.rd (.var .logT)))) (.mul (.rd (.var .T)) (.add (.num 63752671 10) (.mul (.rd (.var .T)) (.add (.neg (.num 17465705999999998 22)) (.mul (.rd (.var .T)) (.add (.num 36786069666666668 26) (.mul (.neg (.num 37876073300000002 30)) (.rd (.var .T)))))))))) (.div (.num 192990252 4) (.rd (.var .T))))) (.add (.rd (.var .Kc)) (.sub (.add (.add (.neg (.num 16929264459999999 15)) (.mul (.num 55986045600000001 16) (.rd (.var .logT)))) (.mul (.rd (.var .T)) (.add (.num 151389313 11) (.mul (.rd (.var .T)) (.add (.neg (.num 17950724333333333 23)) (.mul (.rd (.var .T)) (.add (.num 14305544 18) (.mul (.neg (.num 50719695499999999 32)) (.rd (.var .T)))))))))) (.div (.num 17966133900000001 12) (.rd (.var .T))))),
  .set (.var .Kc) (.mul (.num 1 0) (.exp (.rd (.var .Kc)))),
  .set (.arr .rev 252) (.div (.mul (.mul (.rd (.arr .C 1)) (.rd (.arr .C 43))) (.rd (.var .kf))) (.rd (.var .Kc)))]

/-- utilities/mechanisms/gri30/lib/src/rxn_rates.c:3082-3093 -/
def rate254 : List CStmt := [
  .set (.var .kf) (.exp (.sub (.num 25287614028414247 15) (.div (.num 14492723467943884 12) (.rd (.var .T))))),
  .set (.arr .fwd 254) (.mul (.mul (.rd (.arr .C 12)) (.rd (.arr .C 35))) (.rd (.var .kf))),
  .ite (.rd (.var .T)) (.num 1000 0) (.var .Kc) (.sub (.add (.add (.num 5616436502 9) (.mul (.neg (.num 14344375400000002 16)) (.rd (.var .logT)))) (.mul (.rd (.var .T)) (.add (.num 53213800749999998 19) (.mul (.rd (.var .T)) (.add (.neg (.num 3933766908333333 21)) (.mul (.rd (.var .T)) (.add (.num 17343073358333334 25) (.mul (.neg (.num 32921794850000001 29)) (.rd (.var .T)))))))))) (.div (.neg (.num 41870715499999998 12)) (.rd (.var .T)))) (.sub (.add (.add (.neg (.num 9597052660000001 15)) (.mul (.num 128990837 8) (.rd (.var .logT)))) (.mul (.rd (.var .T)) (.add (.neg (.num 15538319149999997 19)) (.mul (.rd (.var .T)) (.add (.num 36483715699999999 23) (.mul (.rd (.var .T)) (.add (.neg (.num 49665560833333334 27)) (.mul (.num 28884695750000003 31) (.rd (.var .T)))))))))) (.div (.neg (.num 42293563999999998 12)) (.rd (.var .T)))),
  .set (.var .Kc) (.mul (.num 1 0) (.exp (.rd (.var .Kc)))),
  .set (.arr .rev 253) (.div (.mul (.mul (.rd (.arr .C 5)) (.rd (.arr .C 40))) (.rd (.var .kf))) (.rd (.var .Kc)))]

/-- utilities/mechanisms/gri30/lib/src/rxn_rates.c:3094-3105 -/
def rate255 : List CStmt := [
  .set (.var .kf) (.exp (.sub (.num 2072326583694641 14) (.div (.num 10945025535686787 12) (.rd (.var .T))))),
  .set (.arr .fwd 255) (.mul (.mul (.rd (.arr .C 12)) (.rd (.arr .C 35))) (.rd (.var .kf))),
  .ite (.rd (.var .T)) (.num 1000 0) (.var .Kc) (.sub (.add (.add (.num 6051805181999999 15) (.mul (.neg (.num 10483902699999996 16)) (.rd (.var .logT)))) (.mul (.rd (.var .T)) (.add (.num 29609699150000002 19) (.mul (.rd (.var .T)) (.add (.neg (.num 18470270250000002 22)) (.mul (.rd (.var .T)) (.add (.num 89196369333333333 26) (.mul (.neg (.num 21092152250000002 29)) (.rd (.var .T)))))))))) (.div (.num 59632787599999974 13) (.rd (.var .T)))) (.sub (.add (.add (.neg (.num 17573423740000003 15)) (.mul (.num 27562673500000008 16) (.rd (.var .logT)))) (.mul (.rd (.var .T)) (.add (.neg (.num 24566419270000001 19)) (.mul (.rd (.var .T)) (.add (.num 54287671300000004 23) (.mul (.rd (.var .T)) (.add (.neg (.num 7638695571666666 26)) (.mul (.num 46461437949999995 31) (.rd (.var .T)))))))))) (.div (.num 48392071000000014 13) (.rd (.var .T)))),
  .set (.var .Kc) (.mul (.num 1 0) (.exp (.rd (.var .Kc)))),
  .set (.arr .rev 254) (.div (.mul (.mul (.rd (.arr .C 41)) (.rd (.arr .C 4))) (.rd (.var .kf))) (.rd (.var .Kc)))]

/-- utilities/mechanisms/gri30/lib/src/rxn_rates.c:3106-3117 -/
def rate256 : List CStmt := [
  .set (.var .kf) (.num 22000000000 0),
  .set (.arr .fwd 256) (.mul (.mul (.rd (.arr .C 2)) (.rd (.arr .C 42))) (.rd (.var .kf))),
  .ite (.rd (.var .T)) (.num 1000 0) (.var .Kc) (.sub (.add (.add (.neg (.num 10401329003000001 15)) (.mul (.num 26856239699999995 16) (.rd (.var .logT)))) (.mul (.rd (.var .T)) (.add (.neg (.num 59417067196473328 19)) (.mul (.rd (.var .T)) (.add (.num 15378137280006799 22) (.mul (.rd (.var .T)) (.add (.num 4592059385840126 26) (.mul (.neg (.num 1113100204963866 28)) (.rd (.var .T)))))))))) (.div (.neg (.num 73275569199999998 12)) (.rd (.var .T)))) (.sub (.add (.add (.num 13993475726 9) (.mul (.neg (.num 13222313600000004 16)) (.rd (.var .logT)))) (.mul (.rd (.var .T)) (.add (.neg (.num 17655878969214875 20)) (.mul (.rd (.var .T)) (.add (.neg (.num 1835368957300915 24)) (.mul (.rd (.var .T)) (.add (.num 40456010970706355 28) (.mul (.neg (.num 41258865059013216 32)) (.rd (.var .T)))))))))) (.div (.neg (.num 72271530299999999 12)) (.rd (.var .T)))),
  .set (.var .Kc) (.mul (.num 12186597134166982 15) (.exp (.rd (.var .Kc)))),
  .set (.arr .rev 255) (.div (.mul (.mul (.mul (.rd (.arr .C 1)) (.rd (.arr .C 52))) (.rd (.arr .C 14))) (.rd (.var .kf))) (.rd (.var .Kc)))]

/-- utilities/mechanisms/gri30/lib/src/rxn_rates.c:3118-3129 -/
def rate257 : List CStmt := [
  .set (.var .kf) (.num 2000000000 0),
  .set (.arr .fwd 257) (.mul (.mul (.rd (.arr .C 2)) (.rd (.arr .C 42))) (.rd (.var .kf))),
  .ite (.rd (.var .T)) (.num 1000 0) (.var .Kc) (.sub (.add (.add (.neg (.num 33153935599999986 16)) (.mul (.num 78487839999999931 17) (.rd (.var .logT)))) (.mul (.rd (.var .T)) (.add (.neg (.num 36345530800000001 19)) (.mul (.rd (.var .T)) (.add (.num 16437581733333331 22) (.mul (.rd (.var .T)) (.add (.neg (.num 43677167999999997 26)) (.mul (.num 45887614500000017 30) (.rd (.var .T)))))))))) (.div (.neg (.num 58826987199999996 12)) (.rd (.var .T)))) (.sub (.add (.add (.num 96646865399999999 16) (.mul (.neg (.num 14012121800000004 16)) (.rd (.var .logT)))) (.mul (.rd (.var .T)) (.add (.num 21695265685000003 20) (.mul (.rd (.var .T)) (.add (.num 10650093516666671 24) (.mul (.rd (.var .T)) (.add (.neg (.num 39017442583333353 28)) (.mul (.num 25164910950000016 32) (.rd (.var .T)))))))))) (.div (.neg (.num 58342253499999999 12)) (.rd (.var .T)))),
  .set (.var .Kc) (.mul (.num 1 0) (.exp (.rd (.var .Kc)))),
  .set (.arr .rev 256) (.div (.mul (.mul (.rd (.arr .C 40)) (.rd (.arr .C 35))) (.rd (.var .kf))) (.rd (.var .Kc)))]

/-- utilities/mechanisms/gri30/lib/src/rxn_rates.c:3130-3141 -/
def rate258 : List CStmt := [
  .set (.var .kf) (.num 12000000000 0),
  .set (.arr .fwd 258) (.mul (.mul (.rd (.arr .C 3)) (.rd (.arr .C 42))) (.rd (.var .kf))),
  .ite (.rd (.var .T)) (.num 1000 0) (.var .Kc) (.sub (.add (.add (.neg (.num 1031822202 8)) (.mul (.num 33813541800000002 16) (.rd (.var .logT)))) (.mul (.rd (.var .T)) (.add (.neg (.num 90394442999999994 19)) (.mul (.rd (.var .T)) (.add (.num 42381397583333334 22) (.mul (.rd (.var .T)) (.add (.neg (.num 13537671208333331 25)) (.mul (.num 19987518950000001 29) (.rd (.var .T)))))))))) (.div (.neg (.num 21257116179999997 12)) (.rd (.var .T)))) (.sub (.add (.add (.num 21121969350000001 15) (.mul (.neg (.num 190893888 8)) (.rd (.var .logT)))) (.mul (.rd (.var .T)) (.add (.num 44313725315000023 20) (.mul (.rd (.var .T)) (.add (.neg (.num 1091298336833333 22)) (.mul (.rd (.var .T)) (.add (.num 14845822758333344 27) (.mul (.neg (.num 85547098949999974 32)) (.rd (.var .T)))))))))) (.div (.neg (.num 20057783730000003 12)) (.rd (.var .T)))),
  .set (.var .Kc) (.mul (.num 12186597134166982 15) (.exp (.rd (.var .Kc)))),
  .set (.arr .rev 257) (.div (.mul (.mul (.mul (.rd (.arr .C 52)) (.rd (.arr .C 16))) (.rd (.arr .C 2))) (.rd (.var .kf))) (.rd (.var .Kc)))]

/-- utilities/mechanisms/gri30/lib/src/rxn_rates.c:3142-3153 -/
def rate259 : List CStmt := [
  .set (.var .kf) (.num 12000000000 0),
  .set (.arr .fwd 259) (.mul (.mul (.rd (.arr .C 42)) (.rd (.arr .C 4))) (.rd (.var .kf))),
  .ite (.rd (.var .T)) (.num 1000 0) (.var .Kc) (.sub (.add (.add (.neg (.num 81774109750000008 16)) (.mul (.num 25035280100000006 16) (.rd (.var .logT)))) (.mul (.rd (.var .T)) (.add (.neg (.num 7697493199647334 18)) (.mul (.rd (.var .T)) (.add (.num 40025230313340135 22) (.mul (.rd (.var .T)) (.add (.neg (.num 13264417473082653 25)) (.mul (.num 18822288745361339 29) (.rd (.var .T)))))))))) (.div (.neg (.num 29584739599999997 12)) (.rd (.var .T)))) (.sub (.add (.add (.num 16747253585999999 15) (.mul (.neg (.num 17887094800000001 16)) (.rd (.var .logT)))) (.mul (.rd (.var .T)) (.add (.num 95345321045785128 20) (.mul (.rd (.var .T)) (.add (.neg (.num 26353322364063423 23)) (.mul (.rd (.var .T)) (.add (.num 4046536323873731 26) (.mul (.neg (.num 25875386600901318 31)) (.rd (.var .T)))))))))) (.div (.neg (.num 28748817649999997 12)) (.rd (.var .T)))),
  .set (.var .Kc) (.mul (.num 12186597134166982 15) (.exp (.rd (.var .Kc)))),
  .set (.arr .rev 258) (.div (.mul (.mul (.mul (.rd (.arr .C 1)) (.rd (.arr .C 52))) (.rd (.arr .C 16))) (.rd (.var .kf))) (.rd (.var .Kc)))]

/-- utilities/mechanisms/gri30/lib/src/rxn_rates.c:3154-3165 -/
def rate260 : List CStmt := [
  .set (.var .kf) (.num 100000000000 0),
  .set (.arr .fwd 260) (.mul (.mul (.rd (.arr .C 1)) (.rd (.arr .C 42))) (.rd (.var .kf))),
  .ite (.rd (.var .T)) (.num 1000 0) (.var .Kc) (.sub (.add (.add (.neg (.num 77533195670000001 16)) (.mul (.num 20370362700000002 16) (.rd (.var .logT)))) (.mul (.rd (.var .T)) (.add (.neg (.num 67917532288526662 19)) (.mul (.rd (.var .T)) (.add (.num 29413384019993197 22) (.mul (.rd (.var .T)) (.add (.neg (.num 86124471102506807 26)) (.mul (.num 12391504954638664 29) (.rd (.var .T)))))))))) (.div (.neg (.num 34752503699999994 12)) (.rd (.var .T)))) (.sub (.add (.add (.num 20295349433999998 15) (.mul (.neg (.num 25938950799999998 16)) (.rd (.var .logT)))) (.mul (.rd (.var .T)) (.add (.num 57738692154214863 20) (.mul (.rd (.var .T)) (.add (.neg (.num 63197331026032489 24)) (.mul (.rd (.var .T)) (.add (.num 57213319779293581 28) (.mul (.neg (.num 2715711099098679 31)) (.rd (.var .T)))))))))) (.div (.neg (.num 33585794600000001 12)) (.rd (.var .T)))),
  .set (.var .Kc) (.mul (.num 1 0) (.exp (.rd (.var .Kc)))),
  .set (.arr .rev 259) (.div (.mul (.mul (.rd (.arr .C 10)) (.rd (.arr .C 52))) (.rd (.var .kf))) (.rd (.var .Kc)))]

/-- utilities/mechanisms/gri30/lib/src/rxn_rates.c:3166-3183 -/
def rate261 : List CStmt := [
  .set (.var .kf) (.exp (.sub (.add (.num 11492722757652709 15) (.mul (.num 141 2) (.rd (.var .logT)))) (.div (.num 42773663013028827 13) (.rd (.var .T))))),
  .set (.arr .fwd 261) (.mul (.mul (.rd (.arr .C 45)) (.rd (.arr .C 2))) (.rd (.var .kf))),
  .ite (.rd (.var .T)) (.num 1000 0) (.var .Kc) (.sub (.add (.add (.num 70160316400000013 16) (.mul (.num 16814149199999999 16) (.rd (.var .logT)))) (.mul (.rd (.var .T)) (.add (.num 62878537950000002 19) (.mul (.rd (.var .T)) (.add (.neg (.num 25426125083333329 22)) (.mul (.rd (.var .T)) (.add (.num 92240838833333331 26) (.mul (.neg (.num 16460279789999999 29)) (.rd (.var .T)))))))))) (.div (.neg (.num 35613599900000001 12)) (.rd (.var .T)))) (.sub (.add (.add (.neg (.num 84365298999999982 17)) (.mul (.num 30717323099999994 16) (.rd (.var .logT)))) (.mul (.rd (.var .T)) (.add (.num 29150936868499997 19) (.mul (.rd (.var .T)) (.add (.neg (.num 44692382815000006 23)) (.mul (.rd (.var .T)) (.add (.num 50988039075000003 27) (.mul (.neg (.num 26970600155000002 31)) (.rd (.var .T)))))))))) (.div (.neg (.num 35855897100000002 12)) (.rd (.var .T)))),
  .ite (.rd (.var .T)) (.num 1478 0) (.var .Kc) (.add (.rd (.var .Kc)) (.sub (.add (.add (.neg (.num 25636141000000001 16)) (.mul (.neg (.num 26309631699999998 16)) (.rd (.var .logT)))) (.mul (.rd (.var .T)) (.add (.neg (.num 36514117850000001 19)) (.mul (.rd (.var .T)) (.add (.num 38008333833333334 23) (.mul (.rd (.var .T)) (.add (.num 55105941500000004 27) (.mul (.neg (.num 18111787599999998 30)) (.rd (.var .T)))))))))) (.div (.num 15587363600000001 12) (.rd (.var .T))))) (.add (.rd (.var .Kc)) (.sub (.add (.add (.num 14606198750000001 15) (.mul (.neg (.num 52239513400000002 16)) (.rd (.var .logT)))) (.mul (.rd (.var .T)) (.add (.neg (.num 15893200200000001 19)) (.mul (.rd (.var .T)) (.add (.num 182297925 15) (.mul (.rd (.var .T)) (.add (.neg (.num 1422793025 20)) (.mul (.num 49751097749999999 32) (.rd (.var .T)))))))))) (.div (.num 16659934399999998 12) (.rd (.var .T))))),
  .set (.var .Kc) (.mul (.num 1 0) (.exp (.rd (.var .Kc)))),
  .set (.arr .rev 260) (.div (.mul (.mul (.rd (.arr .C 31)) (.rd (.arr .C 15))) (.rd (.var .kf))) (.rd (.var .Kc)))]

/-- utilities/mechanisms/gri30/lib/src/rxn_rates.c:3184-3201 -/
def rate262 : List CStmt := [
  .set (.var .kf) (.exp (.sub (.add (.num 11918390573078392 15) (.mul (.num 157 2) (.rd (.var .logT)))) (.div (.num 22141660853803154 12) (.rd (.var .T))))),
  .set (.arr .fwd 262) (.mul (.mul (.rd (.arr .C 45)) (.rd (.arr .C 2))) (.rd (.var .kf))),
  .ite (.rd (.var .T)) (.num 1000 0) (.var .Kc) (.sub (.add (.add (.neg (.num 17384404499999992 16)) (.mul (.num 39447579699999991 16) (.rd (.var .logT)))) (.mul (.rd (.var .T)) (.add (.neg (.num 15003259699999999 19)) (.mul (.rd (.var .T)) (.add (.num 21411595616666667 22) (.mul (.rd (.var .T)) (.add (.neg (.num 84183515633333345 26)) (.mul (.num 12641865455000002 29) (.rd (.var .T)))))))))) (.div (.neg (.num 31918048199999997 12)) (.rd (.var .T)))) (.sub (.add (.add (.num 85157061499999998 16) (.mul (.num 21250157299999994 16) (.rd (.var .logT)))) (.mul (.rd (.var .T)) (.add (.num 28214537218500002 19) (.mul (.rd (.var .T)) (.add (.neg (.num 30437866831666667 23)) (.mul (.rd (.var .T)) (.add (.num 24795865158333331 27) (.mul (.neg (.num 10893233835 25)) (.rd (.var .T)))))))))) (.div (.neg (.num 31618869500000001 12)) (.rd (.var .T)))),
  .ite (.rd (.var .T)) (.num 1478 0) (.var .Kc) (.add (.rd (.var .Kc)) (.sub (.add (.add (.neg (.num 25636141000000001 16)) (.mul (.neg (.num 26309631699999998 16)) (.rd (.var .logT)))) (.mul (.rd (.var .T)) (.add (.neg (.num 36514117850000001 19)) (.mul (.rd (.var .T)) (.add (.num 38008333833333334 23) (.mul (.rd (.var .T)) (.add (.num 55105941500000004 27) (.mul (.neg (.num 18111787599999998 30)) (.rd (.var .T)))))))))) (.div (.num 15587363600000001 12) (.rd (.var .T))))) (.add (.rd (.var .Kc)) (.sub (.add (.add (.num 14606198750000001 15) (.mul (.neg (.num 52239513400000002 16)) (.rd (.var .logT)))) (.mul (.rd (.var .T)) (.add (.neg (.num 15893200200000001 19)) (.mul (.rd (.var .T)) (.add (.num 182297925 15) (.mul (.rd (.var .T)) (.add (.neg (.num 1422793025 20)) (.mul (.num 49751097749999999 32) (.rd (.var .T)))))))))) (.div (.num 16659934399999998 12) (.rd (.var .T))))),
  .set (.var .Kc) (.mul (.num 1 0) (.exp (.rd (.var .Kc)))),
  .set (.arr .rev 261) (.div (.mul (.mul (.rd (.arr .C 14)) (.rd (.arr .C 38))) (.rd (.var .kf))) (.rd (.var .Kc)))]

/-- utilities/mechanisms/gri30/lib/src/rxn_rates.c:3202-3219 -/
def rate263 : List CStmt := [
  .set (.var .kf) (.exp (.sub (.add (.num 7696212639346407 15) (.mul (.num 211 2) (.rd (.var .logT)))) (.div (.num 57367030393944542 13) (.rd (.var .T))))),
  .set (.arr .fwd 263) (.mul (.mul (.rd (.arr .C 45)) (.rd (.arr .C 2))) (.rd (.var .kf))),
  .ite (.rd (.var .T)) (.num 1000 0) (.var .Kc) (.sub (.add (.add (.num 3743926552 9) (.mul (.num 26506791299999999 16) (.rd (.var .logT)))) (.mul (.rd (.var .T)) (.add (.num 48415850600000004 19) (.mul (.rd (.var .T)) (.add (.neg (.num 1735289825 15)) (.mul (.rd (.var .T)) (.add (.num 58738577583333326 26) (.mul (.neg (.num 1039952255 22)) (.rd (.var .T)))))))))) (.div (.neg (.num 10824701639999999 12)) (.rd (.var .T)))) (.sub (.add (.add (.neg (.num 85275599299999989 16)) (.mul (.num 46756513900000005 16) (.rd (.var .logT)))) (.mul (.rd (.var .T)) (.add (.num 14697899648499998 19) (.mul (.rd (.var .T)) (.add (.neg (.num 13262912681666668 23)) (.mul (.rd (.var .T)) (.add (.num 58302170249999993 28) (.mul (.num 70755054499999996 33) (.rd (.var .T)))))))))) (.div (.neg (.num 113547991 4)) (.rd (.var .T)))),
  .ite (.rd (.var .T)) (.num 1478 0) (.var .Kc) (.add (.rd (.var .Kc)) (.sub (.add (.add (.neg (.num 25636141000000001 16)) (.mul (.neg (.num 26309631699999998 16)) (.rd (.var .logT)))) (.mul (.rd (.var .T)) (.add (.neg (.num 36514117850000001 19)) (.mul (.rd (.var .T)) (.add (.num 38008333833333334 23) (.mul (.rd (.var .T)) (.add (.num 55105941500000004 27) (.mul (.neg (.num 18111787599999998 30)) (.rd (.var .T)))))))))) (.div (.num 15587363600000001 12) (.rd (.var .T))))) (.add (.rd (.var .Kc)) (.sub (.add (.add (.num 14606198750000001 15) (.mul (.neg (.num 52239513400000002 16)) (.rd (.var .logT)))) (.mul (.rd (.var .T)) (.add (.neg (.num 15893200200000001 19)) (.mul (.rd (.var .T)) (.add (.num 182297925 15) (.mul (.rd (.var .T)) (.add (.neg (.num 1422793025 20)) (.mul (.num 49751097749999999 32) (.rd (.var .T)))))))))) (.div (.num 16659934399999998 12) (.rd (.var .T))))),
  .set (.var .Kc) (.mul (.num 1 0) (.exp (.rd (.var .Kc)))),
  .set (.arr .rev 262) (.div (.mul (.mul (.rd (.arr .C 46)) (.rd (.arr .C 4))) (.rd (.var .kf))) (.rd (.var .Kc)))]

/-- utilities/mechanisms/gri30/lib/src/rxn_rates.c:3220-3237 -/
def rate264 : List CStmt := [
  .set (.var .kf) (.exp (.sub (.add (.num 10021270588192511 15) (.mul (.num 17 1) (.rd (.var .logT)))) (.div (.num 19122343464648179 13) (.rd (.var .T))))),
  .set (.arr .fwd 264) (.mul (.mul (.rd (.arr .C 45)) (.rd (.arr .C 1))) (.rd (.var .kf))),
  .ite (.rd (.var .T)) (.num 1000 0) (.var .Kc) (.sub (.add (.add (.neg (.num 1470286717 9)) (.mul (.num 42835363700000002 16) (.rd (.var .logT)))) (.mul (.rd (.var .T)) (.add (.neg (.num 13582460903526666 19)) (.mul (.rd (.var .T)) (.add (.num 135394152199932 20) (.mul (.rd (.var .T)) (.add (.neg (.num 39204281819173466 26)) (.mul (.num 36982360096386618 30) (.rd (.var .T)))))))))) (.div (.neg (.num 17931835899999998 12)) (.rd (.var .T)))) (.sub (.add (.add (.num 11735859233999999 15) (.mul (.num 20499277 7) (.rd (.var .logT)))) (.mul (.rd (.var .T)) (.add (.num 2634917826542149 18) (.mul (.rd (.var .T)) (.add (.neg (.num 32212230452603252 23)) (.mul (.rd (.var .T)) (.add (.num 30590211894596026 27) (.mul (.neg (.num 1414269324909868 30)) (.rd (.var .T)))))))))) (.div (.neg (.num 174535753 4)) (.rd (.var .T)))),
  .ite (.rd (.var .T)) (.num 1478 0) (.var .Kc) (.add (.rd (.var .Kc)) (.sub (.add (.add (.neg (.num 25636141000000001 16)) (.mul (.neg (.num 26309631699999998 16)) (.rd (.var .logT)))) (.mul (.rd (.var .T)) (.add (.neg (.num 36514117850000001 19)) (.mul (.rd (.var .T)) (.add (.num 38008333833333334 23) (.mul (.rd (.var .T)) (.add (.num 55105941500000004 27) (.mul (.neg (.num 18111787599999998 30)) (.rd (.var .T)))))))))) (.div (.num 15587363600000001 12) (.rd (.var .T))))) (.add (.rd (.var .Kc)) (.sub (.add (.add (.num 14606198750000001 15) (.mul (.neg (.num 52239513400000002 16)) (.rd (.var .logT)))) (.mul (.rd (.var .T)) (.add (.neg (.num 15893200200000001 19)) (.mul (.rd (.var .T)) (.add (.num 182297925 15) (.mul (.rd (.var .T)) (.add (.neg (.num 1422793025 20)) (.mul (.num 49751097749999999 32) (.rd (.var .T)))))))))) (.div (.num 16659934399999998 12) (.rd (.var .T))))),
  .set (.var .Kc) (.mul (.num 1 0) (.exp (.rd (.var .Kc)))),
  .set (.arr .rev 263) (.div (.mul (.mul (.rd (.arr .C 14)) (.rd (.arr .C 32))) (.rd (.var .kf))) (.rd (.var .Kc)))]

/-- utilities/mechanisms/gri30/lib/src/rxn_rates.c:3238-3255 -/
def rate265 : List CStmt := [
  .set (.var .kf) (.exp (.sub (.add (.num 46539603501575231 16) (.mul (.num 25 1) (.rd (.var .logT)))) (.div (.num 66928202126268634 13) (.rd (.var .T))))),
  .set (.arr .fwd 265) (.mul (.mul (.rd (.arr .C 45)) (.rd (.arr .C 1))) (.rd (.var .kf))),
  .ite (.rd (.var .T)) (.num 1000 0) (.var .Kc) (.sub (.add (.add (.num 80088957710000006 16) (.mul (.num 16712619200000001 16) (.rd (.var .logT)))) (.mul (.rd (.var .T)) (.add (.num 83928447746473341 19) (.mul (.rd (.var .T)) (.add (.neg (.num 4644127399667346 21)) (.mul (.rd (.var .T)) (.add (.num 2079908816474932 24) (.mul (.neg (.num 43537385545361338 29)) (.rd (.var .T)))))))))) (.div (.neg (.num 11709118072999998 12)) (.rd (.var .T)))) (.sub (.add (.add (.neg (.num 11292070085999999 15)) (.mul (.num 498946369 8) (.rd (.var .logT)))) (.mul (.rd (.var .T)) (.add (.num 11278868249921486 19) (.mul (.rd (.var .T)) (.add (.neg (.num 63479128026032469 24)) (.mul (.rd (.var .T)) (.add (.neg (.num 26396174387373064 28)) (.mul (.num 54638687509013215 32) (.rd (.var .T)))))))))) (.div (.neg (.num 12419695822 6)) (.rd (.var .T)))),
  .ite (.rd (.var .T)) (.num 1478 0) (.var .Kc) (.add (.rd (.var .Kc)) (.sub (.add (.add (.neg (.num 25636141000000001 16)) (.mul (.neg (.num 26309631699999998 16)) (.rd (.var .logT)))) (.mul (.rd (.var .T)) (.add (.neg (.num 36514117850000001 19)) (.mul (.rd (.var .T)) (.add (.num 38008333833333334 23) (.mul (.rd (.var .T)) (.add (.num 55105941500000004 27) (.mul (.neg (.num 18111787599999998 30)) (.rd (.var .T)))))))))) (.div (.num 15587363600000001 12) (.rd (.var .T))))) (.add (.rd (.var .Kc)) (.sub (.add (.add (.num 14606198750000001 15) (.mul (.neg (.num 52239513400000002 16)) (.rd (.var .logT)))) (.mul (.rd (.var .T)) (.add (.neg (.num 15893200200000001 19)) (.mul (.rd (.var .T)) (.add (.num 182297925 15) (.mul (.rd (.var .T)) (.add (.neg (.num 1422793025 20)) (.mul (.num 49751097749999999 32) (.rd (.var .T)))))))))) (.div (.num 16659934399999998 12) (.rd (.var .T))))),
  .set (.var .Kc) (.mul (.num 1 0) (.exp (.rd (.var .Kc)))),
  .set (.arr .rev 264) (.div (.mul (.mul (.rd (.arr .C 0)) (.rd (.arr .C 46))) (.rd (.var .kf))) (.rd (.var .Kc)))]

/-- utilities/mechanisms/gri30/lib/src/rxn_rates.c:3256-3273 -/
def rate266 : List CStmt := [
  .set (.var .kf) (.exp (.sub (.add (.num 10404262840448617 15) (.mul (.num 15 1) (.rd (.var .logT)))) (.div (.num 18115904334929855 13) (.rd (.var .T))))),
  .set (.arr .fwd 266) (.mul (.mul (.rd (.arr .C 45)) (.rd (.arr .C 4))) (.rd (.var .kf))),
  .ite (.rd (.var .T)) (.num 1000 0) (.var .Kc) (.sub (.add (.add (.num 57718019200000006 16) (.mul (.num 20335559300000008 16) (.rd (.var .logT)))) (.mul (.rd (.var .T)) (.add (.num 45850261100000003 19) (.mul (.rd (.var .T)) (.add (.neg (.num 10806916166666668 22)) (.mul (.rd (.var .T)) (.add (.num 26623825916666662 26) (.mul (.neg (.num 46174801500000004 30)) (.rd (.var .T)))))))))) (.div (.neg (.num 19226330259999999 12)) (.rd (.var .T)))) (.sub (.add (.add (.neg (.num 71474813199999989 16)) (.mul (.num 40932893200000002 16) (.rd (.var .logT)))) (.mul (.rd (.var .T)) (.add (.num 1966832212 12) (.mul (.rd (.var .T)) (.add (.neg (.num 19515154599999999 23)) (.mul (.rd (.var .T)) (.add (.num 11566262383333333 27) (.mul (.neg (.num 20094690000000001 32)) (.rd (.var .T)))))))))) (.div (.neg (.num 19858831099999999 12)) (.rd (.var .T)))),
  .ite (.rd (.var .T)) (.num 1478 0) (.var .Kc) (.add (.rd (.var .Kc)) (.sub (.add (.add (.neg (.num 25636141000000001 16)) (.mul (.neg (.num 26309631699999998 16)) (.rd (.var .logT)))) (.mul (.rd (.var .T)) (.add (.neg (.num 36514117850000001 19)) (.mul (.rd (.var .T)) (.add (.num 38008333833333334 23) (.mul (.rd (.var .T)) (.add (.num 55105941500000004 27) (.mul (.neg (.num 18111787599999998 30)) (.rd (.var .T)))))))))) (.div (.num 15587363600000001 12) (.rd (.var .T))))) (.add (.rd (.var .Kc)) (.sub (.add (.add (.num 14606198750000001 15) (.mul (.neg (.num 52239513400000002 16)) (.rd (.var .logT)))) (.mul (.rd (.var .T)) (.add (.neg (.num 15893200200000001 19)) (.mul (.rd (.var .T)) (.add (.num 182297925 15) (.mul (.rd (.var .T)) (.add (.neg (.num 1422793025 20)) (.mul (.num 49751097749999999 32) (.rd (.var .T)))))))))) (.div (.num 16659934399999998 12) (.rd (.var .T))))),
  .set (.var .Kc) (.mul (.num 1 0) (.exp (.rd (.var .Kc)))),
  .set (.arr .rev 265) (.div (.mul (.mul (.rd (.arr .C 5)) (.rd (.arr .C 46))) (.rd (.var .kf))) (.rd (.var .Kc)))]

/-- utilities/mechanisms/gri30/lib/src/rxn_rates.c:3274-3291 -/
def rate267 : List CStmt := [
  .set (.var .kf) (.exp (.sub (.add (.num 81016777474545716 16) (.mul (.num 15 1) (.rd (.var .logT)))) (.div (.num 18115904334929855 13) (.rd (.var .T))))),
  .set (.arr .fwd 267) (.mul (.mul (.rd (.arr .C 45)) (.rd (.arr .C 4))) (.rd (.var .kf))),
  .ite (.rd (.var .T)) (.num 1000 0) (.var .Kc) (.sub (.add (.add (.num 72943742080000007 16) (.mul (.num 15687609899999999 16) (.rd (.var .logT)))) (.mul (.rd (.var .T)) (.add (.num 4639887895 12) (.mul (.rd (.var .T)) (.add (.neg (.num 77244438333333316 23)) (.mul (.rd (.var .T)) (.add (.num 60733654166666666 27) (.mul (.num 68128726000000049 31) (.rd (.var .T)))))))))) (.div (.neg (.num 3010114026 5)) (.rd (.var .T)))) (.sub (.add (.add (.num 71604353999999981 17) (.mul (.num 25993147200000002 16) (.rd (.var .logT)))) (.mul (.rd (.var .T)) (.add (.num 35366243719999997 19) (.mul (.rd (.var .T)) (.add (.neg (.num 54587121800000003 23)) (.mul (.rd (.var .T)) (.add (.num 62372156133333337 27) (.mul (.neg (.num 33435134199999999 31)) (.rd (.var .T)))))))))) (.div (.neg (.num 30445865999999998 12)) (.rd (.var .T)))),
  .ite (.rd (.var .T)) (.num 1478 0) (.var .Kc) (.add (.rd (.var .Kc)) (.sub (.add (.add (.neg (.num 25636141000000001 16)) (.mul (.neg (.num 26309631699999998 16)) (.rd (.var .logT)))) (.mul (.rd (.var .T)) (.add (.neg (.num 36514117850000001 19)) (.mul (.rd (.var .T)) (.add (.num 38008333833333334 23) (.mul (.rd (.var .T)) (.add (.num 55105941500000004 27) (.mul (.neg (.num 18111787599999998 30)) (.rd (.var .T)))))))))) (.div (.num 15587363600000001 12) (.rd (.var .T))))) (.add (.rd (.var .Kc)) (.sub (.add (.add (.num 14606198750000001 15) (.mul (.neg (.num 52239513400000002 16)) (.rd (.var .logT)))) (.mul (.rd (.var .T)) (.add (.neg (.num 15893200200000001 19)) (.mul (.rd (.var .T)) (.add (.num 182297925 15) (.mul (.rd (.var .T)) (.add (.neg (.num 1422793025 20)) (.mul (.num 49751097749999999 32) (.rd (.var .T)))))))))) (.div (.num 16659934399999998 12) (.rd (.var .T))))),
  .set (.var .Kc) (.mul (.num 1 0) (.exp (.rd (.var .Kc)))),
  .set (.arr .rev 266) (.div (.mul (.mul (.rd (.arr .C 15)) (.rd (.arr .C 32))) (.rd (.var .kf))) (.rd (.var .Kc)))]

/-- utilities/mechanisms/gri30/lib/src/rxn_rates.c:3292-3309 -/
def rate268 : List CStmt := [
  .set (.var .kf) (.exp (.sub (.num 30099120647400166 15) (.div (.num 42632761534868259 12) (.rd (.var .T))))),
  .set (.arr .fwd 268) (.mul (.rd (.arr .C 45)) (.rd (.var .kf))),
  .ite (.rd (.var .T)) (.num 1000 0) (.var .Kc) (.sub (.add (.add (.neg (.num 17157048899999998 16)) (.mul (.num 50724419699999999 16) (.rd (.var .logT)))) (.mul (.rd (.var .T)) (.add (.neg (.num 14928085 11)) (.mul (.rd (.var .T)) (.add (.neg (.num 78705678333333339 24)) (.mul (.rd (.var .T)) (.add (.num 28238750699999998 26) (.mul (.neg (.num 97006059949999999 30)) (.rd (.var .T)))))))))) (.div (.num 27536543000000001 12) (.rd (.var .T)))) (.sub (.add (.add (.num 80605892099999998 16) (.mul (.num 34988784099999997 16) (.rd (.var .logT)))) (.mul (.rd (.var .T)) (.add (.num 16961852150000002 19) (.mul (.rd (.var .T)) (.add (.neg (.num 23726770683333335 23)) (.mul (.rd (.var .T)) (.add (.num 25700125749999999 27) (.mul (.neg (.num 12934609300000001 31)) (.rd (.var .T)))))))))) (.div (.num 27968975599999998 12) (.rd (.var .T)))),
  .ite (.rd (.var .T)) (.num 1478 0) (.var .Kc) (.add (.rd (.var .Kc)) (.sub (.add (.add (.neg (.num 25636141000000001 16)) (.mul (.neg (.num 26309631699999998 16)) (.rd (.var .logT)))) (.mul (.rd (.var .T)) (.add (.neg (.num 36514117850000001 19)) (.mul (.rd (.var .T)) (.add (.num 38008333833333334 23) (.mul (.rd (.var .T)) (.add (.num 55105941500000004 27) (.mul (.neg (.num 18111787599999998 30)) (.rd (.var .T)))))))))) (.div (.num 15587363600000001 12) (.rd (.var .T))))) (.add (.rd (.var .Kc)) (.sub (.add (.add (.num 14606198750000001 15) (.mul (.neg (.num 52239513400000002 16)) (.rd (.var .logT)))) (.mul (.rd (.var .T)) (.add (.neg (.num 15893200200000001 19)) (.mul (.rd (.var .T)) (.add (.num 182297925 15) (.mul (.rd (.var .T)) (.add (.neg (.num 1422793025 20)) (.mul (.num 49751097749999999 32) (.rd (.var .T)))))))))) (.div (.num 16659934399999998 12) (.rd (.var .T))))),
  .set (.var .Kc) (.mul (.num 12186597134166982 15) (.exp (.rd (.var .Kc)))),
  .set (.arr .rev 267) (.div (.mul (.mul (.rd (.arr .C 31)) (.rd (.arr .C 14))) (.rd (.var .kf))) (.rd (.var .Kc)))]

/-- utilities/mechanisms/gri30/lib/src/rxn_rates.c:3310-3327 -/
def rate269 : List CStmt := [
  .set (.var .kf) (.exp (.sub (.sub (.num 28372958460657927 15) (.mul (.num 69 2) (.rd (.var .logT)))) (.div (.num 14341757598486136 13) (.rd (.var .T))))),
  .set (.arr .fwd 269) (.mul (.mul (.rd (.arr .C 1)) (.rd (.arr .C 43))) (.rd (.var .kf))),
  .ite (.rd (.var .T)) (.num 1382 0) (.var .Kc) (.sub (.add (.add (.neg (.num 80860173100000008 16)) (.mul (.neg (.num 16472798900000001 16)) (.rd (.var .logT)))) (.mul (.rd (.var .T)) (.add (.neg (.num 63752671 10)) (.mul (.rd (.var .T)) (.add (.num 17465705999999998 22) (.mul (.rd (.var .T)) (.add (.neg (.num 36786069666666668 26)) (.mul (.num 37876073300000002 30) (.rd (.var .T)))))))))) (.div (.neg (.num 192990252 4)) (.rd (.var .T)))) (.sub (.add (.add (.num 16929264459999999 15) (.mul (.neg (.num 55986045600000001 16)) (.rd (.var .logT)))) (.mul (.rd (.var .T)) (.add (.neg (.num 151389313 11)) (.mul (.rd (.var .T)) (.add (.num 17950724333333333 23) (.mul (.rd (.var .T)) (.add (.neg (.num 14305544 18)) (.mul (.num 50719695499999999 32) (.rd (.var .T)))))))))) (.div (.neg (.num 17966133900000001 12)) (.rd (.var .T)))),
  .ite (.rd (.var .T)) (.num 1478 0) (.var .Kc) (.add (.rd (.var .Kc)) (.sub (.add (.add (.num 25636141000000001 16) (.mul (.num 26309631699999998 16) (.rd (.var .logT)))) (.mul (.rd (.var .T)) (.add (.num 36514117850000001 19) (.mul (.rd (.var .T)) (.add (.neg (.num 38008333833333334 23)) (.mul (.rd (.var .T)) (.add (.neg (.num 55105941500000004 27)) (.mul (.num 18111787599999998 30) (.rd (.var .T)))))))))) (.div (.neg (.num 15587363600000001 12)) (.rd (.var .T))))) (.add (.rd (.var .Kc)) (.sub (.add (.add (.neg (.num 14606198750000001 15)) (.mul (.num 52239513400000002 16) (.rd (.var .logT)))) (.mul (.rd (.var .T)) (.add (.num 15893200200000001 19) (.mul (.rd (.var .T)) (.add (.neg (.num 182297925 15)) (.mul (.rd (.var .T)) (.add (.num 1422793025 20) (.mul (.neg (.num 49751097749999999 32)) (.rd (.var .T)))))))))) (.div (.neg (.num 16659934399999998 12)) (.rd (.var .T))))),
  .set (.var .Kc) (.mul (.num 1 0) (.exp (.rd (.var .Kc)))),
  .set (.arr .rev 268) (.div (.mul (.mul (.rd (.arr .C 45)) (.rd (.arr .C 1))) (.rd (.var .kf))) (.rd (.var .Kc)))]

/-- utilities/mechanisms/gri30/lib/src/rxn_rates.c:3328-3345 -/
def rate270 : List CStmt := [
  .set (.var .kf) (.exp (.sub (.add (.num 1941393251696265 14) (.mul (.num 18 2) (.rd (.var .logT)))) (.div (.num 10668254775014248 13) (.rd (.var .T))))),
  .set (.arr .fwd 270) (.mul (.mul (.rd (.arr .C 1)) (.rd (.arr .C 43))) (.rd (.var .kf))),
  .ite (.rd (.var .T)) (.num 1000 0) (.var .Kc) (.sub (.add (.add (.num 55081952649999995 16) (.mul (.num 27510040299999998 16) (.rd (.var .logT)))) (.mul (.rd (.var .T)) (.add (.num 38249262396473339 19) (.mul (.rd (.var .T)) (.add (.neg (.num 14556374313340133 22)) (.mul (.rd (.var .T)) (.add (.num 51760130564159879 26) (.mul (.neg (.num 82239404953613387 30)) (.rd (.var .T)))))))))) (.div (.neg (.num 71459463399999986 13)) (.rd (.var .T)))) (.sub (.add (.add (.num 21037122539999999 16) (.mul (.num 33951268600000004 16) (.rd (.var .logT)))) (.mul (.rd (.var .T)) (.add (.num 18474262695421487 19) (.mul (.rd (.var .T)) (.add (.neg (.num 15611888135936581 23)) (.mul (.rd (.var .T)) (.add (.num 65209515945960296 28) (.mul (.num 97074005090132127 33) (.rd (.var .T)))))))))) (.div (.neg (.num 72077108999999982 13)) (.rd (.var .T)))),
  .ite (.rd (.var .T)) (.num 1382 0) (.var .Kc) (.add (.rd (.var .Kc)) (.sub (.add (.add (.neg (.num 80860173100000008 16)) (.mul (.neg (.num 16472798900000001 16)) (.rd (.var .logT)))) (.mul (.rd (.var .T)) (.add (.neg (.num 63752671 10)) (.mul (.rd (.var .T)) (.add (.num 17465705999999998 22) (.mul (.rd (.var .T)) (.add (.neg (.num 36786069666666668 26)) (.mul (.num 37876073300000002 30) (.rd (.var .T)))))))))) (.div (.neg (.num 192990252 4)) (.rd (.var .T))))) (.add (.rd (.var .Kc)) (.sub (.add (.add (.num 16929264459999999 15) (.mul (.neg (.num 55986045600000001 16)) (.rd (.var .logT)))) (.mul (.rd (.var .T)) (.add (.neg (.num 151389313 11)) (.mul (.rd (.var .T)) (.add (.num 17950724333333333 23) (.mul (.rd (.var .T)) (.add (.neg (.num 14305544 18)) (.mul (.num 50719695499999999 32) (.rd (.var .T)))))))))) (.div (.neg (.num 17966133900000001 12)) (.rd (.var .T))))),
  .set (.var .Kc) (.mul (.num 1 0) (.exp (.rd (.var .Kc)))),
  .set (.arr .rev 269) (.div (.mul (.mul (.rd (.arr .C 40)) (.rd (.arr .C 4))) (.rd (.var .kf))) (.rd (.var .Kc)))]

/-- utilities/mechanisms/gri30/lib/src/rxn_rates.c:3346-3363 -/
def rate271 : List CStmt := [
  .set (.var .kf) (.exp (.sub (.sub (.num 25859064273996673 15) (.mul (.num 75 2) (.rd (.var .logT)))) (.div (.num 14543045424429799 13) (.rd (.var .T))))),
  .set (.arr .fwd 271) (.mul (.mul (.rd (.arr .C 1)) (.rd (.arr .C 43))) (.rd (.var .kf))),
  .ite (.rd (.var .T)) (.num 1000 0) (.var .Kc) (.sub (.add (.add (.neg (.num 1470286717 9)) (.mul (.num 42835363700000002 16) (.rd (.var .logT)))) (.mul (.rd (.var .T)) (.add (.neg (.num 13582460903526666 19)) (.mul (.rd (.var .T)) (.add (.num 135394152199932 20) (.mul (.rd (.var .T)) (.add (.neg (.num 39204281819173466 26)) (.mul (.num 36982360096386618 30) (.rd (.var .T)))))))))) (.div (.neg (.num 17931835899999998 12)) (.rd (.var .T)))) (.sub (.add (.add (.num 11735859233999999 15) (.mul (.num 20499277 7) (.rd (.var .logT)))) (.mul (.rd (.var .T)) (.add (.num 2634917826542149 18) (.mul (.rd (.var .T)) (.add (.neg (.num 32212230452603252 23)) (.mul (.rd (.var .T)) (.add (.num 30590211894596026 27) (.mul (.neg (.num 1414269324909868 30)) (.rd (.var .T)))))))))) (.div (.neg (.num 174535753 4)) (.rd (.var .T)))),
  .ite (.rd (.var .T)) (.num 1382 0) (.var .Kc) (.add (.rd (.var .Kc)) (.sub (.add (.add (.neg (.num 80860173100000008 16)) (.mul (.neg (.num 16472798900000001 16)) (.rd (.var .logT)))) (.mul (.rd (.var .T)) (.add (.neg (.num 63752671 10)) (.mul (.rd (.var .T)) (.add (.num 17465705999999998 22) (.mul (.rd (.var .T)) (.add (.neg (.num 36786069666666668 26)) (.mul (.num 37876073300000002 30) (.rd (.var .T)))))))))) (.div (.neg (.num 192990252 4)) (.rd (.var .T))))) (.add (.rd (.var .Kc)) (.sub (.add (.add (.num 16929264459999999 15) (.mul (.neg (.num 55986045600000001 16)) (.rd (.var .logT)))) (.mul (.rd (.var .T)) (.add (.neg (.num 151389313 11)) (.mul (.rd (.var .T)) (.add (.num 17950724333333333 23) (.mul (.rd (.var .T)) (.add (.neg (.num 14305544 18)) (.mul (.num 50719695499999999 32) (.rd (.var .T)))))))))) (.div (.neg (.num 17966133900000001 12)) (.rd (.var .T))))),
  .set (.var .Kc) (.mul (.num 1 0) (.exp (.rd (.var .Kc)))),
  .set (.arr .rev 270) (.div (.mul (.mul (.rd (.arr .C 14)) (.rd (.arr .C 32))) (.rd (.var .kf))) (.rd (.var .Kc)))]

/-- utilities/mechanisms/gri30/lib/src/rxn_rates.c:3364-3381 -/
def rate272 : List CStmt := [
  .set (.var .kf) (.exp (.sub (.add (.num 99034875525361272 16) (.mul (.num 2 0) (.rd (.var .logT)))) (.div (.num 10064391297183253 13) (.rd (.var .T))))),
  .set (.arr .fwd 272) (.mul (.mul (.rd (.arr .C 44)) (.rd (.arr .C 1))) (.rd (.var .kf))),
  .ite (.rd (.var .T)) (.num 1368 0) (.var .Kc) (.sub (.add (.add (.neg (.num 18468721000000001 16)) (.mul (.neg (.num 27860495200000002 16)) (.rd (.var .logT)))) (.mul (.rd (.var .T)) (.add (.neg (.num 34433396099999999 19)) (.mul (.rd (.var .T)) (.add (.num 53581310666666662 23) (.mul (.rd (.var .T)) (.add (.neg (.num 4309964725 20)) (.mul (.neg (.num 59680394000000003 32)) (.rd (.var .T)))))))))) (.div (.num 28269839999999999 13) (.rd (.var .T)))) (.sub (.add (.add (.num 120795271 7) (.mul (.neg (.num 48978488499999999 16)) (.rd (.var .logT)))) (.mul (.rd (.var .T)) (.add (.neg (.num 1583946965 12)) (.mul (.rd (.var .T)) (.add (.num 18633510666666667 23) (.mul (.rd (.var .T)) (.add (.neg (.num 14770262 18)) (.mul (.num 52169588499999993 32) (.rd (.var .T)))))))))) (.div (.num 37065333099999998 13) (.rd (.var .T)))),
  .ite (.rd (.var .T)) (.num 1478 0) (.var .Kc) (.add (.rd (.var .Kc)) (.sub (.add (.add (.num 25636141000000001 16) (.mul (.num 26309631699999998 16) (.rd (.var .logT)))) (.mul (.rd (.var .T)) (.add (.num 36514117850000001 19) (.mul (.rd (.var .T)) (.add (.neg (.num 38008333833333334 23)) (.mul (.rd (.var .T)) (.add (.neg (.num 55105941500000004 27)) (.mul (.num 18111787599999998 30) (.rd (.var .T)))))))))) (.div (.neg (.num 15587363600000001 12)) (.rd (.var .T))))) (.add (.rd (.var .Kc)) (.sub (.add (.add (.neg (.num 14606198750000001 15)) (.mul (.num 52239513400000002 16) (.rd (.var .logT)))) (.mul (.rd (.var .T)) (.add (.num 15893200200000001 19) (.mul (.rd (.var .T)) (.add (.neg (.num 182297925 15)) (.mul (.rd (.var .T)) (.add (.num 1422793025 20) (.mul (.neg (.num 49751097749999999 32)) (.rd (.var .T)))))))))) (.div (.neg (.num 16659934399999998 12)) (.rd (.var .T))))),
  .set (.var .Kc) (.mul (.num 1 0) (.exp (.rd (.var .Kc)))),
  .set (.arr .rev 271) (.div (.mul (.mul (.rd (.arr .C 45)) (.rd (.arr .C 1))) (.rd (.var .kf))) (.rd (.var .Kc)))]

/-- utilities/mechanisms/gri30/lib/src/rxn_rates.c:3382-3399 -/
def rate273 : List CStmt := [
  .set (.var .kf) (.num 9000000000 0),
  .set (.arr .fwd 273) (.mul (.mul (.rd (.arr .C 27)) (.rd (.arr .C 35))) (.rd (.var .kf))),
  .ite (.rd (.var .T)) (.num 1000 0) (.var .Kc) (.sub (.add (.add (.neg (.num 83721898899999996 16)) (.mul (.neg (.num 18906642300000001 16)) (.rd (.var .logT)))) (.mul (.rd (.var .T)) (.add (.neg (.num 68131993400000011 19)) (.mul (.rd (.var .T)) (.add (.num 22841488883333331 22) (.mul (.rd (.var .T)) (.add (.neg (.num 58605147633333358 26)) (.mul (.num 67923980050000042 30) (.rd (.var .T)))))))))) (.div (.neg (.num 44248158000000003 12)) (.rd (.var .T)))) (.sub (.add (.add (.num 11553270309999998 15) (.mul (.neg (.num 517362579 8)) (.rd (.var .logT)))) (.mul (.rd (.var .T)) (.add (.neg (.num 16069584850000001 19)) (.mul (.rd (.var .T)) (.add (.num 17063323483333332 23) (.mul (.rd (.var .T)) (.add (.neg (.num 10472098416666668 27)) (.mul (.num 15383351499999986 32) (.rd (.var .T)))))))))) (.div (.neg (.num 43400062000000005 12)) (.rd (.var .T)))),
  .ite (.rd (.var .T)) (.num 1382 0) (.var .Kc) (.add (.rd (.var .Kc)) (.sub (.add (.add (.num 80860173100000008 16) (.mul (.num 16472798900000001 16) (.rd (.var .logT)))) (.mul (.rd (.var .T)) (.add (.num 63752671 10) (.mul (.rd (.var .T)) (.add (.neg (.num 17465705999999998 22)) (.mul (.rd (.var .T)) (.add (.num 36786069666666668 26) (.mul (.neg (.num 37876073300000002 30)) (.rd (.var .T)))))))))) (.div (.num 192990252 4) (.rd (.var .T))))) (.add (.rd (.var .Kc)) (.sub (.add (.add (.neg (.num 16929264459999999 15)) (.mul (.num 55986045600000001 16) (.rd (.var .logT)))) (.mul (.rd (.var .T)) (.add (.num 151389313 11) (.mul (.rd (.var .T)) (.add (.neg (.num 17950724333333333 23)) (.mul (.rd (.var .T)) (.add (.num 14305544 18) (.mul (.neg (.num 50719695499999999 32)) (.rd (.var .T)))))))))) (.div (.num 17966133900000001 12) (.rd (.var .T))))),
  .set (.var .Kc) (.mul (.num 1 0) (.exp (.rd (.var .Kc)))),
  .set (.arr .rev 272) (.div (.mul (.mul (.rd (.arr .C 14)) (.rd (.arr .C 43))) (.rd (.var .kf))) (.rd (.var .Kc)))]

/-- utilities/mechanisms/gri30/lib/src/rxn_rates.c:3400-3411 -/
def rate274 : List CStmt := [
  .set (.var .kf) (.exp (.sub (.sub (.num 27136724794113768 15) (.mul (.num 31 2) (.rd (.var .logT)))) (.div (.num 14593367380915717 14) (.rd (.var .T))))),
  .set (.arr .fwd 274) (.mul (.mul (.rd (.arr .C 12)) (.rd (.arr .C 30))) (.rd (.var .kf))),
  .ite (.rd (.var .T)) (.num 1000 0) (.var .Kc) (.sub (.add (.add (.num 35695246169999999 16) (.mul (.neg (.num 82192940000000014 17)) (.rd (.var .logT)))) (.mul (.rd (.var .T)) (.add (.num 18421406753526661 19) (.mul (.rd (.var .T)) (.add (.neg (.num 7765130936659867 22)) (.mul (.rd (.var .T)) (.add (.num 43738018769173468 26) (.mul (.neg (.num 13894840754638661 29)) (.rd (.var .T)))))))))) (.div (.neg (.num 18438155900000005 12)) (.rd (.var .T)))) (.sub (.add (.add (.neg (.num 21028884694000002 15)) (.mul (.num 300804239 8) (.rd (.var .logT)))) (.mul (.rd (.var .T)) (.add (.neg (.num 22227499715421488 19)) (.mul (.rd (.var .T)) (.add (.num 47010137935936583 23) (.mul (.rd (.var .T)) (.add (.neg (.num 65788824477929351 27)) (.mul (.num 39592063549098685 31) (.rd (.var .T)))))))))) (.div (.neg (.num 19758588400000008 12)) (.rd (.var .T)))),
  .set (.var .Kc) (.mul (.num 1 0) (.exp (.rd (.var .Kc)))),
  .set (.arr .rev 273) (.div (.mul (.mul (.rd (.arr .C 1)) (.rd (.arr .C 41))) (.rd (.var .kf))) (.rd (.var .Kc)))]

/-- utilities/mechanisms/gri30/lib/src/rxn_rates.c:3412-3423 -/
def rate275 : List CStmt := [
  .set (.var .kf) (.exp (.sub (.add (.num 22031598656596589 15) (.mul (.num 15 2) (.rd (.var .logT)))) (.div (.neg (.num 45289760837324636 15)) (.rd (.var .T))))),
  .set (.arr .fwd 275) (.mul (.mul (.rd (.arr .C 12)) (.rd (.arr .C 30))) (.rd (.var .kf))),
  .ite (.rd (.var .T)) (.num 1000 0) (.var .Kc) (.sub (.add (.add (.num 53712497880000001 16) (.mul (.neg (.num 15702706800000001 16)) (.rd (.var .logT)))) (.mul (.rd (.var .T)) (.add (.num 80103694999999996 19) (.mul (.rd (.var .T)) (.add (.neg (.num 64266887599999997 22)) (.mul (.rd (.var .T)) (.add (.num 30933943875000002 25) (.mul (.neg (.num 64644388750000004 29)) (.rd (.var .T)))))))))) (.div (.neg (.num 58754937973000007 12)) (.rd (.var .T)))) (.sub (.add (.add (.neg (.num 1719710238 8)) (.mul (.num 24378577799999999 16) (.rd (.var .logT)))) (.mul (.rd (.var .T)) (.add (.neg (.num 21588853465499998 19)) (.mul (.rd (.var .T)) (.add (.num 42373424133333333 23) (.mul (.rd (.var .T)) (.add (.neg (.num 53273309416666666 27)) (.mul (.num 29488659100000001 31) (.rd (.var .T)))))))))) (.div (.neg (.num 59452224222000004 12)) (.rd (.var .T)))),
  .set (.var .Kc) (.mul (.num 1 0) (.exp (.rd (.var .Kc)))),
  .set (.arr .rev 274) (.div (.mul (.mul (.rd (.arr .C 0)) (.rd (.arr .C 40))) (.rd (.var .kf))) (.rd (.var .Kc)))]

/-- utilities/mechanisms/gri30/lib/src/rxn_rates.c:3424-3435 -/
def rate276 : List CStmt := [
  .set (.var .kf) (.exp (.sub (.add (.num 62915691395583204 16) (.mul (.num 24 1) (.rd (.var .logT)))) (.div (.num 49894219855785977 13) (.rd (.var .T))))),
  .set (.arr .fwd 276) (.mul (.mul (.rd (.arr .C 1)) (.rd (.arr .C 33))) (.rd (.var .kf))),
  .ite (.rd (.var .T)) (.num 1000 0) (.var .Kc) (.sub (.add (.add (.num 18509167610000001 16) (.mul (.neg (.num 23769337999999962 17)) (.rd (.var .logT)))) (.mul (.rd (.var .T)) (.add (.num 52674526246473327 19) (.mul (.rd (.var .T)) (.add (.neg (.num 56816381996673469 22)) (.mul (.rd (.var .T)) (.add (.num 31128813914749324 25) (.mul (.neg (.num 69979252545361348 29)) (.rd (.var .T)))))))))) (.div (.num 22360434269999996 13) (.rd (.var .T)))) (.sub (.add (.add (.neg (.num 38417860860000004 16)) (.mul (.num 10375691900000001 16) (.rd (.var .logT)))) (.mul (.rd (.var .T)) (.add (.neg (.num 12541751250078512 19)) (.mul (.rd (.var .T)) (.add (.num 21556938697396752 23) (.mul (.rd (.var .T)) (.add (.neg (.num 2343403910540397 26)) (.mul (.num 12341854350901322 31) (.rd (.var .T)))))))))) (.div (.num 22928339780000015 13) (.rd (.var .T)))),
  .set (.var .Kc) (.mul (.num 1 0) (.exp (.rd (.var .Kc)))),
  .set (.arr .rev 275) (.div (.mul (.mul (.rd (.arr .C 0)) (.rd (.arr .C 32))) (.rd (.var .kf))) (.rd (.var .Kc)))]

/-- utilities/mechanisms/gri30/lib/src/rxn_rates.c:3436-3447 -/
def rate277 : List CStmt := [
  .set (.var .kf) (.exp (.sub (.add (.num 10819778284410283 15) (.mul (.num 16 1) (.rd (.var .logT)))) (.div (.num 48057468444050033 14) (.rd (.var .T))))),
  .set (.arr .fwd 277) (.mul (.mul (.rd (.arr .C 33)) (.rd (.arr .C 4))) (.rd (.var .kf))),
  .ite (.rd (.var .T)) (.num 1000 0) (.var .Kc) (.sub (.add (.add (.neg (.num 38617708999999945 17)) (.mul (.num 12460063000000021 17) (.rd (.var .logT)))) (.mul (.rd (.var .T)) (.add (.num 145963396 11) (.mul (.rd (.var .T)) (.add (.neg (.num 21182024166666668 22)) (.mul (.rd (.var .T)) (.add (.num 12992108341666668 25) (.mul (.neg (.num 31059347149999999 29)) (.rd (.var .T)))))))))) (.div (.neg (.num 52811687599999987 13)) (.rd (.var .T)))) (.sub (.add (.add (.num 30280267999999966 17) (.mul (.num 14139482000000037 17) (.rd (.var .logT)))) (.mul (.rd (.var .T)) (.add (.neg (.num 41522973800000001 20)) (.mul (.rd (.var .T)) (.add (.num 8389696899999998 23) (.mul (.rd (.var .T)) (.add (.neg (.num 92281592833333339 28)) (.mul (.num 48685165999999991 32) (.rd (.var .T)))))))))) (.div (.neg (.num 5146301300000001 12)) (.rd (.var .T)))),
  .set (.var .Kc) (.mul (.num 1 0) (.exp (.rd (.var .Kc)))),
  .set (.arr .rev 276) (.div (.mul (.mul (.rd (.arr .C 5)) (.rd (.arr .C 32))) (.rd (.var .kf))) (.rd (.var .Kc)))]

/-- utilities/mechanisms/gri30/lib/src/rxn_rates.c:3448-3459 -/
def rate278 : List CStmt := [
  .set (.var .kf) (.exp (.sub (.add (.num 91484649682580947 16) (.mul (.num 194 2) (.rd (.var .logT)))) (.div (.num 32507983889901907 13) (.rd (.var .T))))),
  .set (.arr .fwd 278) (.mul (.mul (.rd (.arr .C 33)) (.rd (.arr .C 2))) (.rd (.var .kf))),
  .ite (.rd (.var .T)) (.num 1000 0) (.var .Kc) (.sub (.add (.add (.neg (.num 24140524580000009 16)) (.mul (.num 74172382999999931 17) (.rd (.var .logT)))) (.mul (.rd (.var .T)) (.add (.num 17161929099999999 19) (.mul (.rd (.var .T)) (.add (.neg (.num 2772800625 15)) (.mul (.rd (.var .T)) (.add (.num 16203583508333335 25) (.mul (.neg (.num 36841389550000001 29)) (.rd (.var .T)))))))))) (.div (.num 3120459859999999 12) (.rd (.var .T)))) (.sub (.add (.add (.neg (.num 10772759300000003 16)) (.mul (.num 72375689000000021 17) (.rd (.var .logT)))) (.mul (.rd (.var .T)) (.add (.neg (.num 91227198514999975 20)) (.mul (.rd (.var .T)) (.add (.num 14641938818333331 23) (.mul (.rd (.var .T)) (.add (.neg (.num 14964204641666667 27)) (.mul (.num 75855361449999995 32) (.rd (.var .T)))))))))) (.div (.num 33577307000000001 13) (.rd (.var .T)))),
  .set (.var .Kc) (.mul (.num 1 0) (.exp (.rd (.var .Kc)))),
  .set (.arr .rev 277) (.div (.mul (.mul (.rd (.arr .C 32)) (.rd (.arr .C 4))) (.rd (.var .kf))) (.rd (.var .Kc)))]

/-- utilities/mechanisms/gri30/lib/src/rxn_rates.c:3460-3471 -/
def rate279 : List CStmt := [
  .set (.var .kf) (.exp (.sub (.num 23025850929940457 15) (.div (.num 72212007557289835 13) (.rd (.var .T))))),
  .set (.arr .fwd 279) (.mul (.mul (.rd (.arr .C 31)) (.rd (.arr .C 15))) (.rd (.var .kf))),
  .ite (.rd (.var .T)) (.num 1000 0) (.var .Kc) (.sub (.add (.add (.neg (.num 87544720900000002 16)) (.mul (.num 22633430499999991 16) (.rd (.var .logT)))) (.mul (.rd (.var .T)) (.add (.neg (.num 77881797650000001 19)) (.mul (.rd (.var .T)) (.add (.num 46837720699999996 22) (.mul (.rd (.var .T)) (.add (.neg (.num 17642435446666668 25)) (.mul (.num 29102145245000001 29) (.rd (.var .T)))))))))) (.div (.num 36955517000000036 13) (.rd (.var .T)))) (.sub (.add (.add (.num 93593591400000005 16) (.mul (.neg (.num 94671658000000036 17)) (.rd (.var .logT)))) (.mul (.rd (.var .T)) (.add (.neg (.num 93639964999999575 21)) (.mul (.rd (.var .T)) (.add (.num 14254515983333336 23) (.mul (.rd (.var .T)) (.add (.neg (.num 26192173916666672 27)) (.mul (.num 1607736632 24) (.rd (.var .T)))))))))) (.div (.num 42370276000000013 13) (.rd (.var .T)))),
  .set (.var .Kc) (.mul (.num 1 0) (.exp (.rd (.var .Kc)))),
  .set (.arr .rev 278) (.div (.mul (.mul (.rd (.arr .C 14)) (.rd (.arr .C 38))) (.rd (.var .kf))) (.rd (.var .Kc)))]

/-- utilities/mechanisms/gri30/lib/src/rxn_rates.c:3472-3483 -/
def rate280 : List CStmt := [
  .set (.var .kf) (.exp (.sub (.sub (.num 29449097893473976 15) (.mul (.num 752 3) (.rd (.var .logT)))) (.div (.num 17361074987641112 14) (.rd (.var .T))))),
  .set (.arr .fwd 280) (.mul (.mul (.rd (.arr .C 39)) (.rd (.arr .C 36))) (.rd (.var .kf))),
  .ite (.rd (.var .T)) (.num 1000 0) (.var .Kc) (.sub (.add (.add (.num 20503790000000008 16) (.mul (.neg (.num 51155919999999977 17)) (.rd (.var .logT)))) (.mul (.rd (.var .T)) (.add (.num 3353567535 12) (.mul (.rd (.var .T)) (.add (.neg (.num 26912835166666669 22)) (.mul (.rd (.var .T)) (.add (.num 13546791858333333 25) (.mul (.neg (.num 29492676699999999 29)) (.rd (.var .T)))))))))) (.div (.neg (.num 30077857899999999 12)) (.rd (.var .T)))) (.sub (.add (.add (.num 1373638150000001 15) (.mul (.neg (.num 21794460000000004 17)) (.rd (.var .logT)))) (.mul (.rd (.var .T)) (.add (.num 64021701250000017 20) (.mul (.rd (.var .T)) (.add (.neg (.num 12974879833333331 23)) (.mul (.rd (.var .T)) (.add (.num 1071044625 20) (.mul (.neg (.num 35169659 23)) (.rd (.var .T)))))))))) (.div (.neg (.num 299275887 4)) (.rd (.var .T)))),
  .set (.var .Kc) (.mul (.num 1 0) (.exp (.rd (.var .Kc)))),
  .set (.arr .rev 279) (.div (.mul (.mul (.rd (.arr .C 46)) (.rd (.arr .C 35))) (.rd (.var .kf))) (.rd (.var .Kc)))]

/-- utilities/mechanisms/gri30/lib/src/rxn_rates.c:3484-3495 -/
def rate281 : List CStmt := [
  .set (.var .kf) (.exp (.sub (.num 21901920833288056 15) (.div (.neg (.num 35476979322570963 14)) (.rd (.var .T))))),
  .set (.arr .fwd 281) (.mul (.mul (.rd (.arr .C 36)) (.rd (.arr .C 46))) (.rd (.var .kf))),
  .ite (.rd (.var .T)) (.num 1000 0) (.var .Kc) (.sub (.add (.add (.num 69536261999999986 16) (.mul (.neg (.num 21570382800000001 16)) (.rd (.var .logT)))) (.mul (.rd (.var .T)) (.add (.num 65347924849999987 19) (.mul (.rd (.var .T)) (.add (.neg (.num 48443467149999997 22)) (.mul (.rd (.var .T)) (.add (.num 23179083683333335 25) (.mul (.neg (.num 47890573239999995 29)) (.rd (.var .T)))))))))) (.div (.neg (.num 57209290199999996 12)) (.rd (.var .T)))) (.sub (.add (.add (.num 40880058199999985 16) (.mul (.neg (.num 13564055099999992 16)) (.rd (.var .logT)))) (.mul (.rd (.var .T)) (.add (.num 12819118299999997 19) (.mul (.rd (.var .T)) (.add (.neg (.num 24415369833333335 23)) (.mul (.rd (.var .T)) (.add (.num 31510935666666673 27) (.mul (.neg (.num 18687476049999999 31)) (.rd (.var .T)))))))))) (.div (.neg (.num 57006382499999992 12)) (.rd (.var .T)))),
  .set (.var .Kc) (.mul (.num 1 0) (.exp (.rd (.var .Kc)))),
  .set (.arr .rev 280) (.div (.mul (.mul (.rd (.arr .C 15)) (.rd (.arr .C 37))) (.rd (.var .kf))) (.rd (.var .Kc)))]

/-- utilities/mechanisms/gri30/lib/src/rxn_rates.c:3496-3507 -/
def rate282 : List CStmt := [
  .set (.var .kf) (.exp (.sub (.num 21821878125614521 15) (.div (.num 56863810829085378 13) (.rd (.var .T))))),
  .set (.arr .fwd 282) (.mul (.mul (.rd (.arr .C 15)) (.rd (.arr .C 30))) (.rd (.var .kf))),
  .ite (.rd (.var .T)) (.num 1000 0) (.var .Kc) (.sub (.add (.add (.neg (.num 11246941489999999 15)) (.mul (.num 29412362500000002 16) (.rd (.var .logT)))) (.mul (.rd (.var .T)) (.add (.neg (.num 7116963225 12)) (.mul (.rd (.var .T)) (.add (.num 31968998366666663 22) (.mul (.rd (.var .T)) (.add (.neg (.num 90735997799999998 26)) (.mul (.num 10214260245 23) (.rd (.var .T)))))))))) (.div (.neg (.num 12232130300000004 12)) (.rd (.var .T)))) (.sub (.add (.add (.num 75643547400000015 16) (.mul (.neg (.num 29761198000000055 17)) (.rd (.var .logT)))) (.mul (.rd (.var .T)) (.add (.neg (.num 66781458999999968 20)) (.mul (.rd (.var .T)) (.add (.num 15097357983333332 23) (.mul (.rd (.var .T)) (.add (.neg (.num 21183813000000005 27)) (.mul (.num 12423066550000001 31) (.rd (.var .T)))))))))) (.div (.neg (.num 11605504800000002 12)) (.rd (.var .T)))),
  .set (.var .Kc) (.mul (.num 1 0) (.exp (.rd (.var .Kc)))),
  .set (.arr .rev 281) (.div (.mul (.mul (.rd (.arr .C 14)) (.rd (.arr .C 35))) (.rd (.var .kf))) (.rd (.var .Kc)))]

/-- utilities/mechanisms/gri30/lib/src/rxn_rates.c:3508-3509 -/
def rate283 : List CStmt := [
  .set (.arr .fwd 283) (.mul (.mul (.rd (.arr .C 12)) (.rd (.arr .C 2))) (.num 33700000000 0))]

/-- utilities/mechanisms/gri30/lib/src/rxn_rates.c:3510-3521 -/
def rate284 : List CStmt := [
  .set (.var .kf) (.exp (.sub (.add (.num 88098628053790566 16) (.mul (.num 183 2) (.rd (.var .logT)))) (.div (.num 11070830426901578 14) (.rd (.var .T))))),
  .set (.arr .fwd 284) (.mul (.mul (.rd (.arr .C 24)) (.rd (.arr .C 2))) (.rd (.var .kf))),
  .ite (.rd (.var .T)) (.num 1000 0) (.var .Kc) (.sub (.add (.add (.num 41807493069999992 16) (.mul (.neg (.num 12184065799999999 16)) (.rd (.var .logT)))) (.mul (.rd (.var .T)) (.add (.num 10794207655352666 18) (.mul (.rd (.var .T)) (.add (.neg (.num 10308433526999319 21)) (.mul (.rd (.var .T)) (.add (.num 5677363211858401 24) (.mul (.neg (.num 13116856005463866 28)) (.rd (.var .T)))))))))) (.div (.neg (.num 72168986299999997 13)) (.rd (.var .T)))) (.sub (.add (.add (.neg (.num 24451779924000004 15)) (.mul (.num 38701380699999999 16) (.rd (.var .logT)))) (.mul (.rd (.var .T)) (.add (.neg (.num 32144250046921485 19)) (.mul (.rd (.var .T)) (.add (.num 65420111787603255 23) (.mul (.rd (.var .T)) (.add (.neg (.num 87931754569596045 27)) (.mul (.num 51358777294098679 31) (.rd (.var .T)))))))))) (.div (.neg (.num 81934835399999974 13)) (.rd (.var .T)))),
  .set (.var .Kc) (.mul (.num 1 0) (.exp (.rd (.var .Kc)))),
  .set (.arr .rev 282) (.div (.mul (.mul (.rd (.arr .C 50)) (.rd (.arr .C 1))) (.rd (.var .kf))) (.rd (.var .Kc)))]

/-- utilities/mechanisms/gri30/lib/src/rxn_rates.c:3522-3533 -/
def rate285 : List CStmt := [
  .set (.var .kf) (.num 109600000000 0),
  .set (.arr .fwd 285) (.mul (.mul (.rd (.arr .C 25)) (.rd (.arr .C 2))) (.rd (.var .kf))),
  .ite (.rd (.var .T)) (.num 1000 0) (.var .Kc) (.sub (.add (.add (.neg (.num 28575363730000003 16)) (.mul (.neg (.num 2452732799999997 16)) (.rd (.var .logT)))) (.mul (.rd (.var .T)) (.add (.num 21363109803526669 19) (.mul (.rd (.var .T)) (.add (.neg (.num 1470403943665987 21)) (.mul (.rd (.var .T)) (.add (.num 71517632019173431 26) (.mul (.neg (.num 16162240554638661 29)) (.rd (.var .T)))))))))) (.div (.neg (.num 38063103800000004 12)) (.rd (.var .T)))) (.sub (.add (.add (.neg (.num 25554281163999999 15)) (.mul (.num 33800336099999995 16) (.rd (.var .logT)))) (.mul (.rd (.var .T)) (.add (.neg (.num 27941195546921493 19)) (.mul (.rd (.var .T)) (.add (.num 61896742287603251 23) (.mul (.rd (.var .T)) (.add (.neg (.num 88202883736262691 27)) (.mul (.num 53714188294098684 31) (.rd (.var .T)))))))))) (.div (.neg (.num 39194561199999996 12)) (.rd (.var .T)))),
  .set (.var .Kc) (.mul (.num 1 0) (.exp (.rd (.var .Kc)))),
  .set (.arr .rev 283) (.div (.mul (.mul (.rd (.arr .C 1)) (.rd (.arr .C 51))) (.rd (.var .kf))) (.rd (.var .Kc)))]

/-- utilities/mechanisms/gri30/lib/src/rxn_rates.c:3534-3545 -/
def rate286 : List CStmt := [
  .set (.var .kf) (.exp (.sub (.num 29240459028362647 15) (.div (.num 87207950590092878 13) (.rd (.var .T))))),
  .set (.arr .fwd 286) (.mul (.mul (.rd (.arr .C 6)) (.rd (.arr .C 4))) (.rd (.var .kf))),
  .ite (.rd (.var .T)) (.num 1000 0) (.var .Kc) (.sub (.add (.add (.neg (.num 49137695000000026 17)) (.mul (.neg (.num 31271651999999905 17)) (.rd (.var .logT)))) (.mul (.rd (.var .T)) (.add (.num 10586348849999999 19) (.mul (.rd (.var .T)) (.add (.neg (.num 15680872316666664 22)) (.mul (.rd (.var .T)) (.add (.num 10823547516666667 25) (.mul (.neg (.num 28203297000000007 29)) (.rd (.var .T)))))))))) (.div (.neg (.num 35267558859999997 12)) (.rd (.var .T)))) (.sub (.add (.add (.num 29517713799999998 16) (.mul (.neg (.num 79356824000000037 17)) (.rd (.var .logT)))) (.mul (.rd (.var .T)) (.add (.num 43587786700000021 20) (.mul (.rd (.var .T)) (.add (.neg (.num 69147710833333339 24)) (.mul (.rd (.var .T)) (.add (.num 71773627999999976 28) (.mul (.neg (.num 29010321499999993 32)) (.rd (.var .T)))))))))) (.div (.neg (.num 35063268533000002 12)) (.rd (.var .T)))),
  .set (.var .Kc) (.mul (.num 1 0) (.exp (.rd (.var .Kc)))),
  .set (.arr .rev 284) (.div (.mul (.mul (.rd (.arr .C 5)) (.rd (.arr .C 3))) (.rd (.var .kf))) (.rd (.var .Kc)))]

/-- utilities/mechanisms/gri30/lib/src/rxn_rates.c:3546-3547 -/
def rate287 : List CStmt := [
  .set (.arr .fwd 287) (.mul (.mul (.rd (.arr .C 12)) (.rd (.arr .C 4))) (.exp (.sub (.add (.num 1589495209964411 14) (.mul (.num 5 1) (.rd (.var .logT)))) (.div (.neg (.num 88315033632783047 14)) (.rd (.var .T))))))]

/-- utilities/mechanisms/gri30/lib/src/rxn_rates.c:3548-3559 -/
def rate288 : List CStmt := [
  .set (.var .kf) (.exp (.sub (.add (.num 21401299379696308 15) (.mul (.num 43 2) (.rd (.var .logT)))) (.div (.neg (.num 18619123899789017 14)) (.rd (.var .T))))),
  .set (.arr .fwd 288) (.mul (.mul (.rd (.arr .C 0)) (.rd (.arr .C 9))) (.rd (.var .kf))),
  .ite (.rd (.var .T)) (.num 1000 0) (.var .Kc) (.sub (.add (.add (.num 99810038200000006 17) (.mul (.neg (.num 11605573699999998 16)) (.rd (.var .logT)))) (.mul (.rd (.var .T)) (.add (.neg (.num 31467022704999995 19)) (.mul (.rd (.var .T)) (.add (.num 44828933683333333 22) (.mul (.rd (.var .T)) (.add (.neg (.num 25158797433333334 25)) (.mul (.num 56630328100000011 29) (.rd (.var .T)))))))))) (.div (.neg (.num 53434359426999989 12)) (.rd (.var .T)))) (.sub (.add (.add (.num 1013014132 8) (.mul (.neg (.num 29300262099999999 16)) (.rd (.var .logT)))) (.mul (.rd (.var .T)) (.add (.num 31591945810499999 19) (.mul (.rd (.var .T)) (.add (.neg (.num 60517431883333331 23)) (.mul (.rd (.var .T)) (.add (.num 75494907249999997 27) (.mul (.neg (.num 42174457649999999 31)) (.rd (.var .T)))))))))) (.div (.neg (.num 53286693178000009 12)) (.rd (.var .T)))),
  .set (.var .Kc) (.mul (.num 82057360967184814 18) (.exp (.rd (.var .Kc)))),
  .set (.arr .rev 285) (.div (.mul (.rd (.arr .C 12)) (.rd (.var .kf))) (.rd (.var .Kc)))]

/-- utilities/mechanisms/gri30/lib/src/rxn_rates.c:3560-3561 -/
def rate289 : List CStmt := [
  .set (.arr .fwd 289) (.mul (.mul (.rd (.arr .C 10)) (.rd (.arr .C 3))) (.exp (.sub (.num 22481123754498785 15) (.div (.num 75482934728874397 14) (.rd (.var .T))))))]

/-- utilities/mechanisms/gri30/lib/src/rxn_rates.c:3562-3573 -/
def rate290 : List CStmt := [
  .set (.var .kf) (.exp (.sub (.num 21598734574300313 15) (.div (.num 75482934728874397 14) (.rd (.var .T))))),
  .set (.arr .fwd 290) (.mul (.mul (.rd (.arr .C 10)) (.rd (.arr .C 3))) (.rd (.var .kf))),
  .ite (.rd (.var .T)) (.num 1000 0) (.var .Kc) (.sub (.add (.add (.neg (.num 29823164400000004 16)) (.mul (.num 41685521999999953 17) (.rd (.var .logT)))) (.mul (.rd (.var .T)) (.add (.neg (.num 55798952564999997 19)) (.mul (.rd (.var .T)) (.add (.num 52204773899999998 22) (.mul (.rd (.var .T)) (.add (.neg (.num 25436988100000001 25)) (.mul (.num 51793896750000006 29) (.rd (.var .T)))))))))) (.div (.neg (.num 30126794040000001 12)) (.rd (.var .T)))) (.sub (.add (.add (.num 86427652200000011 16) (.mul (.neg (.num 18265281099999995 16)) (.rd (.var .logT)))) (.mul (.rd (.var .T)) (.add (.num 19872731231500005 19) (.mul (.rd (.var .T)) (.add (.neg (.num 36895450534999996 23)) (.mul (.rd (.var .T)) (.add (.num 43895353008333338 27) (.mul (.neg (.num 23356345495000007 31)) (.rd (.var .T)))))))))) (.div (.neg (.num 2995339948 5)) (.rd (.var .T)))),
  .set (.var .Kc) (.mul (.num 1 0) (.exp (.rd (.var .Kc)))),
  .set (.arr .rev 286) (.div (.mul (.mul (.rd (.arr .C 17)) (.rd (.arr .C 2))) (.rd (.var .kf))) (.rd (.var .Kc)))]

/-- utilities/mechanisms/gri30/lib/src/rxn_rates.c:3574-3575 -/
def rate291 : List CStmt := [
  .set (.arr .fwd 291) (.mul (.mul (.rd (.arr .C 10)) (.rd (.arr .C 10))) (.exp (.sub (.num 26021583203494448 15) (.div (.num 5529879798237338 12) (.rd (.var .T))))))]

/-- utilities/mechanisms/gri30/lib/src/rxn_rates.c:3576-3577 -/
def rate292 : List CStmt := [
  .set (.arr .fwd 292) (.mul (.mul (.rd (.arr .C 11)) (.rd (.arr .C 5))) (.exp (.sub (.add (.num 18037955122813692 15) (.mul (.num 25 2) (.rd (.var .logT)))) (.div (.neg (.num 47051029314331709 14)) (.rd (.var .T))))))]

/-- utilities/mechanisms/gri30/lib/src/rxn_rates.c:3578-3589 -/
def rate293 : List CStmt := [
  .set (.var .kf) (.exp (.sub (.add (.num 19529243363473643 15) (.mul (.num 29 2) (.rd (.var .logT)))) (.div (.num 5535415213450789 15) (.rd (.var .T))))),
  .set (.arr .fwd 293) (.mul (.mul (.rd (.arr .C 23)) (.rd (.arr .C 3))) (.rd (.var .kf))),
  .ite (.rd (.var .T)) (.num 1000 0) (.var .Kc) (.sub (.add (.add (.neg (.num 14039881000000154 17)) (.mul (.neg (.num 41759370999999978 17)) (.rd (.var .logT)))) (.mul (.rd (.var .T)) (.add (.num 44705988500000002 19) (.mul (.rd (.var .T)) (.add (.neg (.num 45389478749999991 22)) (.mul (.rd (.var .T)) (.add (.num 26800358791666664 25) (.mul (.neg (.num 64893854799999999 29)) (.rd (.var .T)))))))))) (.div (.neg (.num 31521674399999974 13)) (.rd (.var .T)))) (.sub (.add (.add (.neg (.num 15747296370000003 15)) (.mul (.num 22458289400000009 16) (.rd (.var .logT)))) (.mul (.rd (.var .T)) (.add (.neg (.num 18843499268500004 19)) (.mul (.rd (.var .T)) (.add (.num 45618576964999986 23) (.mul (.rd (.var .T)) (.add (.neg (.num 69174234574999992 27)) (.mul (.num 43700325204999998 31) (.rd (.var .T)))))))))) (.div (.neg (.num 38165152799999978 13)) (.rd (.var .T)))),
  .set (.var .Kc) (.mul (.num 1 0) (.exp (.rd (.var .Kc)))),
  .set (.arr .rev 287) (.div (.mul (.mul (.rd (.arr .C 50)) (.rd (.arr .C 2))) (.rd (.var .kf))) (.rd (.var .Kc)))]

/-- utilities/mechanisms/gri30/lib/src/rxn_rates.c:3590-3601 -/
def rate294 : List CStmt := [
  .set (.var .kf) (.exp (.sub (.add (.num 71981835771019433 16) (.mul (.num 161 2) (.rd (.var .logT)))) (.div (.neg (.num 19323631290591845 14)) (.rd (.var .T))))),
  .set (.arr .fwd 294) (.mul (.mul (.rd (.arr .C 23)) (.rd (.arr .C 3))) (.rd (.var .kf))),
  .ite (.rd (.var .T)) (.num 1000 0) (.var .Kc) (.sub (.add (.add (.num 73725952759999993 16) (.mul (.neg (.num 18844437060000003 16)) (.rd (.var .logT)))) (.mul (.rd (.var .T)) (.add (.num 10047192465 12) (.mul (.rd (.var .T)) (.add (.neg (.num 8354522601666667 21)) (.mul (.rd (.var .T)) (.add (.num 40988278408333331 25) (.mul (.neg (.num 85836470849999991 29)) (.rd (.var .T)))))))))) (.div (.neg (.num 70721144999999997 13)) (.rd (.var .T)))) (.sub (.add (.add (.neg (.num 12551252830000001 15)) (.mul (.num 18655187000000009 16) (.rd (.var .logT)))) (.mul (.rd (.var .T)) (.add (.neg (.num 1805914985 12)) (.mul (.rd (.var .T)) (.add (.num 40536391483333328 23) (.mul (.rd (.var .T)) (.add (.neg (.num 53787074499999991 27)) (.mul (.num 30509054349999997 31) (.rd (.var .T)))))))))) (.div (.neg (.num 74765602669999989 13)) (.rd (.var .T)))),
  .set (.var .Kc) (.mul (.num 1 0) (.exp (.rd (.var .Kc)))),
  .set (.arr .rev 288) (.div (.mul (.mul (.rd (.arr .C 6)) (.rd (.arr .C 22))) (.rd (.var .kf))) (.rd (.var .Kc)))]

/-- utilities/mechanisms/gri30/lib/src/rxn_rates.c:3602-3613 -/
def rate295 : List CStmt := [
  .set (.var .kf) (.exp (.sub (.num 217948494532266 13) (.div (.num 90982097326536609 14) (.rd (.var .T))))),
  .set (.arr .fwd 295) (.mul (.mul (.rd (.arr .C 51)) (.rd (.arr .C 2))) (.rd (.var .kf))),
  .ite (.rd (.var .T)) (.num 1000 0) (.var .Kc) (.sub (.add (.add (.num 37960643519999988 16) (.mul (.neg (.num 49664916999999997 17)) (.rd (.var .logT)))) (.mul (.rd (.var .T)) (.add (.num 740493056 11) (.mul (.rd (.var .T)) (.add (.neg (.num 79447590916666663 22)) (.mul (.rd (.var .T)) (.add (.num 4378913409166667 24) (.mul (.neg (.num 9906136005 22)) (.rd (.var .T)))))))))) (.div (.neg (.num 24128240399999995 13)) (.rd (.var .T)))) (.sub (.add (.add (.neg (.num 29671279300000015 16)) (.mul (.num 10950260900000006 16) (.rd (.var .logT)))) (.mul (.rd (.var .T)) (.add (.neg (.num 14790320851499998 19)) (.mul (.rd (.var .T)) (.add (.num 26120774484999991 23) (.mul (.rd (.var .T)) (.add (.neg (.num 29551873808333334 27)) (.mul (.num 14868796844999999 31) (.rd (.var .T)))))))))) (.div (.neg (.num 22754782999999989 13)) (.rd (.var .T)))),
  .set (.var .Kc) (.mul (.num 1 0) (.exp (.rd (.var .Kc)))),
  .set (.arr .rev 289) (.div (.mul (.mul (.rd (.arr .C 50)) (.rd (.arr .C 4))) (.rd (.var .kf))) (.rd (.var .Kc)))]

/-- utilities/mechanisms/gri30/lib/src/rxn_rates.c:3614-3615 -/
def rate296 : List CStmt := [
  .set (.arr .fwd 296) (.mul (.mul (.rd (.arr .C 51)) (.rd (.arr .C 2))) (.exp (.sub (.num 217948494532266 13) (.div (.num 90982097326536609 14) (.rd (.var .T))))))]

/-- utilities/mechanisms/gri30/lib/src/rxn_rates.c:3616-3617 -/
def rate297 : List CStmt := [
  .set (.arr .fwd 297) (.mul (.mul (.rd (.arr .C 51)) (.rd (.arr .C 3))) (.exp (.sub (.num 24127791008701241 15) (.div (.num 19701045964236218 12) (.rd (.var .T))))))]

/-- utilities/mechanisms/gri30/lib/src/rxn_rates.c:3618-3629 -/
def rate298 : List CStmt := [
  .set (.var .kf) (.exp (.sub (.add (.num 1453335035111459 14) (.mul (.num 116 2) (.rd (.var .logT)))) (.div (.num 1210243053486286 12) (.rd (.var .T))))),
  .set (.arr .fwd 298) (.mul (.mul (.rd (.arr .C 1)) (.rd (.arr .C 51))) (.rd (.var .kf))),
  .ite (.rd (.var .T)) (.num 1000 0) (.var .Kc) (.sub (.add (.add (.num 80610335709999994 16) (.mul (.neg (.num 14760663799999998 16)) (.rd (.var .logT)))) (.mul (.rd (.var .T)) (.add (.num 10956190274647334 18) (.mul (.rd (.var .T)) (.add (.neg (.num 10853596666334014 21)) (.mul (.rd (.var .T)) (.add (.num 58714364498082656 25) (.mul (.neg (.num 13219922304536135 28)) (.rd (.var .T)))))))))) (.div (.neg (.num 3297240472999998 12)) (.rd (.var .T)))) (.sub (.add (.add (.neg (.num 57316380860000002 16)) (.mul (.num 14088383900000006 16) (.rd (.var .logT)))) (.mul (.rd (.var .T)) (.add (.neg (.num 18209352250078518 19)) (.mul (.rd (.var .T)) (.add (.num 33035774364063407 23) (.mul (.rd (.var .T)) (.add (.neg (.num 38021708272070643 27)) (.mul (.num 19625115050901322 31) (.rd (.var .T)))))))))) (.div (.neg (.num 33403750220000002 13)) (.rd (.var .T)))),
  .set (.var .Kc) (.mul (.num 1 0) (.exp (.rd (.var .Kc)))),
  .set (.arr .rev 290) (.div (.mul (.mul (.rd (.arr .C 0)) (.rd (.arr .C 50))) (.rd (.var .kf))) (.rd (.var .Kc)))]

/-- utilities/mechanisms/gri30/lib/src/rxn_rates.c:3630-3631 -/
def rate299 : List CStmt := [
  .set (.arr .fwd 299) (.mul (.mul (.rd (.arr .C 1)) (.rd (.arr .C 51))) (.exp (.sub (.add (.num 1453335035111459 14) (.mul (.num 116 2) (.rd (.var .logT)))) (.div (.num 1210243053486286 12) (.rd (.var .T))))))]

/-- utilities/mechanisms/gri30/lib/src/rxn_rates.c:3632-3633 -/
def rate300 : List CStmt := [
  .set (.arr .fwd 300) (.mul (.mul (.rd (.arr .C 51)) (.rd (.arr .C 4))) (.exp (.sub (.add (.num 16969527810483978 15) (.mul (.num 73 2) (.rd (.var .logT)))) (.div (.neg (.num 560083375688248 12)) (.rd (.var .T))))))]

/-- utilities/mechanisms/gri30/lib/src/rxn_rates.c:3634-3635 -/
def rate301 : List CStmt := [
  .set (.arr .fwd 301) (.mul (.mul (.rd (.arr .C 51)) (.rd (.arr .C 6))) (.exp (.sub (.num 21825205915707194 15) (.div (.num 59998868718157964 13) (.rd (.var .T))))))]

/-- utilities/mechanisms/gri30/lib/src/rxn_rates.c:3636-3637 -/
def rate302 : List CStmt := [
  .set (.arr .fwd 302) (.mul (.mul (.rd (.arr .C 51)) (.rd (.arr .C 12))) (.exp (.sub (.add (.num 79083871592900428 16) (.mul (.num 177 2) (.rd (.var .logT)))) (.div (.num 29790598239662427 13) (.rd (.var .T))))))]

/-- utilities/mechanisms/gri30/lib/src/rxn_rates.c:3638-3649 -/
def rate303 : List CStmt := [
  .set (.var .kf) (.exp (.sub (.add (.num 20002747459590335 15) (.mul (.num 422 3) (.rd (.var .logT)))) (.div (.neg (.num 88315033632783047 14)) (.rd (.var .T))))),
  .set (.arr .fwd 303) (.mul (.mul (.rd (.arr .C 1)) (.rd (.arr .C 28))) (.rd (.var .kf))),
  .ite (.rd (.var .T)) (.num 1000 0) (.var .Kc) (.sub (.add (.add (.neg (.num 98390084700000102 17)) (.mul (.neg (.num 22677429999999976 17)) (.rd (.var .logT)))) (.mul (.rd (.var .T)) (.add (.neg (.num 36901490503526658 19)) (.mul (.rd (.var .T)) (.add (.num 32143732336659863 22) (.mul (.rd (.var .T)) (.add (.neg (.num 13752132235250679 25)) (.mul (.num 24409805754638663 29) (.rd (.var .T)))))))))) (.div (.neg (.num 16909265259999996 12)) (.rd (.var .T)))) (.sub (.add (.add (.neg (.num 41951879610000002 16)) (.mul (.neg (.num 35627329999999624 18)) (.rd (.var .logT)))) (.mul (.rd (.var .T)) (.add (.neg (.num 43650321345785163 20)) (.mul (.rd (.var .T)) (.add (.num 23762872230730076 23) (.mul (.rd (.var .T)) (.add (.neg (.num 43026289772070637 27)) (.mul (.num 28861824800901319 31) (.rd (.var .T)))))))))) (.div (.neg (.num 17432284989999996 12)) (.rd (.var .T)))),
  .set (.var .Kc) (.mul (.num 82057360967184814 18) (.exp (.rd (.var .Kc)))),
  .set (.arr .rev 291) (.div (.mul (.rd (.arr .C 50)) (.rd (.var .kf))) (.rd (.var .Kc)))]

/-- utilities/mechanisms/gri30/lib/src/rxn_rates.c:3650-3651 -/
def rate304 : List CStmt := [
  .set (.arr .fwd 304) (.mul (.mul (.rd (.arr .C 50)) (.rd (.arr .C 2))) (.num 150000000000 0))]

/-- utilities/mechanisms/gri30/lib/src/rxn_rates.c:3652-3653 -/
def rate305 : List CStmt := [
  .set (.arr .fwd 305) (.mul (.mul (.rd (.arr .C 50)) (.rd (.arr .C 3))) (.num 18100000 0))]

/-- utilities/mechanisms/gri30/lib/src/rxn_rates.c:3654-3655 -/
def rate306 : List CStmt := [
  .set (.arr .fwd 306) (.mul (.mul (.rd (.arr .C 50)) (.rd (.arr .C 3))) (.num 23500000 0))]

/-- utilities/mechanisms/gri30/lib/src/rxn_rates.c:3656-3667 -/
def rate307 : List CStmt := [
  .set (.var .kf) (.num 22000000000 0),
  .set (.arr .fwd 307) (.mul (.mul (.rd (.arr .C 50)) (.rd (.arr .C 1))) (.rd (.var .kf))),
  .ite (.rd (.var .T)) (.num 1000 0) (.var .Kc) (.sub (.add (.add (.neg (.num 60983846269999997 16)) (.mul (.num 19857142400000005 16) (.rd (.var .logT)))) (.mul (.rd (.var .T)) (.add (.neg (.num 59857737853526672 19)) (.mul (.rd (.var .T)) (.add (.num 29364451936659863 22) (.mul (.rd (.var .T)) (.add (.neg (.num 10855833793584011 25)) (.mul (.num 20070804954638662 29) (.rd (.var .T)))))))))) (.div (.neg (.num 6710572739999996 12)) (.rd (.var .T)))) (.sub (.add (.add (.num 27188128534000001 15) (.mul (.neg (.num 34177779099999999 16)) (.rd (.var .logT)))) (.mul (.rd (.var .T)) (.add (.num 20331323265421488 19) (.mul (.rd (.var .T)) (.add (.neg (.num 45466260435936584 23)) (.mul (.rd (.var .T)) (.add (.num 64818002227929358 27) (.mul (.neg (.num 39153070499098686 31)) (.rd (.var .T)))))))))) (.div (.neg (.num 51764792500000003 13)) (.rd (.var .T)))),
  .set (.var .Kc) (.mul (.num 1 0) (.exp (.rd (.var .Kc)))),
  .set (.arr .rev 292) (.div (.mul (.mul (.rd (.arr .C 12)) (.rd (.arr .C 16))) (.rd (.var .kf))) (.rd (.var .Kc)))]

/-- utilities/mechanisms/gri30/lib/src/rxn_rates.c:3668-3679 -/
def rate308 : List CStmt := [
  .set (.var .kf) (.num 11000000000 0),
  .set (.arr .fwd 308) (.mul (.mul (.rd (.arr .C 50)) (.rd (.arr .C 1))) (.rd (.var .kf))),
  .ite (.rd (.var .T)) (.num 1000 0) (.var .Kc) (.sub (.add (.add (.num 52159456710000018 16) (.mul (.neg (.num 14288945800000001 16)) (.rd (.var .logT)))) (.mul (.rd (.var .T)) (.add (.num 76804094246473329 19) (.mul (.rd (.var .T)) (.add (.neg (.num 6460731733000679 21)) (.mul (.rd (.var .T)) (.add (.num 30549806731415989 25) (.mul (.neg (.num 61290393795361334 29)) (.rd (.var .T)))))))))) (.div (.neg (.num 34955989713000003 12)) (.rd (.var .T)))) (.sub (.add (.add (.num 35462512990000024 16) (.mul (.neg (.num 62709349000000003 17)) (.rd (.var .logT)))) (.mul (.rd (.var .T)) (.add (.num 41180199999214827 20) (.mul (.rd (.var .T)) (.add (.neg (.num 15438593135936572 23)) (.mul (.rd (.var .T)) (.add (.num 28062424394596024 27) (.mul (.neg (.num 18849056499098676 31)) (.rd (.var .T)))))))))) (.div (.neg (.num 34465193732 6)) (.rd (.var .T)))),
  .set (.var .Kc) (.mul (.num 1 0) (.exp (.rd (.var .Kc)))),
  .set (.arr .rev 293) (.div (.mul (.mul (.rd (.arr .C 0)) (.rd (.arr .C 28))) (.rd (.var .kf))) (.rd (.var .Kc)))]

/-- utilities/mechanisms/gri30/lib/src/rxn_rates.c:3680-3691 -/
def rate309 : List CStmt := [
  .set (.var .kf) (.num 12000000000 0),
  .set (.arr .fwd 309) (.mul (.mul (.rd (.arr .C 50)) (.rd (.arr .C 4))) (.rd (.var .kf))),
  .ite (.rd (.var .T)) (.num 1000 0) (.var .Kc) (.sub (.add (.add (.num 29788518200000018 16) (.mul (.neg (.num 10666005699999994 16)) (.rd (.var .logT)))) (.mul (.rd (.var .T)) (.add (.num 38725907599999982 19) (.mul (.rd (.var .T)) (.add (.neg (.num 28972959499999997 22)) (.mul (.rd (.var .T)) (.add (.num 12413101158333333 25) (.mul (.neg (.num 223704884 21)) (.rd (.var .T)))))))))) (.div (.neg (.num 424732019 4)) (.rd (.var .T)))) (.sub (.add (.add (.num 76908400650000015 16) (.mul (.neg (.num 15232678600000003 16)) (.rd (.var .logT)))) (.mul (.rd (.var .T)) (.add (.num 12507473869999997 19) (.mul (.rd (.var .T)) (.add (.neg (.num 28605834933333325 23)) (.mul (.rd (.var .T)) (.add (.num 42268304216666665 27) (.mul (.neg (.num 26322394249999997 31)) (.rd (.var .T)))))))))) (.div (.neg (.num 41904329009999994 12)) (.rd (.var .T)))),
  .set (.var .Kc) (.mul (.num 1 0) (.exp (.rd (.var .Kc)))),
  .set (.arr .rev 294) (.div (.mul (.mul (.rd (.arr .C 28)) (.rd (.arr .C 5))) (.rd (.var .kf))) (.rd (.var .Kc)))]

/-- utilities/mechanisms/gri30/lib/src/rxn_rates.c:3692-3703 -/
def rate310 : List CStmt := [
  .set (.var .kf) (.num 30100000000 0),
  .set (.arr .fwd 310) (.mul (.mul (.rd (.arr .C 50)) (.rd (.arr .C 4))) (.rd (.var .kf))),
  .ite (.rd (.var .T)) (.num 1000 0) (.var .Kc) (.sub (.add (.add (.neg (.num 12709672719999991 16)) (.mul (.num 6839975900000006 16) (.rd (.var .logT)))) (.mul (.rd (.var .T)) (.add (.neg (.num 29922293800000001 19)) (.mul (.rd (.var .T)) (.add (.num 22005386833333331 22) (.mul (.rd (.var .T)) (.add (.neg (.num 10606578474999997 25)) (.mul (.num 2237930865 22) (.rd (.var .T)))))))))) (.div (.neg (.num 44909058699999996 13)) (.rd (.var .T)))) (.sub (.add (.add (.num 18781049570000004 15) (.mul (.neg (.num 26037176 7)) (.rd (.var .logT)))) (.mul (.rd (.var .T)) (.add (.num 24618512570000004 19) (.mul (.rd (.var .T)) (.add (.neg (.num 60305809300000002 23)) (.mul (.rd (.var .T)) (.add (.num 88109347466666671 27) (.mul (.neg (.num 54093679400000002 31)) (.rd (.var .T)))))))))) (.div (.neg (.num 35795669200000002 13)) (.rd (.var .T)))),
  .set (.var .Kc) (.mul (.num 1 0) (.exp (.rd (.var .Kc)))),
  .set (.arr .rev 295) (.div (.mul (.mul (.rd (.arr .C 18)) (.rd (.arr .C 16))) (.rd (.var .kf))) (.rd (.var .Kc)))]

/-- utilities/mechanisms/gri30/lib/src/rxn_rates.c:3704-3715 -/
def rate311 : List CStmt := [
  .set (.var .kf) (.num 9430000000 0),
  .set (.arr .fwd 311) (.mul (.mul (.rd (.arr .C 25)) (.rd (.arr .C 12))) (.rd (.var .kf))),
  .ite (.rd (.var .T)) (.num 1000 0) (.var .Kc) (.sub (.add (.add (.num 19936419700000002 15) (.mul (.neg (.num 60465022699999995 16)) (.rd (.var .logT)))) (.mul (.rd (.var .T)) (.add (.num 14300108085000001 18) (.mul (.rd (.var .T)) (.add (.neg (.num 82230877600000006 22)) (.mul (.rd (.var .T)) (.add (.num 3733861320833333 24) (.mul (.neg (.num 80399162200000011 29)) (.rd (.var .T)))))))))) (.div (.neg (.num 43245145300000004 12)) (.rd (.var .T)))) (.sub (.add (.add (.neg (.num 43128617750000004 15)) (.mul (.num 42937626599999996 16) (.rd (.var .logT)))) (.mul (.rd (.var .T)) (.add (.neg (.num 2882466785000001 18)) (.mul (.rd (.var .T)) (.add (.num 78289351000000012 23) (.mul (.rd (.var .T)) (.add (.neg (.num 11942542033333333 26)) (.mul (.num 74259473200000004 31) (.rd (.var .T)))))))))) (.div (.neg (.num 46100620299999995 12)) (.rd (.var .T)))),
  .set (.var .Kc) (.mul (.num 82057360967184814 18) (.exp (.rd (.var .Kc)))),
  .set (.arr .rev 296) (.div (.mul (.rd (.arr .C 49)) (.rd (.var .kf))) (.rd (.var .Kc)))]

/-- utilities/mechanisms/gri30/lib/src/rxn_rates.c:3716-3727 -/
def rate312 : List CStmt := [
  .set (.var .kf) (.exp (.sub (.add (.num 52626901889048856 16) (.mul (.num 268 2) (.rd (.var .logT)))) (.div (.num 18699639030166484 13) (.rd (.var .T))))),
  .set (.arr .fwd 312) (.mul (.mul (.rd (.arr .C 49)) (.rd (.arr .C 2))) (.rd (.var .kf))),
  .ite (.rd (.var .T)) (.num 1000 0) (.var .Kc) (.sub (.add (.add (.neg (.num 11767372380000016 16)) (.mul (.num 94174631999999958 17) (.rd (.var .logT)))) (.mul (.rd (.var .T)) (.add (.num 22270115999999986 20) (.mul (.rd (.var .T)) (.add (.neg (.num 95850737499999998 23)) (.mul (.rd (.var .T)) (.add (.num 38457190916666659 26) (.mul (.neg (.num 44511165499999949 30)) (.rd (.var .T)))))))))) (.div (.neg (.num 91679564000000028 14)) (.rd (.var .T)))) (.sub (.add (.add (.num 14124976699999974 16) (.mul (.num 69202879000000062 17) (.rd (.var .logT)))) (.mul (.rd (.var .T)) (.add (.neg (.num 10968160851500004 19)) (.mul (.rd (.var .T)) (.add (.num 17884731151666657 23) (.mul (.rd (.var .T)) (.add (.neg (.num 19141580475000006 27)) (.mul (.num 94793428450000006 32) (.rd (.var .T)))))))))) (.div (.neg (.num 59297249999999985 14)) (.rd (.var .T)))),
  .set (.var .Kc) (.mul (.num 1 0) (.exp (.rd (.var .Kc)))),
  .set (.arr .rev 297) (.div (.mul (.mul (.rd (.arr .C 48)) (.rd (.arr .C 4))) (.rd (.var .kf))) (.rd (.var .Kc)))]

/-- utilities/mechanisms/gri30/lib/src/rxn_rates.c:3728-3739 -/
def rate313 : List CStmt := [
  .set (.var .kf) (.exp (.sub (.add (.num 71853870155804165 16) (.mul (.num 254 2) (.rd (.var .logT)))) (.div (.num 33997513801885029 13) (.rd (.var .T))))),
  .set (.arr .fwd 313) (.mul (.mul (.rd (.arr .C 1)) (.rd (.arr .C 49))) (.rd (.var .kf))),
  .ite (.rd (.var .T)) (.num 1000 0) (.var .Kc) (.sub (.add (.add (.num 30882319809999963 16) (.mul (.neg (.num 37670890000000012 18)) (.rd (.var .logT)))) (.mul (.rd (.var .T)) (.add (.num 37739608746473353 19) (.mul (.rd (.var .T)) (.add (.neg (.num 38673449496673465 22)) (.mul (.rd (.var .T)) (.add (.num 1877094949808265 24) (.mul (.neg (.num 37588979545361342 29)) (.rd (.var .T)))))))))) (.div (.neg (.num 18012120729999988 13)) (.rd (.var .T)))) (.sub (.add (.add (.neg (.num 13520124859999996 16)) (.mul (.num 10058410900000005 16) (.rd (.var .logT)))) (.mul (.rd (.var .T)) (.add (.neg (.num 14387192250078507 19)) (.mul (.rd (.var .T)) (.add (.num 24799731030730078 23) (.mul (.rd (.var .T)) (.add (.neg (.num 27611414938737315 27)) (.mul (.num 14235661050901322 31) (.rd (.var .T)))))))))) (.div (.neg (.num 16578692219999975 13)) (.rd (.var .T)))),
  .set (.var .Kc) (.mul (.num 1 0) (.exp (.rd (.var .Kc)))),
  .set (.arr .rev 298) (.div (.mul (.mul (.rd (.arr .C 0)) (.rd (.arr .C 48))) (.rd (.var .kf))) (.rd (.var .Kc)))]

/-- utilities/mechanisms/gri30/lib/src/rxn_rates.c:3740-3751 -/
def rate314 : List CStmt := [
  .set (.var .kf) (.exp (.sub (.add (.num 10360912399575003 15) (.mul (.num 18 1) (.rd (.var .logT)))) (.div (.num 47000707357845789 14) (.rd (.var .T))))),
  .set (.arr .fwd 314) (.mul (.mul (.rd (.arr .C 49)) (.rd (.arr .C 4))) (.rd (.var .kf))),
  .ite (.rd (.var .T)) (.num 1000 0) (.var .Kc) (.sub (.add (.add (.num 85113812999999983 17) (.mul (.num 32462312000000049 17) (.rd (.var .logT)))) (.mul (.rd (.var .T)) (.add (.neg (.num 3385779000000008 20)) (.mul (.rd (.var .T)) (.add (.neg (.num 30390916666666667 23)) (.mul (.rd (.var .T)) (.add (.num 63424392499999792 27) (.mul (.num 13309258500000088 30) (.rd (.var .T)))))))))) (.div (.neg (.num 93184242600000016 13)) (.rd (.var .T)))) (.sub (.add (.add (.num 27925762799999974 16) (.mul (.num 10966672000000033 17) (.rd (.var .logT)))) (.mul (.rd (.var .T)) (.add (.neg (.num 59977383799999964 20)) (.mul (.rd (.var .T)) (.add (.num 11632489233333324 23) (.mul (.rd (.var .T)) (.add (.neg (.num 13405535116666673 27)) (.mul (.num 67623233000000012 32) (.rd (.var .T)))))))))) (.div (.neg (.num 90970044999999991 13)) (.rd (.var .T)))),
  .set (.var .Kc) (.mul (.num 1 0) (.exp (.rd (.var .Kc)))),
  .set (.arr .rev 299) (.div (.mul (.mul (.rd (.arr .C 48)) (.rd (.arr .C 5))) (.rd (.var .kf))) (.rd (.var .Kc)))]

/-- utilities/mechanisms/gri30/lib/src/rxn_rates.c:3752-3763 -/
def rate315 : List CStmt := [
  .set (.var .kf) (.exp (.sub (.add (.neg (.num 97286108336254939 17)) (.mul (.num 272 2) (.rd (.var .logT)))) (.div (.num 75482934728874397 14) (.rd (.var .T))))),
  .set (.arr .fwd 315) (.mul (.mul (.rd (.arr .C 48)) (.rd (.arr .C 7))) (.rd (.var .kf))),
  .ite (.rd (.var .T)) (.num 1000 0) (.var .Kc) (.sub (.add (.add (.neg (.num 15469436200000009 16)) (.mul (.neg (.num 92312669999999653 18)) (.rd (.var .logT)))) (.mul (.rd (.var .T)) (.add (.neg (.num 18868495465000005 19)) (.mul (.rd (.var .T)) (.add (.num 13584396166666659 22) (.mul (.rd (.var .T)) (.add (.neg (.num 42226984166666672 26)) (.mul (.num 40469295499999919 30) (.rd (.var .T)))))))))) (.div (.neg (.num 65929928599999985 13)) (.rd (.var .T)))) (.sub (.add (.add (.neg (.num 12268696199999973 16)) (.mul (.neg (.num 31635384999999872 17)) (.rd (.var .logT)))) (.mul (.rd (.var .T)) (.add (.num 79769594999999725 21) (.mul (.rd (.var .T)) (.add (.num 46534500000000158 24) (.mul (.rd (.var .T)) (.add (.neg (.num 87640854999999938 28)) (.mul (.num 4777095999999999 31) (.rd (.var .T)))))))))) (.div (.neg (.num 67923051869999981 13)) (.rd (.var .T)))),
  .set (.var .Kc) (.mul (.num 1 0) (.exp (.rd (.var .Kc)))),
  .set (.arr .rev 300) (.div (.mul (.mul (.rd (.arr .C 6)) (.rd (.arr .C 49))) (.rd (.var .kf))) (.rd (.var .Kc)))]

/-- utilities/mechanisms/gri30/lib/src/rxn_rates.c:3764-3775 -/
def rate316 : List CStmt := [
  .set (.var .kf) (.exp (.sub (.add (.neg (.num 70097880045472882 16)) (.mul (.num 365 2) (.rd (.var .logT)))) (.div (.num 36000327670024494 13) (.rd (.var .T))))),
  .set (.arr .fwd 316) (.mul (.mul (.rd (.arr .C 12)) (.rd (.arr .C 49))) (.rd (.var .kf))),
  .ite (.rd (.var .T)) (.num 1000 0) (.var .Kc) (.sub (.add (.add (.neg (.num 59192838099999996 16)) (.mul (.num 15942837199999993 16) (.rd (.var .logT)))) (.mul (.rd (.var .T)) (.add (.neg (.num 80572647749999997 19)) (.mul (.rd (.var .T)) (.add (.num 66206537733333336 22) (.mul (.rd (.var .T)) (.add (.neg (.num 32695998625000014 25)) (.mul (.num 69919299800000005 29) (.rd (.var .T)))))))))) (.div (.neg (.num 21012634000000016 13)) (.rd (.var .T)))) (.sub (.add (.add (.num 14411719535 9) (.mul (.neg (.num 20423043249999999 16)) (.rd (.var .logT)))) (.mul (.rd (.var .T)) (.add (.num 16615051650000004 19) (.mul (.rd (.var .T)) (.add (.neg (.num 29286458500000016 23)) (.mul (.rd (.var .T)) (.add (.num 3962250966666665 26) (.mul (.neg (.num 23327002800000002 31)) (.rd (.var .T)))))))))) (.div (.neg (.num 14779792899999993 13)) (.rd (.var .T)))),
  .set (.var .Kc) (.mul (.num 1 0) (.exp (.rd (.var .Kc)))),
  .set (.arr .rev 301) (.div (.mul (.mul (.rd (.arr .C 48)) (.rd (.arr .C 13))) (.rd (.var .kf))) (.rd (.var .Kc)))]

/-- utilities/mechanisms/gri30/lib/src/rxn_rates.c:3776-3787 -/
def rate317 : List CStmt := [
  .set (.var .kf) (.exp (.sub (.add (.num 78438486381524717 16) (.mul (.num 16 1) (.rd (.var .logT)))) (.div (.num 28683515196972271 13) (.rd (.var .T))))),
  .set (.arr .fwd 317) (.mul (.mul (.rd (.arr .C 12)) (.rd (.arr .C 24))) (.rd (.var .kf))),
  .ite (.rd (.var .T)) (.num 1000 0) (.var .Kc) (.sub (.add (.add (.num 2200190379 8) (.mul (.neg (.num 55812400800000006 16)) (.rd (.var .logT)))) (.mul (.rd (.var .T)) (.add (.num 15775775360000001 18) (.mul (.rd (.var .T)) (.add (.neg (.num 10074865626666667 21)) (.mul (.rd (.var .T)) (.add (.num 47017067124999999 25) (.mul (.neg (.num 10079523820000001 28)) (.rd (.var .T)))))))))) (.div (.neg (.num 10902911730000002 12)) (.rd (.var .T)))) (.sub (.add (.add (.neg (.num 37646490909999997 15)) (.mul (.num 438086982 8) (.rd (.var .logT)))) (.mul (.rd (.var .T)) (.add (.neg (.num 29205562349999999 19)) (.mul (.rd (.var .T)) (.add (.num 73576677166666677 23) (.mul (.rd (.var .T)) (.add (.neg (.num 10874399783333334 26)) (.mul (.num 66514608200000001 31) (.rd (.var .T)))))))))) (.div (.neg (.num 13417036839999997 12)) (.rd (.var .T)))),
  .set (.var .Kc) (.mul (.num 82057360967184814 18) (.exp (.rd (.var .Kc)))),
  .set (.arr .rev 302) (.div (.mul (.rd (.arr .C 48)) (.rd (.var .kf))) (.rd (.var .Kc)))]

/-- utilities/mechanisms/gri30/lib/src/rxn_rates.c:3788-3799 -/
def rate318 : List CStmt := [
  .set (.var .kf) (.num 96400000000 0),
  .set (.arr .fwd 318) (.mul (.mul (.rd (.arr .C 48)) (.rd (.arr .C 2))) (.rd (.var .kf))),
  .ite (.rd (.var .T)) (.num 1000 0) (.var .Kc) (.sub (.add (.add (.neg (.num 22744840249999999 15)) (.mul (.num 48803699300000005 16) (.rd (.var .logT)))) (.mul (.rd (.var .T)) (.add (.neg (.num 18403791885 12)) (.mul (.rd (.var .T)) (.add (.num 13002193923333334 21) (.mul (.rd (.var .T)) (.add (.neg (.num 60086292883333325 25)) (.mul (.num 12371129445 22) (.rd (.var .T)))))))))) (.div (.neg (.num 41221452400000002 12)) (.rd (.var .T)))) (.sub (.add (.add (.num 4437137164 8) (.mul (.neg (.num 65567729799999999 16)) (.rd (.var .logT)))) (.mul (.rd (.var .T)) (.add (.num 53195220668499996 19) (.mul (.rd (.var .T)) (.add (.neg (.num 11938802114833331 22)) (.mul (.rd (.var .T)) (.add (.num 16713507415833335 26) (.mul (.neg (.num 99931596455000007 31)) (.rd (.var .T)))))))))) (.div (.neg (.num 38654324999999997 12)) (.rd (.var .T)))),
  .set (.var .Kc) (.mul (.num 1 0) (.exp (.rd (.var .Kc)))),
  .set (.arr .rev 303) (.div (.mul (.mul (.rd (.arr .C 17)) (.rd (.arr .C 25))) (.rd (.var .kf))) (.rd (.var .Kc)))]

/-- utilities/mechanisms/gri30/lib/src/rxn_rates.c:3800-3811 -/
def rate319 : List CStmt := [
  .set (.var .kf) (.num 36130000000 0),
  .set (.arr .fwd 319) (.mul (.mul (.rd (.arr .C 48)) (.rd (.arr .C 1))) (.rd (.var .kf))),
  .ite (.rd (.var .T)) (.num 1000 0) (.var .Kc) (.sub (.add (.add (.num 11438128430000005 16) (.mul (.neg (.num 16179979899999999 16)) (.rd (.var .logT)))) (.mul (.rd (.var .T)) (.add (.num 21629949964733299 20) (.mul (.rd (.var .T)) (.add (.num 62098645033265328 23) (.mul (.rd (.var .T)) (.add (.neg (.num 1973275001917345 25)) (.mul (.num 70839150463865803 31) (.rd (.var .T)))))))))) (.div (.neg (.num 500640429 4)) (.rd (.var .T)))) (.sub (.add (.add (.num 70307582400000168 17) (.mul (.neg (.num 16685619100000002 16)) (.rd (.var .logT)))) (.mul (.rd (.var .T)) (.add (.num 14140180115421483 19) (.mul (.rd (.var .T)) (.add (.neg (.num 16475451935936569 23)) (.mul (.rd (.var .T)) (.add (.num 12647549561262703 27) (.mul (.neg (.num 42228927490986799 32)) (.rd (.var .T)))))))))) (.div (.neg (.num 50239609499999999 12)) (.rd (.var .T)))),
  .set (.var .Kc) (.mul (.num 82057360967184814 18) (.exp (.rd (.var .Kc)))),
  .set (.arr .rev 304) (.div (.mul (.rd (.arr .C 49)) (.rd (.var .kf))) (.rd (.var .Kc)))]

/-- utilities/mechanisms/gri30/lib/src/rxn_rates.c:3812-3823 -/
def rate320 : List CStmt := [
  .set (.var .kf) (.exp (.sub (.add (.num 83089382525957785 16) (.mul (.num 219 2) (.rd (.var .logT)))) (.div (.num 44786541272465473 14) (.rd (.var .T))))),
  .set (.arr .fwd 320) (.mul (.mul (.rd (.arr .C 48)) (.rd (.arr .C 1))) (.rd (.var .kf))),
  .ite (.rd (.var .T)) (.num 1000 0) (.var .Kc) (.sub (.add (.add (.neg (.num 18792606857000003 15)) (.mul (.num 44285042800000003 16) (.rd (.var .logT)))) (.mul (.rd (.var .T)) (.add (.neg (.num 14083808585352667 18)) (.mul (.rd (.var .T)) (.add (.num 88440742103326544 22) (.mul (.rd (.var .T)) (.add (.neg (.num 39311888210250671 25)) (.mul (.num 81107553704638682 29) (.rd (.var .T)))))))))) (.div (.neg (.num 68188975999999966 13)) (.rd (.var .T)))) (.sub (.add (.add (.num 43831693573999999 15) (.mul (.neg (.num 59623245699999998 16)) (.rd (.var .logT)))) (.mul (.rd (.var .T)) (.add (.num 42964847965421488 19) (.mul (.rd (.var .T)) (.add (.neg (.num 94764802935936579 23)) (.mul (.rd (.var .T)) (.add (.num 132072969894596 24) (.mul (.neg (.num 78482365949098669 31)) (.rd (.var .T)))))))))) (.div (.neg (.num 41389892 4)) (.rd (.var .T)))),
  .set (.var .Kc) (.mul (.num 1 0) (.exp (.rd (.var .Kc)))),
  .set (.arr .rev 305) (.div (.mul (.mul (.rd (.arr .C 25)) (.rd (.arr .C 12))) (.rd (.var .kf))) (.rd (.var .Kc)))]

/-- utilities/mechanisms/gri30/lib/src/rxn_rates.c:3824-3835 -/
def rate321 : List CStmt := [
  .set (.var .kf) (.num 24100000000 0),
  .set (.arr .fwd 321) (.mul (.mul (.rd (.arr .C 48)) (.rd (.arr .C 4))) (.rd (.var .kf))),
  .ite (.rd (.var .T)) (.num 1000 0) (.var .Kc) (.sub (.add (.add (.neg (.num 13965189501999998 15)) (.mul (.num 31267876299999995 16) (.rd (.var .logT)))) (.mul (.rd (.var .T)) (.add (.neg (.num 1109026418 11)) (.mul (.rd (.var .T)) (.add (.num 81081677000000007 22) (.mul (.rd (.var .T)) (.add (.neg (.num 39062632891666669 25)) (.mul (.num 83416057400000001 29) (.rd (.var .T)))))))))) (.div (.neg (.num 45992307299999993 13)) (.rd (.var .T)))) (.sub (.add (.add (.num 35424614609999992 15) (.mul (.neg (.num 51482642599999995 16)) (.rd (.var .logT)))) (.mul (.rd (.var .T)) (.add (.num 47252037270000017 19) (.mul (.rd (.var .T)) (.add (.neg (.num 10960435180000003 22)) (.mul (.rd (.var .T)) (.add (.num 15536431513333333 26) (.mul (.neg (.num 9342297485 24)) (.rd (.var .T)))))))))) (.div (.neg (.num 25420768699999999 13)) (.rd (.var .T)))),
  .set (.var .Kc) (.mul (.num 1 0) (.exp (.rd (.var .Kc)))),
  .set (.arr .rev 306) (.div (.mul (.mul (.rd (.arr .C 18)) (.rd (.arr .C 25))) (.rd (.var .kf))) (.rd (.var .Kc)))]

/-- utilities/mechanisms/gri30/lib/src/rxn_rates.c:3836-3847 -/
def rate322 : List CStmt := [
  .set (.var .kf) (.exp (.sub (.add (.num 17054189010128656 15) (.mul (.num 255 3) (.rd (.var .logT)))) (.div (.neg (.num 47453604966219035 14)) (.rd (.var .T))))),
  .set (.arr .fwd 322) (.mul (.mul (.rd (.arr .C 48)) (.rd (.arr .C 6))) (.rd (.var .kf))),
  .ite (.rd (.var .T)) (.num 1000 0) (.var .Kc) (.sub (.add (.add (.neg (.num 13425150799999996 16)) (.mul (.neg (.num 63733963999999999 17)) (.rd (.var .logT)))) (.mul (.rd (.var .T)) (.add (.num 10924926749999991 19) (.mul (.rd (.var .T)) (.add (.neg (.num 12641780649999996 22)) (.mul (.rd (.var .T)) (.add (.num 10189303591666669 25) (.mul (.neg (.num 29534222850000009 29)) (.rd (.var .T)))))))))) (.div (.neg (.num 25949134600000001 12)) (.rd (.var .T)))) (.sub (.add (.add (.num 15919509999999981 17) (.mul (.neg (.num 90323496000000159 17)) (.rd (.var .logT)))) (.mul (.rd (.var .T)) (.add (.num 10356517049999998 19) (.mul (.rd (.var .T)) (.add (.neg (.num 18547260316666649 23)) (.mul (.rd (.var .T)) (.add (.num 20582897916666666 27) (.mul (.neg (.num 96633554500000025 32)) (.rd (.var .T)))))))))) (.div (.neg (.num 25966264032999999 12)) (.rd (.var .T)))),
  .set (.var .Kc) (.mul (.num 1 0) (.exp (.rd (.var .Kc)))),
  .set (.arr .rev 307) (.div (.mul (.mul (.rd (.arr .C 3)) (.rd (.arr .C 49))) (.rd (.var .kf))) (.rd (.var .Kc)))]

/-- utilities/mechanisms/gri30/lib/src/rxn_rates.c:3848-3849 -/
def rate323 : List CStmt := [
  .set (.arr .fwd 323) (.mul (.mul (.rd (.arr .C 48)) (.rd (.arr .C 6))) (.num 24100000000 0))]

/-- utilities/mechanisms/gri30/lib/src/rxn_rates.c:3850-3861 -/
def rate324 : List CStmt := [
  .set (.var .kf) (.exp (.sub (.num 23681815319372685 15) (.mul (.num 32 2) (.rd (.var .logT))))),
  .set (.arr .fwd 324) (.mul (.mul (.rd (.arr .C 48)) (.rd (.arr .C 12))) (.rd (.var .kf))),
  .ite (.rd (.var .T)) (.num 1000 0) (.var .Kc) (.sub (.add (.add (.neg (.num 1720049401 8)) (.mul (.num 38877891599999987 16) (.rd (.var .logT)))) (.mul (.rd (.var .T)) (.add (.neg (.num 18188054794999998 18)) (.mul (.rd (.var .T)) (.add (.num 15219714806666666 21) (.mul (.rd (.var .T)) (.add (.neg (.num 77787148291666661 25)) (.mul (.num 17092348230000002 28) (.rd (.var .T)))))))))) (.div (.neg (.num 13936088 4)) (.rd (.var .T)))) (.sub (.add (.add (.num 40004080389999999 15) (.mul (.neg (.num 607910358 8)) (.rd (.var .logT)))) (.mul (.rd (.var .T)) (.add (.num 57552205150000011 19) (.mul (.rd (.var .T)) (.add (.neg (.num 12822779800000002 22)) (.mul (.rd (.var .T)) (.add (.num 17880693633333333 26) (.mul (.neg (.num 10658771429999999 30)) (.rd (.var .T)))))))))) (.div (.num 64102210000000196 14) (.rd (.var .T)))),
  .set (.var .Kc) (.mul (.num 1 0) (.exp (.rd (.var .Kc)))),
  .set (.arr .rev 308) (.div (.mul (.mul (.rd (.arr .C 25)) (.rd (.arr .C 25))) (.rd (.var .kf))) (.rd (.var .Kc)))]

/-- The blocks of `void eval_rxn_rates`, one per reaction: utilities/mechanisms/gri30/lib/src/rxn_rates.c:3-3861 -/
def rateBlocks : List (List CStmt) := [
  rate0, rate1, rate2, rate3, rate4, rate5, rate6, rate7, rate8, rate9, rate10, rate11, rate12, rate13, rate14, rate15, rate16, rate17, rate18, rate19, rate20, rate21, rate22, rate23, rate24, rate25, rate26, rate27, rate28, rate29, rate30, rate31, rate32, rate33, rate34, rate35, rate36, rate37, rate38, rate39, rate40, rate41, rate42, rate43, rate44, rate45, rate46, rate47, rate48, rate49, rate50, rate51, rate52, rate53, rate54, rate55, rate56, rate57, rate58, rate59, rate60, rate61, rate62, rate63, rate64, rate65, rate66, rate67, rate68, rate69, rate70, rate71, rate72, rate73, rate74, rate75, rate76, rate77, rate78, rate79, rate80, rate81, rate82, rate83, rate84, rate85, rate86, rate87, rate88, rate89, rate90, rate91, rate92, rate93, rate94, rate95, rate96, rate97, rate98, rate99, rate100, rate101, rate102, rate103, rate104, rate105, rate106, rate107, rate108, rate109, rate110, rate111, rate112, rate113, rate114, rate115, rate116, rate117, rate118, rate119, rate120, rate121, rate122, rate123, rate124, rate125, rate126, rate127, rate128, rate129, rate130, rate131, rate132, rate133, rate134, rate135, rate136, rate137, rate138, rate139, rate140, rate141, rate142, rate143, rate144, rate145, rate146, rate147, rate148, rate149, rate150, rate151, rate152, rate153, rate154, rate155, rate156, rate157, rate158, rate159, rate160, rate161, rate162, rate163, rate164, rate165, rate166, rate167, rate168, rate169, rate170, rate171, rate172, rate173, rate174, rate175, rate176, rate177, rate178, rate179, rate180, rate181, rate182, rate183, rate184, rate185, rate186, rate187, rate188, rate189, rate190, rate191, rate192, rate193, rate194, rate195, rate196, rate197, rate198, rate199, rate200, rate201, rate202, rate203, rate204, rate205, rate206, rate207, rate208, rate209, rate210, rate211, rate212, rate213, rate214, rate215, rate216, rate217, rate218, rate219, rate220, rate221, rate222, rate223, rate224, rate225, rate226, rate227, rate228, rate229, rate230, rate231, rate232, rate233, rate234, rate235, rate236, rate237, rate238, rate239, rate240, rate241, rate242, rate243, rate244, rate245, rate246, rate247, rate248, rate249, rate250, rate251, rate252, rate253, rate254, rate255, rate256, rate257, rate258, rate259, rate260, rate261, rate262, rate263, rate264, rate265, rate266, rate267, rate268, rate269, rate270, rate271, rate272, rate273, rate274, rate275, rate276, rate277, rate278, rate279, rate280, rate281, rate282, rate283, rate284, rate285, rate286, rate287, rate288, rate289, rate290, rate291, rate292, rate293, rate294, rate295, rate296, rate297, rate298, rate299, rate300, rate301, rate302, rate303, rate304, rate305, rate306, rate307, rate308, rate309, rate310, rate311, rate312, rate313, rate314, rate315, rate316, rate317, rate318, rate319, rate320, rate321, rate322, rate323, rate324]

end DLB.Mech.Gri30
