/- Generated by tools/gen_mechanisms.py from utilities/mechanisms/yao/lib/src/rxn_rates.c. Do not edit. -/
import Verif.Model.CLang
set_option autoImplicit false

namespace DLB.Mech.Yao
open DLB

/-- utilities/mechanisms/yao/lib/src/rxn_rates.c:3-7 -/
def rateStart : List CStmt := [
  .set (.var .logT) (.log (.rd (.var .T)))]

/-- utilities/mechanisms/yao/lib/src/rxn_rates.c:8-19 -/
def rate0 : List CStmt := [
  .set (.var .kf) (.exp (.sub (.num 25303733410294132 15) (.div (.num 74689156187265553 13) (.rd (.var .T))))),
  .set (.arr .fwd 0) (.mul (.mul (.rd (.arr .C 1)) (.rd (.arr .C 8))) (.rd (.var .kf))),
  .ite (.rd (.var .T)) (.num 1000 0) (.var .Kc) (.sub (.add (.add (.neg (.num 28606087269999994 16)) (.mul (.num 10111163499999996 16) (.rd (.var .logT)))) (.mul (.rd (.var .T)) (.add (.neg (.num 17540170353526664 19)) (.mul (.rd (.var .T)) (.add (.num 55390147699932011 23) (.mul (.rd (.var .T)) (.add (.neg (.num 1871089651917346 25)) (.mul (.num 46565256546386614 30) (.rd (.var .T)))))))))) (.div (.num 80940809800000025 13) (.rd (.var .T)))) (.sub (.add (.add (.num 58278192039999999 16) (.mul (.neg (.num 34838820999999953 17)) (.rd (.var .logT)))) (.mul (.rd (.var .T)) (.add (.neg (.num 2562785753078513 19)) (.mul (.rd (.var .T)) (.add (.num 90138725623967528 24) (.mul (.rd (.var .T)) (.add (.neg (.num 1574720523040397 26)) (.mul (.num 1078407852590132 30) (.rd (.var .T)))))))))) (.div (.num 85512346600000037 13) (.rd (.var .T)))),
  .set (.var .Kc) (.mul (.num 1 0) (.exp (.rd (.var .Kc)))),
  .set (.arr .rev 0) (.div (.mul (.mul (.rd (.arr .C 2)) (.rd (.arr .C 3))) (.rd (.var .kf))) (.rd (.var .Kc)))]

/-- utilities/mechanisms/yao/lib/src/rxn_rates.c:20-31 -/
def rate1 : List CStmt := [
  .set (.var .kf) (.exp (.sub (.add (.num 38262472284067424 16) (.mul (.num 27 1) (.rd (.var .logT)))) (.div (.num 31501544760183583 13) (.rd (.var .T))))),
  .set (.arr .fwd 1) (.mul (.mul (.rd (.arr .C 5)) (.rd (.arr .C 2))) (.rd (.var .kf))),
  .ite (.rd (.var .T)) (.num 1000 0) (.var .Kc) (.sub (.add (.add (.neg (.num 49847669009999986 16)) (.mul (.num 11127073899999997 16) (.rd (.var .logT)))) (.mul (.rd (.var .T)) (.add (.neg (.num 39633256496473335 19)) (.mul (.rd (.var .T)) (.add (.num 3227122324667346 21) (.mul (.rd (.var .T)) (.add (.neg (.num 16523066323082654 25)) (.mul (.num 36629158445361341 29) (.rd (.var .T)))))))))) (.div (.num 65087399300000106 14) (.rd (.var .T)))) (.sub (.add (.add (.num 42176135959999996 16) (.mul (.neg (.num 54197110999999998 17)) (.rd (.var .logT)))) (.mul (.rd (.var .T)) (.add (.num 59594052185785141 20) (.mul (.rd (.var .T)) (.add (.neg (.num 13341466312396754 23)) (.mul (.rd (.var .T)) (.add (.num 18342169713737305 27) (.mul (.neg (.num 11292916385901322 31)) (.rd (.var .T)))))))))) (.div (.num 9250974619999979 13) (.rd (.var .T)))),
  .set (.var .Kc) (.mul (.num 1 0) (.exp (.rd (.var .Kc)))),
  .set (.arr .rev 1) (.div (.mul (.mul (.rd (.arr .C 1)) (.rd (.arr .C 3))) (.rd (.var .kf))) (.rd (.var .Kc)))]

/-- utilities/mechanisms/yao/lib/src/rxn_rates.c:32-43 -/
def rate2 : List CStmt := [
  .set (.var .kf) (.exp (.sub (.add (.num 11536641991587544 15) (.mul (.num 16 1) (.rd (.var .logT)))) (.div (.num 16597590263836792 13) (.rd (.var .T))))),
  .set (.arr .fwd 2) (.mul (.mul (.rd (.arr .C 5)) (.rd (.arr .C 3))) (.rd (.var .kf))),
  .ite (.rd (.var .T)) (.num 1000 0) (.var .Kc) (.sub (.add (.add (.neg (.num 15172961690000006 16)) (.mul (.num 22900383000000035 17) (.rd (.var .logT)))) (.mul (.rd (.var .T)) (.add (.neg (.num 33957527296473336 19)) (.mul (.rd (.var .T)) (.add (.num 32451510330006798 22) (.mul (.rd (.var .T)) (.add (.neg (.num 16538869656415989 25)) (.mul (.num 3542860994536134 28) (.rd (.var .T)))))))))) (.div (.neg (.num 72836697470000008 13)) (.rd (.var .T)))) (.sub (.add (.add (.num 26914853259999991 16) (.mul (.neg (.num 66801555999999973 17)) (.rd (.var .logT)))) (.mul (.rd (.var .T)) (.add (.num 58490800500785142 20) (.mul (.rd (.var .T)) (.add (.neg (.num 67407753640634187 24)) (.mul (.rd (.var .T)) (.add (.num 43335445720706396 28) (.mul (.neg (.num 93673957090132184 33)) (.rd (.var .T)))))))))) (.div (.neg (.num 72993360180000009 13)) (.rd (.var .T)))),
  .set (.var .Kc) (.mul (.num 1 0) (.exp (.rd (.var .Kc)))),
  .set (.arr .rev 2) (.div (.mul (.mul (.rd (.arr .C 1)) (.rd (.arr .C 6))) (.rd (.var .kf))) (.rd (.var .Kc)))]

/-- utilities/mechanisms/yao/lib/src/rxn_rates.c:44-55 -/
def rate3 : List CStmt := [
  .set (.var .kf) (.exp (.sub (.add (.num 36821065698265074 16) (.mul (.num 24 1) (.rd (.var .logT)))) (.div (.neg (.num 10617932818528332 13)) (.rd (.var .T))))),
  .set (.arr .fwd 3) (.mul (.mul (.rd (.arr .C 3)) (.rd (.arr .C 3))) (.rd (.var .kf))),
  .ite (.rd (.var .T)) (.num 1000 0) (.var .Kc) (.sub (.add (.add (.num 34674707319999989 16) (.mul (.neg (.num 88370355999999894 17)) (.rd (.var .logT)))) (.mul (.rd (.var .T)) (.add (.num 56757292000000036 20) (.mul (.rd (.var .T)) (.add (.num 18028708333333334 24) (.mul (.rd (.var .T)) (.add (.neg (.num 15803333333332763 28)) (.mul (.neg (.num 1200548499999999 29)) (.rd (.var .T)))))))))) (.div (.neg (.num 79345437399999992 13)) (.rd (.var .T)))) (.sub (.add (.add (.neg (.num 15261282700000018 16)) (.mul (.neg (.num 12604444999999975 17)) (.rd (.var .logT)))) (.mul (.rd (.var .T)) (.add (.neg (.num 11032516849999877 21)) (.mul (.rd (.var .T)) (.add (.num 66006909483333336 24) (.mul (.rd (.var .T)) (.add (.neg (.num 14008625141666667 27)) (.mul (.num 10356176815 25) (.rd (.var .T)))))))))) (.div (.neg (.num 82244334799999997 13)) (.rd (.var .T)))),
  .set (.var .Kc) (.mul (.num 1 0) (.exp (.rd (.var .Kc)))),
  .set (.arr .rev 3) (.div (.mul (.mul (.rd (.arr .C 6)) (.rd (.arr .C 2))) (.rd (.var .kf))) (.rd (.var .Kc)))]

/-- utilities/mechanisms/yao/lib/src/rxn_rates.c:56-67 -/
def rate4 : List CStmt := [
  .set (.var .kf) (.exp (.add (.num 22355638720663009 15) (.mul (.num 44 2) (.rd (.var .logT))))),
  .set (.arr .fwd 4) (.mul (.mul (.rd (.arr .C 1)) (.rd (.arr .C 8))) (.rd (.var .kf))),
  .ite (.rd (.var .T)) (.num 1000 0) (.var .Kc) (.sub (.add (.add (.num 24863279230000002 16) (.mul (.neg (.num 98065835000000012 17)) (.rd (.var .logT)))) (.mul (.rd (.var .T)) (.add (.neg (.num 87619317535266614 20)) (.mul (.rd (.var .T)) (.add (.num 18851645153326528 22) (.mul (.rd (.var .T)) (.add (.neg (.num 12162578593584016 25)) (.mul (.num 3024261435463867 28) (.rd (.var .T)))))))))) (.div (.neg (.num 24114908299999999 12)) (.rd (.var .T)))) (.sub (.add (.add (.num 54388072400000009 17) (.mul (.neg (.num 76532694999999951 17)) (.rd (.var .logT)))) (.mul (.rd (.var .T)) (.add (.num 37836630654214875 20) (.mul (.rd (.var .T)) (.add (.num 20718083807300866 24) (.mul (.rd (.var .T)) (.add (.neg (.num 79353483554039681 28)) (.mul (.num 54404627009013211 32) (.rd (.var .T)))))))))) (.div (.neg (.num 24273345466999999 12)) (.rd (.var .T)))),
  .set (.var .Kc) (.mul (.num 82057360967184814 18) (.exp (.rd (.var .Kc)))),
  .set (.arr .rev 4) (.div (.mul (.rd (.arr .C 4)) (.rd (.var .kf))) (.rd (.var .Kc)))]

/-- utilities/mechanisms/yao/lib/src/rxn_rates.c:68-79 -/
def rate5 : List CStmt := [
  .set (.var .kf) (.exp (.sub (.num 25038751947812049 15) (.div (.num 14844977163345297 14) (.rd (.var .T))))),
  .set (.arr .fwd 5) (.mul (.mul (.rd (.arr .C 1)) (.rd (.arr .C 4))) (.rd (.var .kf))),
  .ite (.rd (.var .T)) (.num 1000 0) (.var .Kc) (.sub (.add (.add (.neg (.num 60996587269999996 16)) (.mul (.num 144881321 8) (.rd (.var .logT)))) (.mul (.rd (.var .T)) (.add (.neg (.num 85088913535266665 20)) (.mul (.rd (.var .T)) (.add (.neg (.num 13504992130006798 22)) (.mul (.rd (.var .T)) (.add (.num 10566097114749322 25) (.mul (.neg (.num 25837518295361346 29)) (.rd (.var .T)))))))))) (.div (.neg (.num 19005391699999996 12)) (.rd (.var .T)))) (.sub (.add (.add (.num 88526154140000006 16) (.mul (.neg (.num 7877531900000001 16)) (.rd (.var .logT)))) (.mul (.rd (.var .T)) (.add (.neg (.num 63405573457851186 21)) (.mul (.rd (.var .T)) (.add (.num 19248769640634191 24) (.mul (.rd (.var .T)) (.add (.neg (.num 44335525387373052 28)) (.mul (.num 40634677409013215 32) (.rd (.var .T)))))))))) (.div (.neg (.num 18147801133000001 12)) (.rd (.var .T)))),
  .set (.var .Kc) (.mul (.num 1 0) (.exp (.rd (.var .Kc)))),
  .set (.arr .rev 5) (.div (.mul (.mul (.rd (.arr .C 3)) (.rd (.arr .C 3))) (.rd (.var .kf))) (.rd (.var .Kc)))]

/-- utilities/mechanisms/yao/lib/src/rxn_rates.c:80-91 -/
def rate6 : List CStmt := [
  .set (.var .kf) (.exp (.sub (.add (.num 63828307308366448 16) (.mul (.num 2433 3) (.rd (.var .logT)))) (.div (.num 26923253159094918 12) (.rd (.var .T))))),
  .set (.arr .fwd 6) (.mul (.mul (.rd (.arr .C 5)) (.rd (.arr .C 8))) (.rd (.var .kf))),
  .ite (.rd (.var .T)) (.num 1000 0) (.var .Kc) (.sub (.add (.add (.neg (.num 17457169009999998 16)) (.mul (.num 67501052999999978 17) (.rd (.var .logT)))) (.mul (.rd (.var .T)) (.add (.neg (.num 48664535496473326 19)) (.mul (.rd (.var .T)) (.add (.num 51315230146673465 22) (.mul (.rd (.var .T)) (.add (.neg (.num 28960253089749321 25)) (.mul (.num 67123202395361351 29) (.rd (.var .T)))))))))) (.div (.num 27750346673 6) (.rd (.var .T)))) (.sub (.add (.add (.num 11928173859999998 16) (.mul (.neg (.num 10260612999999941 17)) (.rd (.var .logT)))) (.mul (.rd (.var .T)) (.add (.num 40306752000785135 20) (.mul (.rd (.var .T)) (.add (.neg (.num 62524707140634212 24)) (.mul (.rd (.var .T)) (.add (.num 70285170220706399 28) (.mul (.neg (.num 45723056009013232 32)) (.rd (.var .T)))))))))) (.div (.num 27624133254999997 12) (.rd (.var .T)))),
  .set (.var .Kc) (.mul (.num 1 0) (.exp (.rd (.var .Kc)))),
  .set (.arr .rev 6) (.div (.mul (.mul (.rd (.arr .C 1)) (.rd (.arr .C 4))) (.rd (.var .kf))) (.rd (.var .Kc)))]

/-- utilities/mechanisms/yao/lib/src/rxn_rates.c:92-103 -/
def rate7 : List CStmt := [
  .set (.var .kf) (.exp (.sub (.num 24087453392974666 15) (.div (.neg (.num 25257093179846231 14)) (.rd (.var .T))))),
  .set (.arr .fwd 7) (.mul (.mul (.rd (.arr .C 4)) (.rd (.arr .C 3))) (.rd (.var .kf))),
  .ite (.rd (.var .T)) (.num 1000 0) (.var .Kc) (.sub (.add (.add (.num 22842073199999913 17) (.mul (.neg (.num 44600669999999898 17)) (.rd (.var .logT)))) (.mul (.rd (.var .T)) (.add (.num 14707008199999999 19) (.mul (.rd (.var .T)) (.add (.neg (.num 18863719816666663 22)) (.mul (.rd (.var .T)) (.add (.num 12421383433333332 25) (.mul (.neg (.num 31694592450000006 29)) (.rd (.var .T)))))))))) (.div (.neg (.num 3503401642 5)) (.rd (.var .T)))) (.sub (.add (.add (.num 14986679399999994 16) (.mul (.neg (.num 56540943000000032 17)) (.rd (.var .logT)))) (.mul (.rd (.var .T)) (.add (.num 18184048500000018 20) (.mul (.rd (.var .T)) (.add (.neg (.num 48830465000000014 25)) (.mul (.rd (.var .T)) (.add (.neg (.num 26949724500000024 28)) (.mul (.num 36355660300000002 32) (.rd (.var .T)))))))))) (.div (.neg (.num 34923469273000002 12)) (.rd (.var .T)))),
  .set (.var .Kc) (.mul (.num 1 0) (.exp (.rd (.var .Kc)))),
  .set (.arr .rev 7) (.div (.mul (.mul (.rd (.arr .C 6)) (.rd (.arr .C 8))) (.rd (.var .kf))) (.rd (.var .Kc)))]

/-- utilities/mechanisms/yao/lib/src/rxn_rates.c:104-115 -/
def rate8 : List CStmt := [
  .set (.var .kf) (.exp (.sub (.num 22102031931645509 15) (.div (.num 33766032802049813 14) (.rd (.var .T))))),
  .set (.arr .fwd 8) (.mul (.mul (.rd (.arr .C 1)) (.rd (.arr .C 4))) (.rd (.var .kf))),
  .ite (.rd (.var .T)) (.num 1000 0) (.var .Kc) (.sub (.add (.add (.neg (.num 26321879950000007 16)) (.mul (.num 56510965000000102 17) (.rd (.var .logT)))) (.mul (.rd (.var .T)) (.add (.neg (.num 28331621535266629 20)) (.mul (.rd (.var .T)) (.add (.neg (.num 13324705046673464 22)) (.mul (.rd (.var .T)) (.add (.num 10550293781415989 25) (.mul (.neg (.num 27038066795361348 29)) (.rd (.var .T)))))))))) (.div (.neg (.num 26939935439999997 12)) (.rd (.var .T)))) (.sub (.add (.add (.num 73264871439999988 16) (.mul (.neg (.num 91379763999999986 17)) (.rd (.var .logT)))) (.mul (.rd (.var .T)) (.add (.neg (.num 74438090307851063 21)) (.mul (.rd (.var .T)) (.add (.num 85255679123967526 24) (.mul (.rd (.var .T)) (.add (.neg (.num 18442177680403972 27)) (.mul (.num 14419644555901321 31) (.rd (.var .T)))))))))) (.div (.neg (.num 26372234613000001 12)) (.rd (.var .T)))),
  .set (.var .Kc) (.mul (.num 1 0) (.exp (.rd (.var .Kc)))),
  .set (.arr .rev 8) (.div (.mul (.mul (.rd (.arr .C 6)) (.rd (.arr .C 2))) (.rd (.var .kf))) (.rd (.var .Kc)))]

/-- utilities/mechanisms/yao/lib/src/rxn_rates.c:116-127 -/
def rate9 : List CStmt := [
  .set (.var .kf) (.num 40000000000 0),
  .set (.arr .fwd 9) (.mul (.mul (.rd (.arr .C 4)) (.rd (.arr .C 2))) (.rd (.var .kf))),
  .ite (.rd (.var .T)) (.num 1000 0) (.var .Kc) (.sub (.add (.add (.neg (.num 32390499999999993 16)) (.mul (.num 43769685999999952 17) (.rd (.var .logT)))) (.mul (.rd (.var .T)) (.add (.num 90312789999999997 20) (.mul (.rd (.var .T)) (.add (.neg (.num 19044006899999999 22)) (.mul (.rd (.var .T)) (.add (.num 12437186766666667 25) (.mul (.neg (.num 30494043950000005 29)) (.rd (.var .T)))))))))) (.div (.neg (.num 27099472679999999 12)) (.rd (.var .T)))) (.sub (.add (.add (.num 30247962100000003 16) (.mul (.neg (.num 43936498000000102 17)) (.rd (.var .logT)))) (.mul (.rd (.var .T)) (.add (.num 19287300185000011 20) (.mul (.rd (.var .T)) (.add (.neg (.num 70889955983333337 24)) (.mul (.rd (.var .T)) (.add (.num 11313652691666665 27) (.mul (.neg (.num 67206107849999994 32)) (.rd (.var .T)))))))))) (.div (.neg (.num 26699035792999999 12)) (.rd (.var .T)))),
  .set (.var .Kc) (.mul (.num 1 0) (.exp (.rd (.var .Kc)))),
  .set (.arr .rev 9) (.div (.mul (.mul (.rd (.arr .C 8)) (.rd (.arr .C 3))) (.rd (.var .kf))) (.rd (.var .Kc)))]

/-- utilities/mechanisms/yao/lib/src/rxn_rates.c:128-139 -/
def rate10 : List CStmt := [
  .set (.var .kf) (.exp (.sub (.num 18683045008419857 15) (.div (.neg (.num 82024789072043507 14)) (.rd (.var .T))))),
  .set (.arr .fwd 10) (.mul (.mul (.rd (.arr .C 4)) (.rd (.arr .C 4))) (.rd (.var .kf))),
  .ite (.rd (.var .T)) (.num 1000 0) (.var .Kc) (.sub (.add (.add (.num 20442853999999988 17) (.mul (.neg (.num 54502697000000033 17)) (.rd (.var .logT)))) (.mul (.rd (.var .T)) (.add (.num 29793422214999996 19) (.mul (.rd (.var .T)) (.add (.neg (.num 26226176816666659 22)) (.mul (.rd (.var .T)) (.add (.num 14412002008333336 25) (.mul (.neg (.num 33581152400000006 29)) (.rd (.var .T)))))))))) (.div (.neg (.num 19356141739999999 12)) (.rd (.var .T)))) (.sub (.add (.add (.num 13860647200000007 16) (.mul (.neg (.num 58688111000000109 17)) (.rd (.var .logT)))) (.mul (.rd (.var .T)) (.add (.num 95588210999999991 20) (.mul (.rd (.var .T)) (.add (.neg (.num 23200710316666662 23)) (.mul (.rd (.var .T)) (.add (.num 2934698341666666 26) (.mul (.neg (.num 1444045145 24)) (.rd (.var .T)))))))))) (.div (.neg (.num 19173958845999998 12)) (.rd (.var .T)))),
  .set (.var .Kc) (.mul (.num 1 0) (.exp (.rd (.var .Kc)))),
  .set (.arr .rev 10) (.div (.mul (.mul (.rd (.arr .C 7)) (.rd (.arr .C 8))) (.rd (.var .kf))) (.rd (.var .Kc)))]

/-- utilities/mechanisms/yao/lib/src/rxn_rates.c:140-151 -/
def rate11 : List CStmt := [
  .set (.var .kf) (.exp (.sub (.num 26625352572903175 15) (.div (.num 60386347783099518 13) (.rd (.var .T))))),
  .set (.arr .fwd 11) (.mul (.mul (.rd (.arr .C 4)) (.rd (.arr .C 4))) (.rd (.var .kf))),
  .ite (.rd (.var .T)) (.num 1000 0) (.var .Kc) (.sub (.add (.add (.num 20442853999999988 17) (.mul (.neg (.num 54502697000000033 17)) (.rd (.var .logT)))) (.mul (.rd (.var .T)) (.add (.num 29793422214999996 19) (.mul (.rd (.var .T)) (.add (.neg (.num 26226176816666659 22)) (.mul (.rd (.var .T)) (.add (.num 14412002008333336 25) (.mul (.neg (.num 33581152400000006 29)) (.rd (.var .T)))))))))) (.div (.neg (.num 19356141739999999 12)) (.rd (.var .T)))) (.sub (.add (.add (.num 13860647200000007 16) (.mul (.neg (.num 58688111000000109 17)) (.rd (.var .logT)))) (.mul (.rd (.var .T)) (.add (.num 95588210999999991 20) (.mul (.rd (.var .T)) (.add (.neg (.num 23200710316666662 23)) (.mul (.rd (.var .T)) (.add (.num 2934698341666666 26) (.mul (.neg (.num 1444045145 24)) (.rd (.var .T)))))))))) (.div (.neg (.num 19173958845999998 12)) (.rd (.var .T)))),
  .set (.var .Kc) (.mul (.num 1 0) (.exp (.rd (.var .Kc)))),
  .set (.arr .rev 11) (.div (.mul (.mul (.rd (.arr .C 7)) (.rd (.arr .C 8))) (.rd (.var .kf))) (.rd (.var .Kc)))]

/-- utilities/mechanisms/yao/lib/src/rxn_rates.c:152-163 -/
def rate12 : List CStmt := [
  .set (.var .kf) (.exp (.sub (.num 2390547767744302 14) (.div (.num 19977816724908757 13) (.rd (.var .T))))),
  .set (.arr .fwd 12) (.mul (.mul (.rd (.arr .C 1)) (.rd (.arr .C 7))) (.rd (.var .kf))),
  .ite (.rd (.var .T)) (.num 1000 0) (.var .Kc) (.sub (.add (.add (.neg (.num 60756665349999981 16)) (.mul (.num 15478334800000004 16) (.rd (.var .logT)))) (.mul (.rd (.var .T)) (.add (.neg (.num 23595305368526668 19)) (.mul (.rd (.var .T)) (.add (.neg (.num 61425351300068019 23)) (.mul (.rd (.var .T)) (.add (.num 85754785397493179 26) (.mul (.neg (.num 23950958345361341 29)) (.rd (.var .T)))))))))) (.div (.neg (.num 34683266380000001 12)) (.rd (.var .T)))) (.sub (.add (.add (.num 89652186339999993 16) (.mul (.neg (.num 76628150999999933 17)) (.rd (.var .logT)))) (.mul (.rd (.var .T)) (.add (.neg (.num 83744719845785113 20)) (.mul (.rd (.var .T)) (.add (.num 24637282630730084 23) (.mul (.rd (.var .T)) (.add (.neg (.num 36475508405403969 27)) (.mul (.num 22139485220901322 31) (.rd (.var .T)))))))))) (.div (.neg (.num 33897311560000002 12)) (.rd (.var .T)))),
  .set (.var .Kc) (.mul (.num 1 0) (.exp (.rd (.var .Kc)))),
  .set (.arr .rev 12) (.div (.mul (.mul (.rd (.arr .C 6)) (.rd (.arr .C 3))) (.rd (.var .kf))) (.rd (.var .Kc)))]

/-- utilities/mechanisms/yao/lib/src/rxn_rates.c:164-175 -/
def rate13 : List CStmt := [
  .set (.var .kf) (.exp (.sub (.add (.num 87078135510248877 16) (.mul (.num 2 0) (.rd (.var .logT)))) (.div (.num 26167417372676459 13) (.rd (.var .T))))),
  .set (.arr .fwd 13) (.mul (.mul (.rd (.arr .C 1)) (.rd (.arr .C 7))) (.rd (.var .kf))),
  .ite (.rd (.var .T)) (.num 1000 0) (.var .Kc) (.sub (.add (.add (.num 15412883609999999 16) (.mul (.neg (.num 12998355999999944 17)) (.rd (.var .logT)))) (.mul (.rd (.var .T)) (.add (.num 18871113281473334 19) (.mul (.rd (.var .T)) (.add (.neg (.num 25089053330006806 22)) (.mul (.rd (.var .T)) (.add (.num 14548251081415985 25) (.mul (.neg (.num 33542049995361335 29)) (.rd (.var .T)))))))))) (.div (.neg (.num 83942049330000009 13)) (.rd (.var .T)))) (.sub (.add (.add (.neg (.num 25788821060000005 16)) (.mul (.num 68948724000000006 17) (.rd (.var .logT)))) (.mul (.rd (.var .T)) (.add (.neg (.num 13589496300078514 19)) (.mul (.rd (.var .T)) (.add (.num 29453181030730083 23) (.mul (.rd (.var .T)) (.add (.neg (.num 36375500438737303 27)) (.mul (.num 19012757050901321 31) (.rd (.var .T)))))))))) (.div (.neg (.num 84501744089999993 13)) (.rd (.var .T)))),
  .set (.var .Kc) (.mul (.num 1 0) (.exp (.rd (.var .Kc)))),
  .set (.arr .rev 13) (.div (.mul (.mul (.rd (.arr .C 5)) (.rd (.arr .C 4))) (.rd (.var .kf))) (.rd (.var .Kc)))]

/-- utilities/mechanisms/yao/lib/src/rxn_rates.c:176-187 -/
def rate14 : List CStmt := [
  .set (.var .kf) (.exp (.sub (.add (.num 91726385047921717 16) (.mul (.num 2 0) (.rd (.var .logT)))) (.div (.num 19977816724908757 13) (.rd (.var .T))))),
  .set (.arr .fwd 14) (.mul (.mul (.rd (.arr .C 7)) (.rd (.arr .C 2))) (.rd (.var .kf))),
  .ite (.rd (.var .T)) (.num 1000 0) (.var .Kc) (.sub (.add (.add (.neg (.num 34434785399999996 16)) (.mul (.num 98272382999999985 17) (.rd (.var .logT)))) (.mul (.rd (.var .T)) (.add (.neg (.num 20762143214999996 19)) (.mul (.rd (.var .T)) (.add (.num 71821699166666646 23) (.mul (.rd (.var .T)) (.add (.neg (.num 19748152416666681 26)) (.mul (.num 30871084500000015 30) (.rd (.var .T)))))))))) (.div (.neg (.num 77433309399999998 13)) (.rd (.var .T)))) (.sub (.add (.add (.num 16387314900000001 16) (.mul (.num 14751613000000008 17) (.rd (.var .logT)))) (.mul (.rd (.var .T)) (.add (.neg (.num 76300910814999995 20)) (.mul (.rd (.var .T)) (.add (.num 16111714718333332 23) (.mul (.rd (.var .T)) (.add (.neg (.num 18033330724999997 27)) (.mul (.num 77198406650000011 32) (.rd (.var .T)))))))))) (.div (.neg (.num 75250769469999977 13)) (.rd (.var .T)))),
  .set (.var .Kc) (.mul (.num 1 0) (.exp (.rd (.var .Kc)))),
  .set (.arr .rev 14) (.div (.mul (.mul (.rd (.arr .C 4)) (.rd (.arr .C 3))) (.rd (.var .kf))) (.rd (.var .Kc)))]

/-- utilities/mechanisms/yao/lib/src/rxn_rates.c:188-199 -/
def rate15 : List CStmt := [
  .set (.var .kf) (.exp (.sub (.num 21416413017506358 15) (.div (.num 21487475419486245 14) (.rd (.var .T))))),
  .set (.arr .fwd 15) (.mul (.mul (.rd (.arr .C 7)) (.rd (.arr .C 3))) (.rd (.var .kf))),
  .ite (.rd (.var .T)) (.num 1000 0) (.var .Kc) (.sub (.add (.add (.num 23992192000000578 18) (.mul (.num 99020270000000465 18) (.rd (.var .logT)))) (.mul (.rd (.var .T)) (.add (.neg (.num 15086414014999997 19)) (.mul (.rd (.var .T)) (.add (.num 73624569999999916 23) (.mul (.rd (.var .T)) (.add (.neg (.num 19906185750000009 26)) (.mul (.num 18865599500000012 30) (.rd (.var .T)))))))))) (.div (.neg (.num 15677874680000001 12)) (.rd (.var .T)))) (.sub (.add (.add (.num 11260321999999867 17) (.mul (.num 2147168000000077 17) (.rd (.var .logT)))) (.mul (.rd (.var .T)) (.add (.neg (.num 77404162499999994 20)) (.mul (.rd (.var .T)) (.add (.num 22712405666666666 23) (.mul (.rd (.var .T)) (.add (.neg (.num 32041955866666658 27)) (.mul (.num 18076017479999999 31) (.rd (.var .T)))))))))) (.div (.neg (.num 15749510426999997 12)) (.rd (.var .T)))),
  .set (.var .Kc) (.mul (.num 1 0) (.exp (.rd (.var .Kc)))),
  .set (.arr .rev 15) (.div (.mul (.mul (.rd (.arr .C 6)) (.rd (.arr .C 4))) (.rd (.var .kf))) (.rd (.var .Kc)))]

/-- utilities/mechanisms/yao/lib/src/rxn_rates.c:200-211 -/
def rate16 : List CStmt := [
  .set (.var .kf) (.exp (.sub (.sub (.num 88480312006185898 15) (.mul (.num 7 0) (.rd (.var .logT)))) (.div (.num 18921055638704514 12) (.rd (.var .T))))),
  .set (.arr .fwd 16) (.mul (.mul (.rd (.arr .C 7)) (.rd (.arr .C 3))) (.rd (.var .kf))),
  .ite (.rd (.var .T)) (.num 1000 0) (.var .Kc) (.sub (.add (.add (.num 23992192000000578 18) (.mul (.num 99020270000000465 18) (.rd (.var .logT)))) (.mul (.rd (.var .T)) (.add (.neg (.num 15086414014999997 19)) (.mul (.rd (.var .T)) (.add (.num 73624569999999916 23) (.mul (.rd (.var .T)) (.add (.neg (.num 19906185750000009 26)) (.mul (.num 18865599500000012 30) (.rd (.var .T)))))))))) (.div (.neg (.num 15677874680000001 12)) (.rd (.var .T)))) (.sub (.add (.add (.num 11260321999999867 17) (.mul (.num 2147168000000077 17) (.rd (.var .logT)))) (.mul (.rd (.var .T)) (.add (.neg (.num 77404162499999994 20)) (.mul (.rd (.var .T)) (.add (.num 22712405666666666 23) (.mul (.rd (.var .T)) (.add (.neg (.num 32041955866666658 27)) (.mul (.num 18076017479999999 31) (.rd (.var .T)))))))))) (.div (.neg (.num 15749510426999997 12)) (.rd (.var .T)))),
  .set (.var .Kc) (.mul (.num 1 0) (.exp (.rd (.var .Kc)))),
  .set (.arr .rev 16) (.div (.mul (.mul (.rd (.arr .C 6)) (.rd (.arr .C 4))) (.rd (.var .kf))) (.rd (.var .Kc)))]

/-- utilities/mechanisms/yao/lib/src/rxn_rates.c:212-223 -/
def rate17 : List CStmt := [
  .set (.var .kf) (.exp (.sub (.num 25432796038258747 15) (.mul (.num 37 2) (.rd (.var .logT))))),
  .set (.arr .fwd 17) (.mul (.mul (.rd (.arr .C 3)) (.rd (.arr .C 3))) (.rd (.var .kf))),
  .ite (.rd (.var .T)) (.num 1000 0) (.var .Kc) (.sub (.add (.add (.num 87904151899999992 16) (.mul (.neg (.num 297449853 8)) (.rd (.var .logT)))) (.mul (.rd (.var .T)) (.add (.num 29540381815000003 19) (.mul (.rd (.var .T)) (.add (.num 61304604666666687 23) (.mul (.rd (.var .T)) (.add (.neg (.num 83166736999999995 26)) (.mul (.num 22498980250000002 29) (.rd (.var .T)))))))))) (.div (.neg (.num 24465658340000002 12)) (.rd (.var .T)))) (.sub (.add (.add (.neg (.num 69226699699999994 16)) (.mul (.neg (.num 5644548700000005 16)) (.rd (.var .logT)))) (.mul (.rd (.var .T)) (.add (.num 139765399 11) (.mul (.rd (.var .T)) (.add (.neg (.num 23053778899999997 23)) (.mul (.rd (.var .T)) (.add (.num 25845187599999997 27) (.mul (.neg (.num 13063456490000001 31)) (.rd (.var .T)))))))))) (.div (.neg (.num 2529950318 5)) (.rd (.var .T)))),
  .set (.var .Kc) (.mul (.num 82057360967184814 18) (.exp (.rd (.var .Kc)))),
  .set (.arr .rev 17) (.div (.mul (.rd (.arr .C 7)) (.rd (.var .kf))) (.rd (.var .Kc)))]

/-- utilities/mechanisms/yao/lib/src/rxn_rates.c:224-235 -/
def rate18 : List CStmt := [
  .set (.var .kf) (.exp (.sub (.num 28207634480232542 15) (.mul (.num 1 0) (.rd (.var .logT))))),
  .set (.arr .fwd 18) (.mul (.mul (.rd (.arr .C 1)) (.rd (.arr .C 1))) (.rd (.var .kf))),
  .ite (.rd (.var .T)) (.num 1000 0) (.var .Kc) (.sub (.add (.add (.num 42320448239999999 16) (.mul (.neg (.num 16556688799999999 16)) (.rd (.var .logT)))) (.mul (.rd (.var .T)) (.add (.num 39902603742946671 19) (.mul (.rd (.var .T)) (.add (.neg (.num 32463584993346931 22)) (.mul (.rd (.var .T)) (.add (.num 16797674496165307 25) (.mul (.neg (.num 36880588040722682 29)) (.rd (.var .T)))))))))) (.div (.neg (.num 51865254972999996 12)) (.rd (.var .T)))) (.sub (.add (.add (.neg (.num 64893666199999966 17)) (.mul (.neg (.num 6627208200000001 16)) (.rd (.var .logT)))) (.mul (.rd (.var .T)) (.add (.neg (.num 24701213465702698 21)) (.mul (.rd (.var .T)) (.add (.num 83242790947935064 24) (.mul (.rd (.var .T)) (.add (.neg (.num 1496386537747461 26)) (.mul (.num 10012768301802643 31) (.rd (.var .T)))))))))) (.div (.neg (.num 51897478722 6)) (.rd (.var .T)))),
  .set (.var .Kc) (.mul (.num 82057360967184814 18) (.exp (.rd (.var .Kc)))),
  .set (.arr .rev 18) (.div (.mul (.rd (.arr .C 5)) (.rd (.var .kf))) (.rd (.var .Kc)))]

/-- utilities/mechanisms/yao/lib/src/rxn_rates.c:236-247 -/
def rate19 : List CStmt := [
  .set (.var .kf) (.exp (.sub (.num 38322966028828944 15) (.mul (.num 2 0) (.rd (.var .logT))))),
  .set (.arr .fwd 19) (.mul (.mul (.rd (.arr .C 1)) (.rd (.arr .C 3))) (.rd (.var .kf))),
  .ite (.rd (.var .T)) (.num 1000 0) (.var .Kc) (.sub (.add (.add (.num 27147486549999997 16) (.mul (.neg (.num 14266650499999995 16)) (.rd (.var .logT)))) (.mul (.rd (.var .T)) (.add (.num 59450764464733354 20) (.mul (.rd (.var .T)) (.add (.neg (.num 12074663340133229 25)) (.mul (.rd (.var .T)) (.add (.num 25880483974931943 27) (.mul (.neg (.num 14519780953613381 30)) (.rd (.var .T)))))))))) (.div (.neg (.num 59148924719999995 12)) (.rd (.var .T)))) (.sub (.add (.add (.num 20425486639999995 16) (.mul (.neg (.num 13307363799999998 16)) (.rd (.var .logT)))) (.mul (.rd (.var .T)) (.add (.num 56020679154214882 20) (.mul (.rd (.var .T)) (.add (.num 15835037307300871 24) (.mul (.rd (.var .T)) (.add (.neg (.num 1063032080540397 26)) (.mul (.num 90760287309013212 32) (.rd (.var .T)))))))))) (.div (.neg (.num 59196814739999994 12)) (.rd (.var .T)))),
  .set (.var .Kc) (.mul (.num 82057360967184814 18) (.exp (.rd (.var .Kc)))),
  .set (.arr .rev 19) (.div (.mul (.rd (.arr .C 6)) (.rd (.var .kf))) (.rd (.var .Kc)))]

/-- utilities/mechanisms/yao/lib/src/rxn_rates.c:248-259 -/
def rate20 : List CStmt := [
  .set (.var .kf) (.exp (.sub (.num 25510757579728459 15) (.mul (.num 1 0) (.rd (.var .logT))))),
  .set (.arr .fwd 20) (.mul (.mul (.rd (.arr .C 2)) (.rd (.arr .C 2))) (.rd (.var .kf))),
  .ite (.rd (.var .T)) (.num 1000 0) (.var .Kc) (.sub (.add (.add (.num 21078866500000002 16) (.mul (.neg (.num 15540778400000002 16)) (.rd (.var .logT)))) (.mul (.rd (.var .T)) (.add (.num 178095176 11) (.mul (.rd (.var .T)) (.add (.neg (.num 57313765166666677 23)) (.mul (.rd (.var .T)) (.add (.num 21456978249999992 26) (.mul (.neg (.num 49079552499999993 30)) (.rd (.var .T)))))))))) (.div (.neg (.num 59308461960000001 12)) (.rd (.var .T)))) (.sub (.add (.add (.neg (.num 2259142269999999 15)) (.mul (.neg (.num 85630372000000055 17)) (.rd (.var .logT)))) (.mul (.rd (.var .T)) (.add (.num 82751788369999995 20) (.mul (.rd (.var .T)) (.add (.neg (.num 1403105978 16)) (.mul (.rd (.var .T)) (.add (.num 19125509566666665 27) (.mul (.neg (.num 12064226609999998 31)) (.rd (.var .T)))))))))) (.div (.neg (.num 59523615919999997 12)) (.rd (.var .T)))),
  .set (.var .Kc) (.mul (.num 82057360967184814 18) (.exp (.rd (.var .Kc)))),
  .set (.arr .rev 20) (.div (.mul (.rd (.arr .C 8)) (.rd (.var .kf))) (.rd (.var .Kc)))]

/-- utilities/mechanisms/yao/lib/src/rxn_rates.c:260-271 -/
def rate21 : List CStmt := [
  .set (.var .kf) (.exp (.sub (.num 25223075507276675 15) (.mul (.num 6 1) (.rd (.var .logT))))),
  .set (.arr .fwd 21) (.mul (.mul (.mul (.rd (.arr .C 5)) (.rd (.arr .C 1))) (.rd (.arr .C 1))) (.rd (.var .kf))),
  .ite (.rd (.var .T)) (.num 1000 0) (.var .Kc) (.sub (.add (.add (.num 42320448239999999 16) (.mul (.neg (.num 16556688799999999 16)) (.rd (.var .logT)))) (.mul (.rd (.var .T)) (.add (.num 39902603742946671 19) (.mul (.rd (.var .T)) (.add (.neg (.num 32463584993346931 22)) (.mul (.rd (.var .T)) (.add (.num 16797674496165307 25) (.mul (.neg (.num 36880588040722682 29)) (.rd (.var .T)))))))))) (.div (.neg (.num 51865254972999996 12)) (.rd (.var .T)))) (.sub (.add (.add (.neg (.num 64893666199999966 17)) (.mul (.neg (.num 6627208200000001 16)) (.rd (.var .logT)))) (.mul (.rd (.var .T)) (.add (.neg (.num 24701213465702698 21)) (.mul (.rd (.var .T)) (.add (.num 83242790947935064 24) (.mul (.rd (.var .T)) (.add (.neg (.num 1496386537747461 26)) (.mul (.num 10012768301802643 31) (.rd (.var .T)))))))))) (.div (.neg (.num 51897478722 6)) (.rd (.var .T)))),
  .set (.var .Kc) (.mul (.num 82057360967184814 18) (.exp (.rd (.var .Kc)))),
  .set (.arr .rev 21) (.div (.mul (.mul (.rd (.arr .C 5)) (.rd (.arr .C 5))) (.rd (.var .kf))) (.rd (.var .Kc)))]

/-- utilities/mechanisms/yao/lib/src/rxn_rates.c:272-283 -/
def rate22 : List CStmt := [
  .set (.var .kf) (.exp (.sub (.num 31660649363430959 15) (.mul (.num 125 2) (.rd (.var .logT))))),
  .set (.arr .fwd 22) (.mul (.mul (.mul (.rd (.arr .C 1)) (.rd (.arr .C 1))) (.rd (.arr .C 6))) (.rd (.var .kf))),
  .ite (.rd (.var .T)) (.num 1000 0) (.var .Kc) (.sub (.add (.add (.num 42320448239999999 16) (.mul (.neg (.num 16556688799999999 16)) (.rd (.var .logT)))) (.mul (.rd (.var .T)) (.add (.num 39902603742946671 19) (.mul (.rd (.var .T)) (.add (.neg (.num 32463584993346931 22)) (.mul (.rd (.var .T)) (.add (.num 16797674496165307 25) (.mul (.neg (.num 36880588040722682 29)) (.rd (.var .T)))))))))) (.div (.neg (.num 51865254972999996 12)) (.rd (.var .T)))) (.sub (.add (.add (.neg (.num 64893666199999966 17)) (.mul (.neg (.num 6627208200000001 16)) (.rd (.var .logT)))) (.mul (.rd (.var .T)) (.add (.neg (.num 24701213465702698 21)) (.mul (.rd (.var .T)) (.add (.num 83242790947935064 24) (.mul (.rd (.var .T)) (.add (.neg (.num 1496386537747461 26)) (.mul (.num 10012768301802643 31) (.rd (.var .T)))))))))) (.div (.neg (.num 51897478722 6)) (.rd (.var .T)))),
  .set (.var .Kc) (.mul (.num 82057360967184814 18) (.exp (.rd (.var .Kc)))),
  .set (.arr .rev 22) (.div (.mul (.mul (.rd (.arr .C 5)) (.rd (.arr .C 6))) (.rd (.var .kf))) (.rd (.var .Kc)))]

/-- utilities/mechanisms/yao/lib/src/rxn_rates.c:284-295 -/
def rate23 : List CStmt := [
  .set (.var .kf) (.exp (.sub (.num 33940939394155066 15) (.mul (.num 2 0) (.rd (.var .logT))))),
  .set (.arr .fwd 23) (.mul (.mul (.mul (.rd (.arr .C 1)) (.rd (.arr .C 1))) (.rd (.arr .C 17))) (.rd (.var .kf))),
  .ite (.rd (.var .T)) (.num 1000 0) (.var .Kc) (.sub (.add (.add (.num 42320448239999999 16) (.mul (.neg (.num 16556688799999999 16)) (.rd (.var .logT)))) (.mul (.rd (.var .T)) (.add (.num 39902603742946671 19) (.mul (.rd (.var .T)) (.add (.neg (.num 32463584993346931 22)) (.mul (.rd (.var .T)) (.add (.num 16797674496165307 25) (.mul (.neg (.num 36880588040722682 29)) (.rd (.var .T)))))))))) (.div (.neg (.num 51865254972999996 12)) (.rd (.var .T)))) (.sub (.add (.add (.neg (.num 64893666199999966 17)) (.mul (.neg (.num 6627208200000001 16)) (.rd (.var .logT)))) (.mul (.rd (.var .T)) (.add (.neg (.num 24701213465702698 21)) (.mul (.rd (.var .T)) (.add (.num 83242790947935064 24) (.mul (.rd (.var .T)) (.add (.neg (.num 1496386537747461 26)) (.mul (.num 10012768301802643 31) (.rd (.var .T)))))))))) (.div (.neg (.num 51897478722 6)) (.rd (.var .T)))),
  .set (.var .Kc) (.mul (.num 82057360967184814 18) (.exp (.rd (.var .Kc)))),
  .set (.arr .rev 23) (.div (.mul (.mul (.rd (.arr .C 5)) (.rd (.arr .C 17))) (.rd (.var .kf))) (.rd (.var .Kc)))]

/-- utilities/mechanisms/yao/lib/src/rxn_rates.c:296-307 -/
def rate24 : List CStmt := [
  .set (.var .kf) (.exp (.sub (.num 29874705101002434 15) (.mul (.num 1 0) (.rd (.var .logT))))),
  .set (.arr .fwd 24) (.mul (.mul (.rd (.arr .C 1)) (.rd (.arr .C 2))) (.rd (.var .kf))),
  .ite (.rd (.var .T)) (.num 1000 0) (.var .Kc) (.sub (.add (.add (.neg (.num 7527220769999996 16)) (.mul (.neg (.num 54296149000000016 17)) (.rd (.var .logT)))) (.mul (.rd (.var .T)) (.add (.num 26934724647333401 21) (.mul (.rd (.var .T)) (.add (.neg (.num 19236174667346657 24)) (.mul (.rd (.var .T)) (.add (.num 27460817308265323 27) (.mul (.neg (.num 25142959536133914 31)) (.rd (.var .T)))))))))) (.div (.neg (.num 51214380980000002 12)) (.rd (.var .T)))) (.sub (.add (.add (.num 35686769340000013 16) (.mul (.neg (.num 12046919300000001 16)) (.rd (.var .logT)))) (.mul (.rd (.var .T)) (.add (.num 5712393083921487 19) (.mul (.rd (.var .T)) (.add (.neg (.num 50171872176032465 24)) (.mul (.rd (.var .T)) (.add (.num 33783043362626957 28) (.mul (.neg (.num 12801480840986783 32)) (.rd (.var .T)))))))))) (.div (.neg (.num 50972381259999995 12)) (.rd (.var .T)))),
  .set (.var .Kc) (.mul (.num 82057360967184814 18) (.exp (.rd (.var .Kc)))),
  .set (.arr .rev 24) (.div (.mul (.rd (.arr .C 3)) (.rd (.var .kf))) (.rd (.var .Kc)))]

/-- utilities/mechanisms/yao/lib/src/rxn_rates.c:308-319 -/
def rate25 : List CStmt := [
  .set (.var .kf) (.exp (.sub (.add (.num 42550451729130918 16) (.mul (.num 2053 3) (.rd (.var .logT)))) (.div (.neg (.num 17898010263345839 14)) (.rd (.var .T))))),
  .set (.arr .fwd 25) (.mul (.mul (.rd (.arr .C 16)) (.rd (.arr .C 3))) (.rd (.var .kf))),
  .ite (.rd (.var .T)) (.num 1000 0) (.var .Kc) (.sub (.add (.add (.num 94844586070000005 16) (.mul (.neg (.num 28480655599999998 16)) (.rd (.var .logT)))) (.mul (.rd (.var .T)) (.add (.num 64101999203526674 19) (.mul (.rd (.var .T)) (.add (.neg (.num 24446706553326532 22)) (.mul (.rd (.var .T)) (.add (.num 61256006402506795 26) (.mul (.neg (.num 65082441996386614 30)) (.rd (.var .T)))))))))) (.div (.neg (.num 11935761920000004 12)) (.rd (.var .T)))) (.sub (.add (.add (.neg (.num 12472919134 9)) (.mul (.num 77754582999999977 17) (.rd (.var .logT)))) (.mul (.rd (.var .T)) (.add (.num 64766916345785101 20) (.mul (.rd (.var .T)) (.add (.neg (.num 15948424914063418 23)) (.mul (.rd (.var .T)) (.add (.num 21909608988737308 27) (.mul (.neg (.num 12755842770901321 31)) (.rd (.var .T)))))))))) (.div (.neg (.num 12852491439999998 12)) (.rd (.var .T)))),
  .set (.var .Kc) (.mul (.num 1 0) (.exp (.rd (.var .Kc)))),
  .set (.arr .rev 25) (.div (.mul (.mul (.rd (.arr .C 1)) (.rd (.arr .C 17))) (.rd (.var .kf))) (.rd (.var .Kc)))]

/-- utilities/mechanisms/yao/lib/src/rxn_rates.c:320-331 -/
def rate26 : List CStmt := [
  .set (.var .kf) (.exp (.sub (.sub (.num 22473682342640085 15) (.mul (.num 664 3) (.rd (.var .logT)))) (.div (.num 16698334820721593 14) (.rd (.var .T))))),
  .set (.arr .fwd 26) (.mul (.mul (.rd (.arr .C 16)) (.rd (.arr .C 3))) (.rd (.var .kf))),
  .ite (.rd (.var .T)) (.num 1000 0) (.var .Kc) (.sub (.add (.add (.num 94844586070000005 16) (.mul (.neg (.num 28480655599999998 16)) (.rd (.var .logT)))) (.mul (.rd (.var .T)) (.add (.num 64101999203526674 19) (.mul (.rd (.var .T)) (.add (.neg (.num 24446706553326532 22)) (.mul (.rd (.var .T)) (.add (.num 61256006402506795 26) (.mul (.neg (.num 65082441996386614 30)) (.rd (.var .T)))))))))) (.div (.neg (.num 11935761920000004 12)) (.rd (.var .T)))) (.sub (.add (.add (.neg (.num 12472919134 9)) (.mul (.num 77754582999999977 17) (.rd (.var .logT)))) (.mul (.rd (.var .T)) (.add (.num 64766916345785101 20) (.mul (.rd (.var .T)) (.add (.neg (.num 15948424914063418 23)) (.mul (.rd (.var .T)) (.add (.num 21909608988737308 27) (.mul (.neg (.num 12755842770901321 31)) (.rd (.var .T)))))))))) (.div (.neg (.num 12852491439999998 12)) (.rd (.var .T)))),
  .set (.var .Kc) (.mul (.num 1 0) (.exp (.rd (.var .Kc)))),
  .set (.arr .rev 26) (.div (.mul (.mul (.rd (.arr .C 1)) (.rd (.arr .C 17))) (.rd (.var .kf))) (.rd (.var .Kc)))]

/-- utilities/mechanisms/yao/lib/src/rxn_rates.c:332-343 -/
def rate27 : List CStmt := [
  .set (.var .kf) (.exp (.sub (.add (.num 50562458053483077 16) (.mul (.num 218 2) (.rd (.var .logT)))) (.div (.num 90290723966376609 13) (.rd (.var .T))))),
  .set (.arr .fwd 27) (.mul (.mul (.rd (.arr .C 16)) (.rd (.arr .C 4))) (.rd (.var .kf))),
  .ite (.rd (.var .T)) (.num 1000 0) (.var .Kc) (.sub (.add (.add (.num 33847998800000005 16) (.mul (.neg (.num 13992523499999998 16)) (.rd (.var .logT)))) (.mul (.rd (.var .T)) (.add (.num 55593107850000004 19) (.mul (.rd (.var .T)) (.add (.neg (.num 37951698683333329 22)) (.mul (.rd (.var .T)) (.add (.num 16691697755000001 25) (.mul (.neg (.num 32345762495000006 29)) (.rd (.var .T)))))))))) (.div (.neg (.num 30941153620000005 12)) (.rd (.var .T)))) (.sub (.add (.add (.neg (.num 36203037199999999 16)) (.mul (.neg (.num 10207359999999888 18)) (.rd (.var .logT)))) (.mul (.rd (.var .T)) (.add (.num 58426358999999961 20) (.mul (.rd (.var .T)) (.add (.neg (.num 1402354795 16)) (.mul (.rd (.var .T)) (.add (.num 17476056450000004 27) (.mul (.neg (.num 86923750300000011 32)) (.rd (.var .T)))))))))) (.div (.neg (.num 31000292572999999 12)) (.rd (.var .T)))),
  .set (.var .Kc) (.mul (.num 1 0) (.exp (.rd (.var .Kc)))),
  .set (.arr .rev 27) (.div (.mul (.mul (.rd (.arr .C 17)) (.rd (.arr .C 3))) (.rd (.var .kf))) (.rd (.var .Kc)))]

/-- utilities/mechanisms/yao/lib/src/rxn_rates.c:344-355 -/
def rate28 : List CStmt := [
  .set (.var .kf) (.exp (.sub (.num 16427049858685642 15) (.div (.num 11996754426242437 13) (.rd (.var .T))))),
  .set (.arr .fwd 28) (.mul (.mul (.rd (.arr .C 16)) (.rd (.arr .C 2))) (.rd (.var .kf))),
  .ite (.rd (.var .T)) (.num 1000 0) (.var .Kc) (.sub (.add (.add (.num 87317365300000009 16) (.mul (.neg (.num 33910270499999999 16)) (.rd (.var .logT)))) (.mul (.rd (.var .T)) (.add (.num 64371346450000002 19) (.mul (.rd (.var .T)) (.add (.neg (.num 24639068299999998 22)) (.mul (.rd (.var .T)) (.add (.num 64002088133333328 26) (.mul (.neg (.num 67596737950000005 30)) (.rd (.var .T)))))))))) (.div (.neg (.num 63150142900000006 12)) (.rd (.var .T)))) (.sub (.add (.add (.neg (.num 89042422000000006 16)) (.mul (.neg (.num 42714609999999986 17)) (.rd (.var .logT)))) (.mul (.rd (.var .T)) (.add (.num 12189084718499997 19) (.mul (.rd (.var .T)) (.add (.neg (.num 20965612131666668 23)) (.mul (.rd (.var .T)) (.add (.num 25287913325000004 27) (.mul (.neg (.num 14035990855000001 31)) (.rd (.var .T)))))))))) (.div (.neg (.num 63824872699999993 12)) (.rd (.var .T)))),
  .set (.var .Kc) (.mul (.num 82057360967184814 18) (.exp (.rd (.var .Kc)))),
  .set (.arr .rev 28) (.div (.mul (.rd (.arr .C 17)) (.rd (.var .kf))) (.rd (.var .Kc)))]

/-- utilities/mechanisms/yao/lib/src/rxn_rates.c:356-367 -/
def rate29 : List CStmt := [
  .set (.var .kf) (.exp (.sub (.num 208357012662762 13) (.div (.num 24003573243782059 12) (.rd (.var .T))))),
  .set (.arr .fwd 29) (.mul (.mul (.rd (.arr .C 16)) (.rd (.arr .C 8))) (.rd (.var .kf))),
  .ite (.rd (.var .T)) (.num 1000 0) (.var .Kc) (.sub (.add (.add (.num 66238498800000007 16) (.mul (.neg (.num 18369492099999998 16)) (.rd (.var .logT)))) (.mul (.rd (.var .T)) (.add (.num 46561828850000004 19) (.mul (.rd (.var .T)) (.add (.neg (.num 18907691783333333 22)) (.mul (.rd (.var .T)) (.add (.num 42545109883333335 26) (.mul (.neg (.num 18517185450000013 30)) (.rd (.var .T)))))))))) (.div (.neg (.num 3841680940000002 12)) (.rd (.var .T)))) (.sub (.add (.add (.neg (.num 66450999300000007 16)) (.mul (.num 42915762000000068 17) (.rd (.var .logT)))) (.mul (.rd (.var .T)) (.add (.num 39139058814999987 20) (.mul (.rd (.var .T)) (.add (.neg (.num 6934552351666668 23)) (.mul (.rd (.var .T)) (.add (.num 61624037583333416 28) (.mul (.neg (.num 19717642450000007 32)) (.rd (.var .T)))))))))) (.div (.neg (.num 43012567799999979 13)) (.rd (.var .T)))),
  .set (.var .Kc) (.mul (.num 1 0) (.exp (.rd (.var .Kc)))),
  .set (.arr .rev 29) (.div (.mul (.mul (.rd (.arr .C 17)) (.rd (.arr .C 2))) (.rd (.var .kf))) (.rd (.var .Kc)))]

/-- utilities/mechanisms/yao/lib/src/rxn_rates.c:368-379 -/
def rate30 : List CStmt := [
  .set (.var .kf) (.exp (.sub (.sub (.num 32862129732783131 15) (.mul (.num 1 0) (.rd (.var .logT)))) (.div (.num 85547326026057654 13) (.rd (.var .T))))),
  .set (.arr .fwd 30) (.mul (.rd (.arr .C 13)) (.rd (.var .kf))),
  .ite (.rd (.var .T)) (.num 1000 0) (.var .Kc) (.sub (.add (.add (.neg (.num 21909936329999997 16)) (.mul (.num 85834762999999903 17) (.rd (.var .logT)))) (.mul (.rd (.var .T)) (.add (.num 13167858203526664 19) (.mul (.rd (.var .T)) (.add (.neg (.num 21271883786659866 22)) (.mul (.rd (.var .T)) (.add (.num 11851179321917348 25) (.mul (.neg (.num 2621056574963866 28)) (.rd (.var .T)))))))))) (.div (.num 72900089399999997 13) (.rd (.var .T)))) (.sub (.add (.add (.neg (.num 4869351354 9)) (.mul (.num 14430112399999997 16) (.rd (.var .logT)))) (.mul (.rd (.var .T)) (.add (.neg (.num 14472139265421485 19)) (.mul (.rd (.var .T)) (.add (.num 24760506252603246 23) (.mul (.rd (.var .T)) (.add (.neg (.num 29925731227929364 27)) (.mul (.num 1649304999909868 30) (.rd (.var .T)))))))))) (.div (.num 7309869349999999 12) (.rd (.var .T)))),
  .set (.var .Kc) (.mul (.num 12186597134166982 15) (.exp (.rd (.var .Kc)))),
  .set (.arr .rev 30) (.div (.mul (.mul (.rd (.arr .C 1)) (.rd (.arr .C 16))) (.rd (.var .kf))) (.rd (.var .Kc)))]

/-- utilities/mechanisms/yao/lib/src/rxn_rates.c:380-391 -/
def rate31 : List CStmt := [
  .set (.var .kf) (.num 120000000000 0),
  .set (.arr .fwd 31) (.mul (.mul (.rd (.arr .C 1)) (.rd (.arr .C 13))) (.rd (.var .kf))),
  .ite (.rd (.var .T)) (.num 1000 0) (.var .Kc) (.sub (.add (.add (.num 20410511910000002 16) (.mul (.neg (.num 79732125000000043 17)) (.rd (.var .logT)))) (.mul (.rd (.var .T)) (.add (.num 53070461946473331 19) (.mul (.rd (.var .T)) (.add (.neg (.num 53735468780006796 22)) (.mul (.rd (.var .T)) (.add (.num 28648853818082653 25) (.mul (.neg (.num 63091153790361341 29)) (.rd (.var .T)))))))))) (.div (.neg (.num 44575246033000003 12)) (.rd (.var .T)))) (.sub (.add (.add (.neg (.num 55182880159999996 16)) (.mul (.num 78029042000000004 17) (.rd (.var .logT)))) (.mul (.rd (.var .T)) (.add (.neg (.num 14719151400078511 19)) (.mul (.rd (.var .T)) (.add (.num 33084785347396752 23) (.mul (.rd (.var .T)) (.add (.neg (.num 44889596605403977 27)) (.mul (.num 26505818300901323 31) (.rd (.var .T)))))))))) (.div (.neg (.num 44587609371999999 12)) (.rd (.var .T)))),
  .set (.var .Kc) (.mul (.num 1 0) (.exp (.rd (.var .Kc)))),
  .set (.arr .rev 31) (.div (.mul (.mul (.rd (.arr .C 5)) (.rd (.arr .C 16))) (.rd (.var .kf))) (.rd (.var .Kc)))]

/-- utilities/mechanisms/yao/lib/src/rxn_rates.c:392-403 -/
def rate32 : List CStmt := [
  .set (.var .kf) (.num 30000000000 0),
  .set (.arr .fwd 32) (.mul (.mul (.rd (.arr .C 13)) (.rd (.arr .C 2))) (.rd (.var .kf))),
  .ite (.rd (.var .T)) (.num 1000 0) (.var .Kc) (.sub (.add (.add (.neg (.num 29437157099999998 16)) (.mul (.num 31538613999999887 17) (.rd (.var .logT)))) (.mul (.rd (.var .T)) (.add (.num 13437205449999998 19) (.mul (.rd (.var .T)) (.add (.neg (.num 21464245533333336 22)) (.mul (.rd (.var .T)) (.add (.num 12125787494999999 25) (.mul (.neg (.num 26461995345 23)) (.rd (.var .T)))))))))) (.div (.neg (.num 43924372040000002 12)) (.rd (.var .T)))) (.sub (.add (.add (.neg (.num 13006744199999987 16)) (.mul (.num 23831930999999962 17) (.rd (.var .logT)))) (.mul (.rd (.var .T)) (.add (.neg (.num 87597461814999968 20)) (.mul (.rd (.var .T)) (.add (.num 19743319034999999 23) (.mul (.rd (.var .T)) (.add (.neg (.num 26547426891666671 27)) (.mul (.num 15212901915 25) (.rd (.var .T)))))))))) (.div (.neg (.num 43662511910000001 12)) (.rd (.var .T)))),
  .set (.var .Kc) (.mul (.num 1 0) (.exp (.rd (.var .Kc)))),
  .set (.arr .rev 32) (.div (.mul (.mul (.rd (.arr .C 16)) (.rd (.arr .C 3))) (.rd (.var .kf))) (.rd (.var .Kc)))]

/-- utilities/mechanisms/yao/lib/src/rxn_rates.c:404-415 -/
def rate33 : List CStmt := [
  .set (.var .kf) (.num 30000000000 0),
  .set (.arr .fwd 33) (.mul (.mul (.rd (.arr .C 13)) (.rd (.arr .C 2))) (.rd (.var .kf))),
  .ite (.rd (.var .T)) (.num 1000 0) (.var .Kc) (.sub (.add (.add (.num 65407428970000012 16) (.mul (.neg (.num 25326794200000005 16)) (.rd (.var .logT)))) (.mul (.rd (.var .T)) (.add (.num 77539204653526671 19) (.mul (.rd (.var .T)) (.add (.neg (.num 45910952086659868 22)) (.mul (.rd (.var .T)) (.add (.num 18251388135250679 25) (.mul (.neg (.num 3297023954463866 28)) (.rd (.var .T)))))))))) (.div (.neg (.num 55860133960000006 12)) (.rd (.var .T)))) (.sub (.add (.add (.neg (.num 13773593554000001 15)) (.mul (.num 10158651399999994 16) (.rd (.var .logT)))) (.mul (.rd (.var .T)) (.add (.neg (.num 22830545469214872 20)) (.mul (.rd (.var .T)) (.add (.num 37948941209365814 24) (.mul (.rd (.var .T)) (.add (.neg (.num 46378179029293617 28)) (.mul (.num 24570591440986795 32) (.rd (.var .T)))))))))) (.div (.neg (.num 56515003349999999 12)) (.rd (.var .T)))),
  .set (.var .Kc) (.mul (.num 1 0) (.exp (.rd (.var .Kc)))),
  .set (.arr .rev 33) (.div (.mul (.mul (.rd (.arr .C 1)) (.rd (.arr .C 17))) (.rd (.var .kf))) (.rd (.var .Kc)))]

/-- utilities/mechanisms/yao/lib/src/rxn_rates.c:416-427 -/
def rate34 : List CStmt := [
  .set (.var .kf) (.num 30200000000 0),
  .set (.arr .fwd 34) (.mul (.mul (.rd (.arr .C 13)) (.rd (.arr .C 3))) (.rd (.var .kf))),
  .ite (.rd (.var .T)) (.num 1000 0) (.var .Kc) (.sub (.add (.add (.num 52375502200000046 17) (.mul (.neg (.num 56831741999999963 17)) (.rd (.var .logT)))) (.mul (.rd (.var .T)) (.add (.num 1911293465 12) (.mul (.rd (.var .T)) (.add (.neg (.num 21283958449999999 22)) (.mul (.rd (.var .T)) (.add (.num 12109984161666666 25) (.mul (.neg (.num 27662543845000002 29)) (.rd (.var .T)))))))))) (.div (.neg (.num 51858915779999996 12)) (.rd (.var .T)))) (.sub (.add (.add (.neg (.num 28268026900000005 16)) (.mul (.num 11227485999999987 17) (.rd (.var .logT)))) (.mul (.rd (.var .T)) (.add (.neg (.num 88700713499999966 20)) (.mul (.rd (.var .T)) (.add (.num 26344009983333332 23) (.mul (.rd (.var .T)) (.add (.neg (.num 40556052033333332 27)) (.mul (.num 25569078730000001 31) (.rd (.var .T)))))))))) (.div (.neg (.num 51886945390000001 12)) (.rd (.var .T)))),
  .set (.var .Kc) (.mul (.num 1 0) (.exp (.rd (.var .Kc)))),
  .set (.arr .rev 34) (.div (.mul (.mul (.rd (.arr .C 6)) (.rd (.arr .C 16))) (.rd (.var .kf))) (.rd (.var .Kc)))]

/-- utilities/mechanisms/yao/lib/src/rxn_rates.c:428-439 -/
def rate35 : List CStmt := [
  .set (.var .kf) (.exp (.sub (.add (.num 16303744997844948 15) (.mul (.num 807 3) (.rd (.var .logT)))) (.div (.neg (.num 36584062365261121 14)) (.rd (.var .T))))),
  .set (.arr .fwd 35) (.mul (.mul (.rd (.arr .C 13)) (.rd (.arr .C 8))) (.rd (.var .kf))),
  .ite (.rd (.var .T)) (.num 1000 0) (.var .Kc) (.sub (.add (.add (.num 29533429000000044 17) (.mul (.neg (.num 12231072000000021 17)) (.rd (.var .logT)))) (.mul (.rd (.var .T)) (.add (.num 44059264500000009 20) (.mul (.rd (.var .T)) (.add (.neg (.num 24202386333333375 23)) (.mul (.rd (.var .T)) (.add (.neg (.num 31139927166666888 27)) (.mul (.num 40320486050000074 30) (.rd (.var .T)))))))))) (.div (.neg (.num 16824899359999999 12)) (.rd (.var .T)))) (.sub (.add (.add (.neg (.num 43254706299999999 16)) (.mul (.num 67768429000000019 17) (.rd (.var .logT)))) (.mul (.rd (.var .T)) (.add (.neg (.num 10688476199999996 19)) (.mul (.rd (.var .T)) (.add (.num 26832314633333334 23) (.mul (.rd (.var .T)) (.add (.neg (.num 37861079583333334 27)) (.mul (.num 21933512699999998 31) (.rd (.var .T)))))))))) (.div (.neg (.num 16963476117000002 12)) (.rd (.var .T)))),
  .set (.var .Kc) (.mul (.num 1 0) (.exp (.rd (.var .Kc)))),
  .set (.arr .rev 35) (.div (.mul (.mul (.rd (.arr .C 16)) (.rd (.arr .C 4))) (.rd (.var .kf))) (.rd (.var .Kc)))]

/-- utilities/mechanisms/yao/lib/src/rxn_rates.c:440-451 -/
def rate36 : List CStmt := [
  .set (.var .kf) (.exp (.sub (.sub (.num 35347036382571133 15) (.mul (.num 1 0) (.rd (.var .logT)))) (.div (.num 85547326026057654 13) (.rd (.var .T))))),
  .set (.arr .fwd 36) (.mul (.mul (.rd (.arr .C 6)) (.rd (.arr .C 13))) (.rd (.var .kf))),
  .ite (.rd (.var .T)) (.num 1000 0) (.var .Kc) (.sub (.add (.add (.neg (.num 21909936329999997 16)) (.mul (.num 85834762999999903 17) (.rd (.var .logT)))) (.mul (.rd (.var .T)) (.add (.num 13167858203526664 19) (.mul (.rd (.var .T)) (.add (.neg (.num 21271883786659866 22)) (.mul (.rd (.var .T)) (.add (.num 11851179321917348 25) (.mul (.neg (.num 2621056574963866 28)) (.rd (.var .T)))))))))) (.div (.num 72900089399999997 13) (.rd (.var .T)))) (.sub (.add (.add (.neg (.num 4869351354 9)) (.mul (.num 14430112399999997 16) (.rd (.var .logT)))) (.mul (.rd (.var .T)) (.add (.neg (.num 14472139265421485 19)) (.mul (.rd (.var .T)) (.add (.num 24760506252603246 23) (.mul (.rd (.var .T)) (.add (.neg (.num 29925731227929364 27)) (.mul (.num 1649304999909868 30) (.rd (.var .T)))))))))) (.div (.num 7309869349999999 12) (.rd (.var .T)))),
  .set (.var .Kc) (.mul (.num 12186597134166982 15) (.exp (.rd (.var .Kc)))),
  .set (.arr .rev 36) (.div (.mul (.mul (.mul (.rd (.arr .C 1)) (.rd (.arr .C 6))) (.rd (.arr .C 16))) (.rd (.var .kf))) (.rd (.var .Kc)))]

/-- utilities/mechanisms/yao/lib/src/rxn_rates.c:452-463 -/
def rate37 : List CStmt := [
  .set (.var .kf) (.exp (.sub (.add (.num 10668955394675699 15) (.mul (.num 15 1) (.rd (.var .logT)))) (.div (.num 40056277362789348 12) (.rd (.var .T))))),
  .set (.arr .fwd 37) (.mul (.mul (.rd (.arr .C 5)) (.rd (.arr .C 16))) (.rd (.var .kf))),
  .ite (.rd (.var .T)) (.num 1000 0) (.var .Kc) (.sub (.add (.add (.neg (.num 2458465178 9)) (.mul (.neg (.num 13014144000000005 17)) (.rd (.var .logT)))) (.mul (.rd (.var .T)) (.add (.neg (.num 86392503799999978 19)) (.mul (.rd (.var .T)) (.add (.num 92972229116666652 22) (.mul (.rd (.var .T)) (.add (.neg (.num 49160617820000005 25)) (.mul (.num 107289036545 23) (.rd (.var .T)))))))))) (.div (.num 95306447299999854 14) (.rd (.var .T)))) (.sub (.add (.add (.num 13334433319999999 15) (.mul (.neg (.num 32917747299999993 16)) (.rd (.var .logT)))) (.mul (.rd (.var .T)) (.add (.num 359343793155 14) (.mul (.rd (.var .T)) (.add (.neg (.num 65386985616666657 23)) (.mul (.rd (.var .T)) (.add (.num 79660458833333329 27) (.mul (.neg (.num 44023165000000007 31)) (.rd (.var .T)))))))))) (.div (.num 11061990220000007 13) (.rd (.var .T)))),
  .set (.var .Kc) (.mul (.num 82057360967184814 18) (.exp (.rd (.var .Kc)))),
  .set (.arr .rev 37) (.div (.mul (.rd (.arr .C 14)) (.rd (.var .kf))) (.rd (.var .Kc)))]

/-- utilities/mechanisms/yao/lib/src/rxn_rates.c:464-475 -/
def rate38 : List CStmt := [
  .set (.var .kf) (.exp (.sub (.add (.num 20809443533187462 15) (.mul (.num 48 2) (.rd (.var .logT)))) (.div (.neg (.num 1308370868633823 13)) (.rd (.var .T))))),
  .set (.arr .fwd 38) (.mul (.mul (.rd (.arr .C 1)) (.rd (.arr .C 13))) (.rd (.var .kf))),
  .ite (.rd (.var .T)) (.num 1000 0) (.var .Kc) (.sub (.add (.add (.neg (.num 41741398699999976 17)) (.mul (.neg (.num 92746269000000048 17)) (.rd (.var .logT)))) (.mul (.rd (.var .T)) (.add (.neg (.num 33322041853526664 19)) (.mul (.rd (.var .T)) (.add (.num 39236760336659864 22) (.mul (.rd (.var .T)) (.add (.neg (.num 20511764001917343 25)) (.mul (.num 44197882754638669 29) (.rd (.var .T)))))))))) (.div (.neg (.num 43622181560000005 12)) (.rd (.var .T)))) (.sub (.add (.add (.num 78161453040000017 16) (.mul (.neg (.num 25114843100000002 16)) (.rd (.var .logT)))) (.mul (.rd (.var .T)) (.add (.num 21215227915421485 19) (.mul (.rd (.var .T)) (.add (.neg (.num 32302200269269904 23)) (.mul (.rd (.var .T)) (.add (.num 34770862227929353 27) (.mul (.neg (.num 17517346699098684 31)) (.rd (.var .T)))))))))) (.div (.neg (.num 43481410349999998 12)) (.rd (.var .T)))),
  .set (.var .Kc) (.mul (.num 82057360967184814 18) (.exp (.rd (.var .Kc)))),
  .set (.arr .rev 38) (.div (.mul (.rd (.arr .C 14)) (.rd (.var .kf))) (.rd (.var .Kc)))]

/-- utilities/mechanisms/yao/lib/src/rxn_rates.c:476-487 -/
def rate39 : List CStmt := [
  .set (.var .kf) (.exp (.sub (.num 3084989694079675 14) (.mul (.num 8 1) (.rd (.var .logT))))),
  .set (.arr .fwd 39) (.mul (.mul (.rd (.arr .C 1)) (.rd (.arr .C 9))) (.rd (.var .kf))),
  .ite (.rd (.var .T)) (.num 1000 0) (.var .Kc) (.sub (.add (.add (.num 3077803603 9) (.mul (.neg (.num 158908827 8)) (.rd (.var .logT)))) (.mul (.rd (.var .T)) (.add (.num 52103980314733352 20) (.mul (.rd (.var .T)) (.add (.num 48922002533265336 23) (.mul (.rd (.var .T)) (.add (.neg (.num 25168856019173461 26)) (.mul (.num 4282200754638662 29) (.rd (.var .T)))))))))) (.div (.neg (.num 55032701199999996 12)) (.rd (.var .T)))) (.sub (.add (.add (.num 58439448840000008 16) (.mul (.neg (.num 208838342 8)) (.rd (.var .logT)))) (.mul (.rd (.var .T)) (.add (.num 17917537365421488 19) (.mul (.rd (.var .T)) (.add (.neg (.num 26303292102603245 23)) (.mul (.rd (.var .T)) (.add (.num 27958758311262697 27) (.mul (.neg (.num 1397134159909868 30)) (.rd (.var .T)))))))))) (.div (.neg (.num 54961679600000003 12)) (.rd (.var .T)))),
  .set (.var .Kc) (.mul (.num 82057360967184814 18) (.exp (.rd (.var .Kc)))),
  .set (.arr .rev 39) (.div (.mul (.rd (.arr .C 11)) (.rd (.var .kf))) (.rd (.var .Kc)))]

/-- utilities/mechanisms/yao/lib/src/rxn_rates.c:488-499 -/
def rate40 : List CStmt := [
  .set (.var .kf) (.num 80000000000 0),
  .set (.arr .fwd 40) (.mul (.mul (.rd (.arr .C 9)) (.rd (.arr .C 2))) (.rd (.var .kf))),
  .ite (.rd (.var .T)) (.num 1000 0) (.var .Kc) (.sub (.add (.add (.neg (.num 457015803 9)) (.mul (.neg (.num 20975992999999971 17)) (.rd (.var .logT)))) (.mul (.rd (.var .T)) (.add (.neg (.num 46673931114733346 20)) (.mul (.rd (.var .T)) (.add (.num 72366370466734677 23) (.mul (.rd (.var .T)) (.add (.neg (.num 27795262730826525 26)) (.mul (.num 26880587453613382 30) (.rd (.var .T)))))))))) (.div (.neg (.num 45813074439999997 12)) (.rd (.var .T)))) (.sub (.add (.add (.neg (.num 14325223539999996 16)) (.mul (.neg (.num 17134752000000031 17)) (.rd (.var .logT)))) (.mul (.rd (.var .T)) (.add (.num 69326821530785122 20) (.mul (.rd (.var .T)) (.add (.neg (.num 18624310045730086 23)) (.mul (.rd (.var .T)) (.add (.num 28250000347070641 27) (.mul (.neg (.num 17903225405901321 31)) (.rd (.var .T)))))))))) (.div (.neg (.num 45995605049999998 12)) (.rd (.var .T)))),
  .set (.var .Kc) (.mul (.num 1 0) (.exp (.rd (.var .Kc)))),
  .set (.arr .rev 40) (.div (.mul (.mul (.rd (.arr .C 1)) (.rd (.arr .C 13))) (.rd (.var .kf))) (.rd (.var .Kc)))]

/-- utilities/mechanisms/yao/lib/src/rxn_rates.c:500-511 -/
def rate41 : List CStmt := [
  .set (.var .kf) (.num 20000000000 0),
  .set (.arr .fwd 41) (.mul (.mul (.rd (.arr .C 9)) (.rd (.arr .C 3))) (.rd (.var .kf))),
  .ite (.rd (.var .T)) (.num 1000 0) (.var .Kc) (.sub (.add (.add (.neg (.num 12170771300000016 17)) (.mul (.neg (.num 59426113000000003 17)) (.rd (.var .logT)))) (.mul (.rd (.var .T)) (.add (.neg (.num 38258782211473331 19)) (.mul (.rd (.var .T)) (.add (.num 4666575913000679 21) (.mul (.rd (.var .T)) (.add (.neg (.num 23565898448082654 25)) (.mul (.num 47137371095361347 29) (.rd (.var .T)))))))))) (.div (.neg (.num 38220875019999999 12)) (.rd (.var .T)))) (.sub (.add (.add (.num 28149460159999999 16) (.mul (.neg (.num 14781399000000004 16)) (.rd (.var .logT)))) (.mul (.rd (.var .T)) (.add (.num 22435516984578522 19) (.mul (.rd (.var .T)) (.add (.neg (.num 45909323097396754 23)) (.mul (.rd (.var .T)) (.add (.num 59642558238737305 27) (.mul (.neg (.num 34140424020901324 31)) (.rd (.var .T)))))))))) (.div (.neg (.num 38504634140000002 12)) (.rd (.var .T)))),
  .set (.var .Kc) (.mul (.num 1 0) (.exp (.rd (.var .Kc)))),
  .set (.arr .rev 41) (.div (.mul (.mul (.rd (.arr .C 14)) (.rd (.arr .C 1))) (.rd (.var .kf))) (.rd (.var .Kc)))]

/-- utilities/mechanisms/yao/lib/src/rxn_rates.c:512-523 -/
def rate42 : List CStmt := [
  .set (.var .kf) (.exp (.sub (.add (.num 62146080984221914 16) (.mul (.num 2 0) (.rd (.var .logT)))) (.div (.num 36382774539317456 13) (.rd (.var .T))))),
  .set (.arr .fwd 42) (.mul (.mul (.rd (.arr .C 5)) (.rd (.arr .C 9))) (.rd (.var .kf))),
  .ite (.rd (.var .T)) (.num 1000 0) (.var .Kc) (.sub (.add (.add (.neg (.num 11542412209999999 16)) (.mul (.num 66580609999999929 18) (.rd (.var .logT)))) (.mul (.rd (.var .T)) (.add (.neg (.num 34692205711473328 19)) (.mul (.rd (.var .T)) (.add (.num 37355785246673471 22) (.mul (.rd (.var .T)) (.add (.neg (.num 19314560098082654 25)) (.mul (.num 41162788795361342 29) (.rd (.var .T)))))))))) (.div (.neg (.num 31674462270000004 13)) (.rd (.var .T)))) (.sub (.add (.add (.num 64928815460000013 16) (.mul (.neg (.num 14256625999999999 16)) (.rd (.var .logT)))) (.mul (.rd (.var .T)) (.add (.num 18164549500078511 19) (.mul (.rd (.var .T)) (.add (.neg (.num 34627571197396756 23)) (.mul (.rd (.var .T)) (.add (.num 42922623688737307 27) (.mul (.neg (.num 23984109900901322 31)) (.rd (.var .T)))))))))) (.div (.neg (.num 3064200877999996 12)) (.rd (.var .T)))),
  .set (.var .Kc) (.mul (.num 1 0) (.exp (.rd (.var .Kc)))),
  .set (.arr .rev 42) (.div (.mul (.mul (.rd (.arr .C 1)) (.rd (.arr .C 11))) (.rd (.var .kf))) (.rd (.var .Kc)))]

/-- utilities/mechanisms/yao/lib/src/rxn_rates.c:524-535 -/
def rate43 : List CStmt := [
  .set (.var .kf) (.exp (.sub (.num 23084119838064431 15) (.div (.num 75482934728874397 14) (.rd (.var .T))))),
  .set (.arr .fwd 43) (.mul (.mul (.rd (.arr .C 9)) (.rd (.arr .C 8))) (.rd (.var .kf))),
  .ite (.rd (.var .T)) (.num 1000 0) (.var .Kc) (.sub (.add (.add (.neg (.num 33176245300000002 16)) (.mul (.num 80135642000000029 17) (.rd (.var .logT)))) (.mul (.rd (.var .T)) (.add (.neg (.num 22207563464999996 19)) (.mul (.rd (.var .T)) (.add (.num 12775651816666669 22) (.mul (.rd (.var .T)) (.add (.neg (.num 46506159249999995 26)) (.mul (.num 73445843999999971 30) (.rd (.var .T)))))))))) (.div (.neg (.num 37718993459999998 12)) (.rd (.var .T)))) (.sub (.add (.add (.num 43952968500000011 16) (.mul (.neg (.num 51973572999999984 17)) (.rd (.var .logT)))) (.mul (.rd (.var .T)) (.add (.num 43698963999999976 20) (.mul (.rd (.var .T)) (.add (.neg (.num 96104374833333359 24)) (.mul (.rd (.var .T)) (.add (.num 12502795116666675 27) (.mul (.neg (.num 71191468800000046 32)) (.rd (.var .T)))))))))) (.div (.neg (.num 37444370390000004 12)) (.rd (.var .T)))),
  .set (.var .Kc) (.mul (.num 1 0) (.exp (.rd (.var .Kc)))),
  .set (.arr .rev 43) (.div (.mul (.mul (.rd (.arr .C 13)) (.rd (.arr .C 3))) (.rd (.var .kf))) (.rd (.var .Kc)))]

/-- utilities/mechanisms/yao/lib/src/rxn_rates.c:536-547 -/
def rate44 : List CStmt := [
  .set (.var .kf) (.exp (.sub (.num 21694044754104635 15) (.div (.num 75482934728874397 14) (.rd (.var .T))))),
  .set (.arr .fwd 44) (.mul (.mul (.rd (.arr .C 9)) (.rd (.arr .C 8))) (.rd (.var .kf))),
  .ite (.rd (.var .T)) (.num 1000 0) (.var .Kc) (.sub (.add (.add (.num 39758404440000006 16) (.mul (.neg (.num 118836151 8)) (.rd (.var .logT)))) (.mul (.rd (.var .T)) (.add (.num 55062293942053329 19) (.mul (.rd (.var .T)) (.add (.neg (.num 32942938523319731 22)) (.mul (.rd (.var .T)) (.add (.num 13326164037168029 25) (.mul (.neg (.num 25374225549277323 29)) (.rd (.var .T)))))))))) (.div (.neg (.num 42364746440000003 12)) (.rd (.var .T)))) (.sub (.add (.add (.neg (.num 12946973637999999 15)) (.mul (.num 17008213400000005 16) (.rd (.var .logT)))) (.mul (.rd (.var .T)) (.add (.neg (.num 3625551230842975 19)) (.mul (.rd (.var .T)) (.add (.neg (.num 79835614479351063 25)) (.mul (.rd (.var .T)) (.add (.num 44866728774746158 28) (.mul (.neg (.num 33819396518026434 32)) (.rd (.var .T)))))))))) (.div (.neg (.num 42986992480000001 12)) (.rd (.var .T)))),
  .set (.var .Kc) (.mul (.num 12186597134166982 15) (.exp (.rd (.var .Kc)))),
  .set (.arr .rev 44) (.div (.mul (.mul (.mul (.rd (.arr .C 1)) (.rd (.arr .C 1))) (.rd (.arr .C 17))) (.rd (.var .kf))) (.rd (.var .Kc)))]

/-- utilities/mechanisms/yao/lib/src/rxn_rates.c:548-559 -/
def rate45 : List CStmt := [
  .set (.var .kf) (.num 20000000000 0),
  .set (.arr .fwd 45) (.mul (.mul (.rd (.arr .C 9)) (.rd (.arr .C 4))) (.rd (.var .kf))),
  .ite (.rd (.var .T)) (.num 1000 0) (.var .Kc) (.sub (.add (.add (.neg (.num 62213664399999988 16)) (.mul (.num 85455208000000038 17) (.rd (.var .logT)))) (.mul (.rd (.var .T)) (.add (.neg (.num 46767673564999997 19)) (.mul (.rd (.var .T)) (.add (.num 33160766999999997 22) (.mul (.rd (.var .T)) (.add (.neg (.num 1299980133333333 24)) (.mul (.num 21299852799999996 29) (.rd (.var .T)))))))))) (.div (.neg (.num 5722626672 5)) (.rd (.var .T)))) (.sub (.add (.add (.num 11667561430000001 15) (.mul (.neg (.num 22658930900000001 16)) (.rd (.var .logT)))) (.mul (.rd (.var .T)) (.add (.num 21801461249999999 19) (.mul (.rd (.var .T)) (.add (.neg (.num 43984446133333328 23)) (.mul (.rd (.var .T)) (.add (.num 55209005699999994 27) (.mul (.neg (.num 30076956280000001 31)) (.rd (.var .T)))))))))) (.div (.neg (.num 56652435273000003 12)) (.rd (.var .T)))),
  .set (.var .Kc) (.mul (.num 1 0) (.exp (.rd (.var .Kc)))),
  .set (.arr .rev 45) (.div (.mul (.mul (.rd (.arr .C 14)) (.rd (.arr .C 3))) (.rd (.var .kf))) (.rd (.var .Kc)))]

/-- utilities/mechanisms/yao/lib/src/rxn_rates.c:560-571 -/
def rate46 : List CStmt := [
  .set (.var .kf) (.num 32000000000 0),
  .set (.arr .fwd 46) (.mul (.mul (.rd (.arr .C 9)) (.rd (.arr .C 9))) (.rd (.var .kf))),
  .ite (.rd (.var .T)) (.num 1000 0) (.var .Kc) (.sub (.add (.add (.num 15869996764 9) (.mul (.neg (.num 43723451259999999 16)) (.rd (.var .logT)))) (.mul (.rd (.var .T)) (.add (.num 14702169681999999 18) (.mul (.rd (.var .T)) (.add (.neg (.num 10097521553333335 21)) (.mul (.rd (.var .T)) (.add (.num 465618968 17) (.mul (.neg (.num 96258408649999989 29)) (.rd (.var .T)))))))))) (.div (.neg (.num 66497034673000002 12)) (.rd (.var .T)))) (.sub (.add (.add (.neg (.num 18514337579999999 15)) (.mul (.num 17366465799999995 16) (.rd (.var .logT)))) (.mul (.rd (.var .T)) (.add (.neg (.num 7002608365499997 19)) (.mul (.rd (.var .T)) (.add (.num 15740003299999998 23) (.mul (.rd (.var .T)) (.add (.neg (.num 1937611008333333 26)) (.mul (.num 10723764849999999 31) (.rd (.var .T)))))))))) (.div (.neg (.num 67541367721999995 12)) (.rd (.var .T)))),
  .set (.var .Kc) (.mul (.num 1 0) (.exp (.rd (.var .Kc)))),
  .set (.arr .rev 46) (.div (.mul (.mul (.rd (.arr .C 5)) (.rd (.arr .C 18))) (.rd (.var .kf))) (.rd (.var .Kc)))]

/-- utilities/mechanisms/yao/lib/src/rxn_rates.c:572-583 -/
def rate47 : List CStmt := [
  .set (.var .kf) (.exp (.sub (.num 23431316038048621 15) (.div (.num 30193173891549759 14) (.rd (.var .T))))),
  .set (.arr .fwd 47) (.mul (.mul (.rd (.arr .C 53)) (.rd (.arr .C 10))) (.rd (.var .kf))),
  .ite (.rd (.var .T)) (.num 1000 0) (.var .Kc) (.sub (.add (.add (.num 27675762569999995 16) (.mul (.neg (.num 43592543999999966 17)) (.rd (.var .logT)))) (.mul (.rd (.var .T)) (.add (.num 16677431665000002 19) (.mul (.rd (.var .T)) (.add (.neg (.num 90634396499999983 23)) (.mul (.rd (.var .T)) (.add (.num 23643735666666669 26) (.mul (.neg (.num 12786509000000005 30)) (.rd (.var .T)))))))))) (.div (.neg (.num 44927762000000002 13)) (.rd (.var .T)))) (.sub (.add (.add (.neg (.num 30373711599999997 16)) (.mul (.num 58206271000000021 17) (.rd (.var .logT)))) (.mul (.rd (.var .T)) (.add (.neg (.num 49974672500000005 20)) (.mul (.rd (.var .T)) (.add (.num 10049558333333332 23) (.mul (.rd (.var .T)) (.add (.neg (.num 13143870916666673 27)) (.mul (.num 75994398999999995 32) (.rd (.var .T)))))))))) (.div (.neg (.num 46623957000000009 13)) (.rd (.var .T)))),
  .set (.var .Kc) (.mul (.num 1 0) (.exp (.rd (.var .Kc)))),
  .set (.arr .rev 47) (.div (.mul (.mul (.rd (.arr .C 9)) (.rd (.arr .C 53))) (.rd (.var .kf))) (.rd (.var .Kc)))]

/-- utilities/mechanisms/yao/lib/src/rxn_rates.c:584-595 -/
def rate48 : List CStmt := [
  .set (.var .kf) (.exp (.sub (.num 22920490414282632 15) (.div (.num 30193173891549759 14) (.rd (.var .T))))),
  .set (.arr .fwd 48) (.mul (.mul (.rd (.arr .C 0)) (.rd (.arr .C 10))) (.rd (.var .kf))),
  .ite (.rd (.var .T)) (.num 1000 0) (.var .Kc) (.sub (.add (.add (.num 27675762569999995 16) (.mul (.neg (.num 43592543999999966 17)) (.rd (.var .logT)))) (.mul (.rd (.var .T)) (.add (.num 16677431665000002 19) (.mul (.rd (.var .T)) (.add (.neg (.num 90634396499999983 23)) (.mul (.rd (.var .T)) (.add (.num 23643735666666669 26) (.mul (.neg (.num 12786509000000005 30)) (.rd (.var .T)))))))))) (.div (.neg (.num 44927762000000002 13)) (.rd (.var .T)))) (.sub (.add (.add (.neg (.num 30373711599999997 16)) (.mul (.num 58206271000000021 17) (.rd (.var .logT)))) (.mul (.rd (.var .T)) (.add (.neg (.num 49974672500000005 20)) (.mul (.rd (.var .T)) (.add (.num 10049558333333332 23) (.mul (.rd (.var .T)) (.add (.neg (.num 13143870916666673 27)) (.mul (.num 75994398999999995 32) (.rd (.var .T)))))))))) (.div (.neg (.num 46623957000000009 13)) (.rd (.var .T)))),
  .set (.var .Kc) (.mul (.num 1 0) (.exp (.rd (.var .Kc)))),
  .set (.arr .rev 48) (.div (.mul (.mul (.rd (.arr .C 9)) (.rd (.arr .C 0))) (.rd (.var .kf))) (.rd (.var .Kc)))]

/-- utilities/mechanisms/yao/lib/src/rxn_rates.c:596-607 -/
def rate49 : List CStmt := [
  .set (.var .kf) (.num 15000000000 0),
  .set (.arr .fwd 49) (.mul (.mul (.rd (.arr .C 10)) (.rd (.arr .C 2))) (.rd (.var .kf))),
  .ite (.rd (.var .T)) (.num 1000 0) (.var .Kc) (.sub (.add (.add (.num 43516116450000002 16) (.mul (.neg (.num 14430066199999998 16)) (.rd (.var .logT)))) (.mul (.rd (.var .T)) (.add (.num 65080500499999994 19) (.mul (.rd (.var .T)) (.add (.neg (.num 55562271383333331 22)) (.mul (.rd (.var .T)) (.add (.num 28233701111666669 25) (.mul (.neg (.num 61681745945000004 29)) (.rd (.var .T)))))))))) (.div (.neg (.num 94881096672999993 12)) (.rd (.var .T)))) (.sub (.add (.add (.neg (.num 99881815299999985 16)) (.mul (.num 11910056099999999 16) (.rd (.var .logT)))) (.mul (.rd (.var .T)) (.add (.neg (.num 12783936497 13)) (.mul (.rd (.var .T)) (.add (.num 24510033634999999 23) (.mul (.rd (.var .T)) (.add (.neg (.num 29783467175000008 27)) (.mul (.num 16202032794999998 31) (.rd (.var .T)))))))))) (.div (.neg (.num 95245610121999998 12)) (.rd (.var .T)))),
  .set (.var .Kc) (.mul (.num 1 0) (.exp (.rd (.var .Kc)))),
  .set (.arr .rev 49) (.div (.mul (.mul (.rd (.arr .C 5)) (.rd (.arr .C 16))) (.rd (.var .kf))) (.rd (.var .Kc)))]

/-- utilities/mechanisms/yao/lib/src/rxn_rates.c:608-619 -/
def rate50 : List CStmt := [
  .set (.var .kf) (.num 15000000000 0),
  .set (.arr .fwd 50) (.mul (.mul (.rd (.arr .C 10)) (.rd (.arr .C 2))) (.rd (.var .kf))),
  .ite (.rd (.var .T)) (.num 1000 0) (.var .Kc) (.sub (.add (.add (.num 23105604539999995 16) (.mul (.neg (.num 64568536999999937 17)) (.rd (.var .logT)))) (.mul (.rd (.var .T)) (.add (.num 12010038553526665 19) (.mul (.rd (.var .T)) (.add (.neg (.num 18268026033265306 23)) (.mul (.rd (.var .T)) (.add (.neg (.num 41515270641598609 27)) (.mul (.num 14094078453613377 30) (.rd (.var .T)))))))))) (.div (.neg (.num 50305850640000004 12)) (.rd (.var .T)))) (.sub (.add (.add (.neg (.num 44698935139999989 16)) (.mul (.num 4107151899999999 16) (.rd (.var .logT)))) (.mul (.rd (.var .T)) (.add (.num 19352149030785112 20) (.mul (.rd (.var .T)) (.add (.neg (.num 85747517123967536 24)) (.mul (.rd (.var .T)) (.add (.num 15106129430403969 27) (.mul (.neg (.num 10303785505901323 31)) (.rd (.var .T)))))))))) (.div (.neg (.num 50658000749999999 12)) (.rd (.var .T)))),
  .set (.var .Kc) (.mul (.num 1 0) (.exp (.rd (.var .Kc)))),
  .set (.arr .rev 50) (.div (.mul (.mul (.rd (.arr .C 1)) (.rd (.arr .C 13))) (.rd (.var .kf))) (.rd (.var .Kc)))]

/-- utilities/mechanisms/yao/lib/src/rxn_rates.c:620-631 -/
def rate51 : List CStmt := [
  .set (.var .kf) (.num 30000000000 0),
  .set (.arr .fwd 51) (.mul (.mul (.rd (.arr .C 10)) (.rd (.arr .C 3))) (.rd (.var .kf))),
  .ite (.rd (.var .T)) (.num 1000 0) (.var .Kc) (.sub (.add (.add (.num 26458685439999989 16) (.mul (.neg (.num 10301865699999997 16)) (.rd (.var .logT)))) (.mul (.rd (.var .T)) (.add (.neg (.num 21581350546473334 19)) (.mul (.rd (.var .T)) (.add (.num 37602319480006796 22) (.mul (.rd (.var .T)) (.add (.neg (.num 21201524881415986 25)) (.mul (.num 45858720195361347 29) (.rd (.var .T)))))))))) (.div (.neg (.num 4271365122 5)) (.rd (.var .T)))) (.sub (.add (.add (.neg (.num 22242514400000024 17)) (.mul (.neg (.num 89607719000000019 17)) (.rd (.var .logT)))) (.mul (.rd (.var .T)) (.add (.num 17438049734578517 19) (.mul (.rd (.var .T)) (.add (.neg (.num 35859764764063419 23)) (.mul (.rd (.var .T)) (.add (.num 46498687322070629 27) (.mul (.neg (.num 26540984120901329 31)) (.rd (.var .T)))))))))) (.div (.neg (.num 43167029840000003 12)) (.rd (.var .T)))),
  .set (.var .Kc) (.mul (.num 1 0) (.exp (.rd (.var .Kc)))),
  .set (.arr .rev 51) (.div (.mul (.mul (.rd (.arr .C 14)) (.rd (.arr .C 1))) (.rd (.var .kf))) (.rd (.var .Kc)))]

/-- utilities/mechanisms/yao/lib/src/rxn_rates.c:632-643 -/
def rate52 : List CStmt := [
  .set (.var .kf) (.num 70000000000 0),
  .set (.arr .fwd 52) (.mul (.mul (.rd (.arr .C 5)) (.rd (.arr .C 10))) (.rd (.var .kf))),
  .ite (.rd (.var .T)) (.num 1000 0) (.var .Kc) (.sub (.add (.add (.num 16133350359999996 16) (.mul (.neg (.num 36934482999999974 17)) (.rd (.var .logT)))) (.mul (.rd (.var .T)) (.add (.neg (.num 18014774046473329 19)) (.mul (.rd (.var .T)) (.add (.num 28292345596673472 22) (.mul (.rd (.var .T)) (.add (.neg (.num 16950186531415987 25)) (.mul (.num 39884137895361342 29) (.rd (.var .T)))))))))) (.div (.neg (.num 76602224270000006 13)) (.rd (.var .T)))) (.sub (.add (.add (.num 34555103860000012 16) (.mul (.neg (.num 84359988999999969 17)) (.rd (.var .logT)))) (.mul (.rd (.var .T)) (.add (.num 13167082250078511 19) (.mul (.rd (.var .T)) (.add (.neg (.num 24578012864063421 23)) (.mul (.rd (.var .T)) (.add (.num 29778752772070631 27) (.mul (.neg (.num 16384670000901324 31)) (.rd (.var .T)))))))))) (.div (.neg (.num 7726596577999997 12)) (.rd (.var .T)))),
  .set (.var .Kc) (.mul (.num 1 0) (.exp (.rd (.var .Kc)))),
  .set (.arr .rev 52) (.div (.mul (.mul (.rd (.arr .C 1)) (.rd (.arr .C 11))) (.rd (.var .kf))) (.rd (.var .Kc)))]

/-- utilities/mechanisms/yao/lib/src/rxn_rates.c:644-655 -/
def rate53 : List CStmt := [
  .set (.var .kf) (.num 28000000000 0),
  .set (.arr .fwd 53) (.mul (.mul (.rd (.arr .C 10)) (.rd (.arr .C 8))) (.rd (.var .kf))),
  .ite (.rd (.var .T)) (.num 1000 0) (.var .Kc) (.sub (.add (.add (.neg (.num 27410419060000004 16)) (.mul (.num 12237786099999997 16) (.rd (.var .logT)))) (.mul (.rd (.var .T)) (.add (.num 76377264035266631 20) (.mul (.rd (.var .T)) (.add (.neg (.num 17559671619993197 22)) (.mul (.rd (.var .T)) (.add (.num 95649369635840147 26) (.mul (.neg (.num 20144632249638663 29)) (.rd (.var .T)))))))))) (.div (.neg (.num 34921760719999998 12)) (.rd (.var .T)))) (.sub (.add (.add (.neg (.num 35114256639999999 16)) (.mul (.num 15053382199999996 16) (.rd (.var .logT)))) (.mul (.rd (.var .T)) (.add (.neg (.num 15099710115421485 19)) (.mul (.rd (.var .T)) (.add (.num 2519962710260324 22) (.mul (.rd (.var .T)) (.add (.neg (.num 30566807027929368 27)) (.mul (.num 16973343019098677 31) (.rd (.var .T)))))))))) (.div (.neg (.num 34796896740000004 12)) (.rd (.var .T)))),
  .set (.var .Kc) (.mul (.num 12186597134166982 15) (.exp (.rd (.var .Kc)))),
  .set (.arr .rev 53) (.div (.mul (.mul (.mul (.rd (.arr .C 1)) (.rd (.arr .C 16))) (.rd (.arr .C 3))) (.rd (.var .kf))) (.rd (.var .Kc)))]

/-- utilities/mechanisms/yao/lib/src/rxn_rates.c:656-667 -/
def rate54 : List CStmt := [
  .set (.var .kf) (.num 12000000000 0),
  .set (.arr .fwd 54) (.mul (.mul (.rd (.arr .C 10)) (.rd (.arr .C 8))) (.rd (.var .kf))),
  .ite (.rd (.var .T)) (.num 1000 0) (.var .Kc) (.sub (.add (.add (.neg (.num 2629325100000024 17)) (.mul (.neg (.num 202886439999999 15)) (.rd (.var .logT)))) (.mul (.rd (.var .T)) (.add (.num 13582802849999998 19) (.mul (.rd (.var .T)) (.add (.neg (.num 1757174628333333 21)) (.mul (.rd (.var .T)) (.add (.num 98237418033333331 26) (.mul (.neg (.num 21596610345 23)) (.rd (.var .T)))))))))) (.div (.neg (.num 94070685439999987 12)) (.rd (.var .T)))) (.sub (.add (.add (.neg (.num 1468877 6)) (.mul (.num 17460184000000023 17) (.rd (.var .logT)))) (.mul (.rd (.var .T)) (.add (.neg (.num 94976421999999974 20)) (.mul (.rd (.var .T)) (.add (.num 26783130833333326 23) (.mul (.rd (.var .T)) (.add (.neg (.num 41197127833333337 27)) (.mul (.num 26049371749999998 31) (.rd (.var .T)))))))))) (.div (.neg (.num 93993711479999998 12)) (.rd (.var .T)))),
  .set (.var .Kc) (.mul (.num 1 0) (.exp (.rd (.var .Kc)))),
  .set (.arr .rev 54) (.div (.mul (.mul (.rd (.arr .C 6)) (.rd (.arr .C 16))) (.rd (.var .kf))) (.rd (.var .Kc)))]

/-- utilities/mechanisms/yao/lib/src/rxn_rates.c:668-679 -/
def rate55 : List CStmt := [
  .set (.var .kf) (.num 30000000000 0),
  .set (.arr .fwd 55) (.mul (.mul (.rd (.arr .C 6)) (.rd (.arr .C 10))) (.rd (.var .kf))),
  .ite (.rd (.var .T)) (.num 1000 0) (.var .Kc) (.sub (.add (.add (.num 27675762569999995 16) (.mul (.neg (.num 43592543999999966 17)) (.rd (.var .logT)))) (.mul (.rd (.var .T)) (.add (.num 16677431665000002 19) (.mul (.rd (.var .T)) (.add (.neg (.num 90634396499999983 23)) (.mul (.rd (.var .T)) (.add (.num 23643735666666669 26) (.mul (.neg (.num 12786509000000005 30)) (.rd (.var .T)))))))))) (.div (.neg (.num 44927762000000002 13)) (.rd (.var .T)))) (.sub (.add (.add (.neg (.num 30373711599999997 16)) (.mul (.num 58206271000000021 17) (.rd (.var .logT)))) (.mul (.rd (.var .T)) (.add (.neg (.num 49974672500000005 20)) (.mul (.rd (.var .T)) (.add (.num 10049558333333332 23) (.mul (.rd (.var .T)) (.add (.neg (.num 13143870916666673 27)) (.mul (.num 75994398999999995 32) (.rd (.var .T)))))))))) (.div (.neg (.num 46623957000000009 13)) (.rd (.var .T)))),
  .set (.var .Kc) (.mul (.num 1 0) (.exp (.rd (.var .Kc)))),
  .set (.arr .rev 55) (.div (.mul (.mul (.rd (.arr .C 9)) (.rd (.arr .C 6))) (.rd (.var .kf))) (.rd (.var .Kc)))]

/-- utilities/mechanisms/yao/lib/src/rxn_rates.c:680-691 -/
def rate56 : List CStmt := [
  .set (.var .kf) (.num 9000000000 0),
  .set (.arr .fwd 56) (.mul (.mul (.rd (.arr .C 16)) (.rd (.arr .C 10))) (.rd (.var .kf))),
  .ite (.rd (.var .T)) (.num 1000 0) (.var .Kc) (.sub (.add (.add (.num 27675762569999995 16) (.mul (.neg (.num 43592543999999966 17)) (.rd (.var .logT)))) (.mul (.rd (.var .T)) (.add (.num 16677431665000002 19) (.mul (.rd (.var .T)) (.add (.neg (.num 90634396499999983 23)) (.mul (.rd (.var .T)) (.add (.num 23643735666666669 26) (.mul (.neg (.num 12786509000000005 30)) (.rd (.var .T)))))))))) (.div (.neg (.num 44927762000000002 13)) (.rd (.var .T)))) (.sub (.add (.add (.neg (.num 30373711599999997 16)) (.mul (.num 58206271000000021 17) (.rd (.var .logT)))) (.mul (.rd (.var .T)) (.add (.neg (.num 49974672500000005 20)) (.mul (.rd (.var .T)) (.add (.num 10049558333333332 23) (.mul (.rd (.var .T)) (.add (.neg (.num 13143870916666673 27)) (.mul (.num 75994398999999995 32) (.rd (.var .T)))))))))) (.div (.neg (.num 46623957000000009 13)) (.rd (.var .T)))),
  .set (.var .Kc) (.mul (.num 1 0) (.exp (.rd (.var .Kc)))),
  .set (.arr .rev 56) (.div (.mul (.mul (.rd (.arr .C 9)) (.rd (.arr .C 16))) (.rd (.var .kf))) (.rd (.var .Kc)))]

/-- utilities/mechanisms/yao/lib/src/rxn_rates.c:692-703 -/
def rate57 : List CStmt := [
  .set (.var .kf) (.num 7000000000 0),
  .set (.arr .fwd 57) (.mul (.mul (.rd (.arr .C 17)) (.rd (.arr .C 10))) (.rd (.var .kf))),
  .ite (.rd (.var .T)) (.num 1000 0) (.var .Kc) (.sub (.add (.add (.num 27675762569999995 16) (.mul (.neg (.num 43592543999999966 17)) (.rd (.var .logT)))) (.mul (.rd (.var .T)) (.add (.num 16677431665000002 19) (.mul (.rd (.var .T)) (.add (.neg (.num 90634396499999983 23)) (.mul (.rd (.var .T)) (.add (.num 23643735666666669 26) (.mul (.neg (.num 12786509000000005 30)) (.rd (.var .T)))))))))) (.div (.neg (.num 44927762000000002 13)) (.rd (.var .T)))) (.sub (.add (.add (.neg (.num 30373711599999997 16)) (.mul (.num 58206271000000021 17) (.rd (.var .logT)))) (.mul (.rd (.var .T)) (.add (.neg (.num 49974672500000005 20)) (.mul (.rd (.var .T)) (.add (.num 10049558333333332 23) (.mul (.rd (.var .T)) (.add (.neg (.num 13143870916666673 27)) (.mul (.num 75994398999999995 32) (.rd (.var .T)))))))))) (.div (.neg (.num 46623957000000009 13)) (.rd (.var .T)))),
  .set (.var .Kc) (.mul (.num 1 0) (.exp (.rd (.var .Kc)))),
  .set (.arr .rev 57) (.div (.mul (.mul (.rd (.arr .C 9)) (.rd (.arr .C 17))) (.rd (.var .kf))) (.rd (.var .Kc)))]

/-- utilities/mechanisms/yao/lib/src/rxn_rates.c:704-715 -/
def rate58 : List CStmt := [
  .set (.var .kf) (.num 14000000000 0),
  .set (.arr .fwd 58) (.mul (.mul (.rd (.arr .C 17)) (.rd (.arr .C 10))) (.rd (.var .kf))),
  .ite (.rd (.var .T)) (.num 1000 0) (.var .Kc) (.sub (.add (.add (.neg (.num 68385900630000007 16)) (.mul (.num 18178789899999996 16) (.rd (.var .logT)))) (.mul (.rd (.var .T)) (.add (.neg (.num 85683349749999995 19)) (.mul (.rd (.var .T)) (.add (.num 62049026033333328 22) (.mul (.rd (.var .T)) (.add (.neg (.num 27327125521666666 25)) (.mul (.num 52366964395000012 29) (.rd (.var .T)))))))))) (.div (.neg (.num 30777889299999995 12)) (.rd (.var .T)))) (.sub (.add (.add (.num 12250493990000002 15) (.mul (.neg (.num 16736230200000004 16)) (.rd (.var .logT)))) (.mul (.rd (.var .T)) (.add (.num 10961358100000005 19) (.mul (.rd (.var .T)) (.add (.neg (.num 19911339850000003 23)) (.mul (.rd (.var .T)) (.add (.num 24589078333333321 27) (.mul (.neg (.num 13785141350000006 31)) (.rd (.var .T)))))))))) (.div (.neg (.num 30314538400000005 12)) (.rd (.var .T)))),
  .set (.var .Kc) (.mul (.num 1 0) (.exp (.rd (.var .Kc)))),
  .set (.arr .rev 58) (.div (.mul (.mul (.rd (.arr .C 14)) (.rd (.arr .C 16))) (.rd (.var .kf))) (.rd (.var .Kc)))]

/-- utilities/mechanisms/yao/lib/src/rxn_rates.c:716-727 -/
def rate59 : List CStmt := [
  .set (.var .kf) (.exp (.sub (.add (.num 20107079697522593 15) (.mul (.num 454 3) (.rd (.var .logT)))) (.div (.num 1308370868633823 12) (.rd (.var .T))))),
  .set (.arr .fwd 59) (.mul (.mul (.rd (.arr .C 14)) (.rd (.arr .C 1))) (.rd (.var .kf))),
  .ite (.rd (.var .T)) (.num 1000 0) (.var .Kc) (.sub (.add (.add (.num 99981967229999995 16) (.mul (.neg (.num 258191813 8)) (.rd (.var .logT)))) (.mul (.rd (.var .T)) (.add (.num 35518503146473334 19) (.mul (.rd (.var .T)) (.add (.num 55516050332654252 24) (.mul (.rd (.var .T)) (.add (.neg (.num 78155690019173486 26)) (.mul (.num 27407884004638667 29) (.rd (.var .T)))))))))) (.div (.neg (.num 98690055999999986 13)) (.rd (.var .T)))) (.sub (.add (.add (.neg (.num 15673542655999999 15)) (.mul (.num 14971022899999999 16) (.rd (.var .logT)))) (.mul (.rd (.var .T)) (.add (.neg (.num 87928802845785141 20)) (.mul (.rd (.var .T)) (.add (.num 28758939230730081 23) (.mul (.rd (.var .T)) (.add (.neg (.num 4736013427207063 26)) (.mul (.num 31015926850901328 31) (.rd (.var .T)))))))))) (.div (.neg (.num 11099715659999998 12)) (.rd (.var .T)))),
  .set (.var .Kc) (.mul (.num 82057360967184814 18) (.exp (.rd (.var .Kc)))),
  .set (.arr .rev 59) (.div (.mul (.rd (.arr .C 15)) (.rd (.var .kf))) (.rd (.var .Kc)))]

/-- utilities/mechanisms/yao/lib/src/rxn_rates.c:728-739 -/
def rate60 : List CStmt := [
  .set (.var .kf) (.exp (.sub (.add (.num 16951004773893423 15) (.mul (.num 105 2) (.rd (.var .logT)))) (.div (.num 16480440749137576 13) (.rd (.var .T))))),
  .set (.arr .fwd 60) (.mul (.mul (.rd (.arr .C 14)) (.rd (.arr .C 1))) (.rd (.var .kf))),
  .ite (.rd (.var .T)) (.num 1000 0) (.var .Kc) (.sub (.add (.add (.num 46494588109999997 16) (.mul (.neg (.num 72820618999999986 17)) (.rd (.var .logT)))) (.mul (.rd (.var .T)) (.add (.num 73224645596473327 19) (.mul (.rd (.var .T)) (.add (.neg (.num 71700345330006791 22)) (.mul (.rd (.var .T)) (.add (.num 37309438498082653 25) (.mul (.neg (.num 8107847079536134 28)) (.rd (.var .T)))))))))) (.div (.neg (.num 82430734129999983 13)) (.rd (.var .T)))) (.sub (.add (.add (.neg (.num 84650819659999996 16)) (.mul (.num 18487634900000005 16) (.rd (.var .logT)))) (.mul (.rd (.var .T)) (.add (.neg (.num 21462240050078513 19)) (.mul (.rd (.var .T)) (.add (.num 40626479364063411 23) (.mul (.rd (.var .T)) (.add (.neg (.num 49734727605403966 27)) (.mul (.num 27530115000901327 31) (.rd (.var .T)))))))))) (.div (.neg (.num 84160683719999979 13)) (.rd (.var .T)))),
  .set (.var .Kc) (.mul (.num 1 0) (.exp (.rd (.var .Kc)))),
  .set (.arr .rev 60) (.div (.mul (.mul (.rd (.arr .C 5)) (.rd (.arr .C 13))) (.rd (.var .kf))) (.rd (.var .Kc)))]

/-- utilities/mechanisms/yao/lib/src/rxn_rates.c:740-751 -/
def rate61 : List CStmt := [
  .set (.var .kf) (.exp (.sub (.num 24386827483076058 15) (.div (.num 17813972596014357 13) (.rd (.var .T))))),
  .set (.arr .fwd 61) (.mul (.mul (.rd (.arr .C 14)) (.rd (.arr .C 2))) (.rd (.var .kf))),
  .ite (.rd (.var .T)) (.num 1000 0) (.var .Kc) (.sub (.add (.add (.neg (.num 33530809000000028 17)) (.mul (.num 38450120000000032 17) (.rd (.var .logT)))) (.mul (.rd (.var .T)) (.add (.num 33591389100000001 19) (.mul (.rd (.var .T)) (.add (.neg (.num 39429122083333331 22)) (.mul (.rd (.var .T)) (.add (.num 20786372174999998 25) (.mul (.neg (.num 44449312350000004 29)) (.rd (.var .T)))))))))) (.div (.neg (.num 75921994199999972 13)) (.rd (.var .T)))) (.sub (.add (.add (.neg (.num 424746837 8)) (.mul (.num 13067923799999996 16) (.rd (.var .logT)))) (.mul (.rd (.var .T)) (.add (.neg (.num 15502834831500004 19)) (.mul (.rd (.var .T)) (.add (.num 2728501305166666 22) (.mul (.rd (.var .T)) (.add (.neg (.num 3139255789166666 26)) (.mul (.num 16237198615000004 31) (.rd (.var .T)))))))))) (.div (.neg (.num 749097091 5)) (.rd (.var .T)))),
  .set (.var .Kc) (.mul (.num 1 0) (.exp (.rd (.var .Kc)))),
  .set (.arr .rev 61) (.div (.mul (.mul (.rd (.arr .C 13)) (.rd (.arr .C 3))) (.rd (.var .kf))) (.rd (.var .Kc)))]

/-- utilities/mechanisms/yao/lib/src/rxn_rates.c:752-763 -/
def rate62 : List CStmt := [
  .set (.var .kf) (.exp (.sub (.add (.num 15048070819142122 15) (.mul (.num 118 2) (.rd (.var .logT)))) (.div (.neg (.num 2249391454920457 13)) (.rd (.var .T))))),
  .set (.arr .fwd 62) (.mul (.mul (.rd (.arr .C 14)) (.rd (.arr .C 3))) (.rd (.var .kf))),
  .ite (.rd (.var .T)) (.num 1000 0) (.var .Kc) (.sub (.add (.add (.num 31321626419999999 16) (.mul (.neg (.num 49920235999999907 17)) (.rd (.var .logT)))) (.mul (.rd (.var .T)) (.add (.num 39267118300000004 19) (.mul (.rd (.var .T)) (.add (.neg (.num 39248834999999993 22)) (.mul (.rd (.var .T)) (.add (.num 20770568841666663 25) (.mul (.neg (.num 45649860849999996 29)) (.rd (.var .T)))))))))) (.div (.neg (.num 15526743159999998 12)) (.rd (.var .T)))) (.sub (.add (.add (.neg (.num 57735966400000009 16)) (.mul (.num 11807479300000003 16) (.rd (.var .logT)))) (.mul (.rd (.var .T)) (.add (.neg (.num 15613160000000003 19)) (.mul (.rd (.var .T)) (.add (.num 33885703999999996 23) (.mul (.rd (.var .T)) (.add (.neg (.num 45401183033333321 27)) (.mul (.num 26593375430000005 31) (.rd (.var .T)))))))))) (.div (.neg (.num 15715404389999998 12)) (.rd (.var .T)))),
  .set (.var .Kc) (.mul (.num 1 0) (.exp (.rd (.var .Kc)))),
  .set (.arr .rev 62) (.div (.mul (.mul (.rd (.arr .C 6)) (.rd (.arr .C 13))) (.rd (.var .kf))) (.rd (.var .Kc)))]

/-- utilities/mechanisms/yao/lib/src/rxn_rates.c:764-775 -/
def rate63 : List CStmt := [
  .set (.var .kf) (.exp (.sub (.num 25328436022934504 15) (.div (.num 20128782594366505 12) (.rd (.var .T))))),
  .set (.arr .fwd 63) (.mul (.mul (.rd (.arr .C 14)) (.rd (.arr .C 8))) (.rd (.var .kf))),
  .ite (.rd (.var .T)) (.num 1000 0) (.var .Kc) (.sub (.add (.add (.num 29037419099999999 16) (.mul (.neg (.num 53195659999999645 18)) (.rd (.var .logT)))) (.mul (.rd (.var .T)) (.add (.num 24560110100000001 19) (.mul (.rd (.var .T)) (.add (.neg (.num 20385115183333334 22)) (.mul (.rd (.var .T)) (.add (.num 83491854083333324 26) (.mul (.neg (.num 13955268399999999 29)) (.rd (.var .T)))))))))) (.div (.num 19507273260000002 12) (.rd (.var .T)))) (.sub (.add (.add (.neg (.num 72722645800000008 16)) (.mul (.num 17461573600000007 16) (.rd (.var .logT)))) (.mul (.rd (.var .T)) (.add (.neg (.num 17431564849999998 19)) (.mul (.rd (.var .T)) (.add (.num 34374008649999998 23) (.mul (.rd (.var .T)) (.add (.neg (.num 42706210583333322 27)) (.mul (.num 22957809400000002 31) (.rd (.var .T)))))))))) (.div (.num 19208064882999999 12) (.rd (.var .T)))),
  .set (.var .Kc) (.mul (.num 1 0) (.exp (.rd (.var .Kc)))),
  .set (.arr .rev 63) (.div (.mul (.mul (.rd (.arr .C 4)) (.rd (.arr .C 13))) (.rd (.var .kf))) (.rd (.var .Kc)))]

/-- utilities/mechanisms/yao/lib/src/rxn_rates.c:776-787 -/
def rate64 : List CStmt := [
  .set (.var .kf) (.exp (.sub (.num 2072326583694641 14) (.div (.num 4025756518873301 12) (.rd (.var .T))))),
  .set (.arr .fwd 64) (.mul (.mul (.rd (.arr .C 14)) (.rd (.arr .C 4))) (.rd (.var .kf))),
  .ite (.rd (.var .T)) (.num 1000 0) (.var .Kc) (.sub (.add (.add (.num 31081704499999998 16) (.mul (.neg (.num 59822262999999953 17)) (.rd (.var .logT)))) (.mul (.rd (.var .T)) (.add (.num 54353532315000001 19) (.mul (.rd (.var .T)) (.add (.neg (.num 46611291999999993 22)) (.mul (.rd (.var .T)) (.add (.num 22761187416666667 25) (.mul (.neg (.num 47536420800000006 29)) (.rd (.var .T)))))))))) (.div (.num 15113152000000071 14) (.rd (.var .T)))) (.sub (.add (.add (.neg (.num 58861998599999996 16)) (.mul (.num 11592762499999996 16) (.rd (.var .logT)))) (.mul (.rd (.var .T)) (.add (.neg (.num 78727437499999972 20)) (.mul (.rd (.var .T)) (.add (.num 11173298333333329 23) (.mul (.rd (.var .T)) (.add (.neg (.num 13359227166666668 27)) (.mul (.num 85173579500000028 32) (.rd (.var .T)))))))))) (.div (.num 34106036999998778 15) (.rd (.var .T)))),
  .set (.var .Kc) (.mul (.num 1 0) (.exp (.rd (.var .Kc)))),
  .set (.arr .rev 64) (.div (.mul (.mul (.rd (.arr .C 7)) (.rd (.arr .C 13))) (.rd (.var .kf))) (.rd (.var .Kc)))]

/-- utilities/mechanisms/yao/lib/src/rxn_rates.c:788-799 -/
def rate65 : List CStmt := [
  .set (.var .kf) (.exp (.sub (.sub (.num 30172623109393093 15) (.mul (.num 63 2) (.rd (.var .logT)))) (.div (.num 19273309334105929 14) (.rd (.var .T))))),
  .set (.arr .fwd 65) (.mul (.mul (.rd (.arr .C 1)) (.rd (.arr .C 11))) (.rd (.var .kf))),
  .ite (.rd (.var .T)) (.num 1000 0) (.var .Kc) (.sub (.add (.add (.neg (.num 47754709669999986 16)) (.mul (.neg (.num 23714270000000148 18)) (.rd (.var .logT)))) (.mul (.rd (.var .T)) (.add (.neg (.num 78409652753526661 19)) (.mul (.rd (.var .T)) (.add (.num 72416402236659874 22) (.mul (.rd (.var .T)) (.add (.neg (.num 3466927362691735 24)) (.mul (.num 70627691304638665 29) (.rd (.var .T)))))))))) (.div (.neg (.num 52165306299999997 12)) (.rd (.var .T)))) (.sub (.add (.add (.num 15114795359000002 15) (.mul (.neg (.num 37108662350000001 16)) (.rd (.var .logT)))) (.mul (.rd (.var .T)) (.add (.num 30755231765421482 19) (.mul (.rd (.var .T)) (.add (.neg (.num 45761910435936572 23)) (.mul (.rd (.var .T)) (.add (.num 52270059227929359 27) (.mul (.neg (.num 27549895549098682 31)) (.rd (.var .T)))))))))) (.div (.neg (.num 51717588789999994 12)) (.rd (.var .T)))),
  .set (.var .Kc) (.mul (.num 82057360967184814 18) (.exp (.rd (.var .Kc)))),
  .set (.arr .rev 65) (.div (.mul (.rd (.arr .C 12)) (.rd (.var .kf))) (.rd (.var .Kc)))]

/-- utilities/mechanisms/yao/lib/src/rxn_rates.c:800-811 -/
def rate66 : List CStmt := [
  .set (.var .kf) (.num 84300000000 0),
  .set (.arr .fwd 66) (.mul (.mul (.rd (.arr .C 11)) (.rd (.arr .C 2))) (.rd (.var .kf))),
  .ite (.rd (.var .T)) (.num 1000 0) (.var .Kc) (.sub (.add (.add (.neg (.num 39522333930000006 16)) (.mul (.num 45186564999999979 17) (.rd (.var .logT)))) (.mul (.rd (.var .T)) (.add (.neg (.num 43199832996473333 19)) (.mul (.rd (.var .T)) (.add (.num 41581197130006792 22) (.mul (.rd (.var .T)) (.add (.neg (.num 2077440467308265 24)) (.mul (.num 42603740745361341 29) (.rd (.var .T)))))))))) (.div (.neg (.num 34402554800000005 12)) (.rd (.var .T)))) (.sub (.add (.add (.num 53967806600000001 17) (.mul (.neg (.num 59444841000000048 17)) (.rd (.var .logT)))) (.mul (.rd (.var .T)) (.add (.num 10230372703078517 19) (.mul (.rd (.var .T)) (.add (.neg (.num 24623218212396754 23)) (.mul (.rd (.var .T)) (.add (.num 35062104263737296 27) (.mul (.neg (.num 21449230505901326 31)) (.rd (.var .T)))))))))) (.div (.neg (.num 34515335800000001 12)) (.rd (.var .T)))),
  .set (.var .Kc) (.mul (.num 1 0) (.exp (.rd (.var .Kc)))),
  .set (.arr .rev 66) (.div (.mul (.mul (.rd (.arr .C 14)) (.rd (.arr .C 1))) (.rd (.var .kf))) (.rd (.var .Kc)))]

/-- utilities/mechanisms/yao/lib/src/rxn_rates.c:812-823 -/
def rate67 : List CStmt := [
  .set (.var .kf) (.exp (.sub (.add (.num 10933106969717286 15) (.mul (.num 16 1) (.rd (.var .logT)))) (.div (.num 27274500415366615 13) (.rd (.var .T))))),
  .set (.arr .fwd 67) (.mul (.mul (.rd (.arr .C 11)) (.rd (.arr .C 3))) (.rd (.var .kf))),
  .ite (.rd (.var .T)) (.num 1000 0) (.var .Kc) (.sub (.add (.add (.neg (.num 36305494800000115 17)) (.mul (.num 16242322000000087 17) (.rd (.var .logT)))) (.mul (.rd (.var .T)) (.add (.num 73467841500000127 21) (.mul (.rd (.var .T)) (.add (.neg (.num 49042749166666669 23)) (.mul (.rd (.var .T)) (.add (.num 2775690441666665 25) (.mul (.neg (.num 57341788499999989 30)) (.rd (.var .T)))))))))) (.div (.neg (.num 41162235200000023 13)) (.rd (.var .T)))) (.sub (.add (.add (.neg (.num 38013962200000004 16)) (.mul (.num 75764704000000016 17) (.rd (.var .logT)))) (.mul (.rd (.var .T)) (.add (.neg (.num 12315469449999999 19)) (.mul (.rd (.var .T)) (.add (.num 27886795833333331 23) (.mul (.rd (.var .T)) (.add (.neg (.num 38589079116666663 27)) (.mul (.num 2304737033 24) (.rd (.var .T)))))))))) (.div (.neg (.num 42351351399999985 13)) (.rd (.var .T)))),
  .set (.var .Kc) (.mul (.num 1 0) (.exp (.rd (.var .Kc)))),
  .set (.arr .rev 67) (.div (.mul (.mul (.rd (.arr .C 9)) (.rd (.arr .C 6))) (.rd (.var .kf))) (.rd (.var .Kc)))]

/-- utilities/mechanisms/yao/lib/src/rxn_rates.c:824-835 -/
def rate68 : List CStmt := [
  .set (.var .kf) (.num 25010000000 0),
  .set (.arr .fwd 68) (.mul (.mul (.rd (.arr .C 11)) (.rd (.arr .C 3))) (.rd (.var .kf))),
  .ite (.rd (.var .T)) (.num 1000 0) (.var .Kc) (.sub (.add (.add (.neg (.num 31306312050000011 16)) (.mul (.num 59834866000000009 17) (.rd (.var .logT)))) (.mul (.rd (.var .T)) (.add (.neg (.num 1594275325 12)) (.mul (.rd (.var .T)) (.add (.num 41591647333333314 23) (.mul (.rd (.var .T)) (.add (.num 41131687499999754 27) (.mul (.neg (.num 44555279499999984 30)) (.rd (.var .T)))))))))) (.div (.num 37655267999999796 14) (.rd (.var .T)))) (.sub (.add (.add (.neg (.num 76402506000000114 17)) (.mul (.num 17558432999999996 17) (.rd (.var .logT)))) (.mul (.rd (.var .T)) (.add (.neg (.num 73180021999999967 20)) (.mul (.rd (.var .T)) (.add (.num 17837237500000001 23) (.mul (.rd (.var .T)) (.add (.neg (.num 25445208199999997 27)) (.mul (.num 15447930430000002 31) (.rd (.var .T)))))))))) (.div (.num 42726056000000199 14) (.rd (.var .T)))),
  .set (.var .Kc) (.mul (.num 1 0) (.exp (.rd (.var .Kc)))),
  .set (.arr .rev 68) (.div (.mul (.mul (.rd (.arr .C 6)) (.rd (.arr .C 10))) (.rd (.var .kf))) (.rd (.var .Kc)))]

/-- utilities/mechanisms/yao/lib/src/rxn_rates.c:836-847 -/
def rate69 : List CStmt := [
  .set (.var .kf) (.exp (.sub (.num 24151754078844469 15) (.div (.num 14492723467943884 12) (.rd (.var .T))))),
  .set (.arr .fwd 69) (.mul (.mul (.rd (.arr .C 11)) (.rd (.arr .C 8))) (.rd (.var .kf))),
  .ite (.rd (.var .T)) (.num 1000 0) (.var .Kc) (.sub (.add (.add (.num 393807668 8) (.mul (.neg (.num 57597464000000054 17)) (.rd (.var .logT)))) (.mul (.rd (.var .T)) (.add (.neg (.num 25490847450000001 19)) (.mul (.rd (.var .T)) (.add (.num 47867734150000011 22) (.mul (.rd (.var .T)) (.add (.neg (.num 30735671500000005 25)) (.mul (.num 74919579999999998 29) (.rd (.var .T)))))))))) (.div (.num 15036901559999998 12) (.rd (.var .T)))) (.sub (.add (.add (.neg (.num 12874722320000002 15)) (.mul (.num 17589575999999996 16) (.rd (.var .logT)))) (.mul (.rd (.var .T)) (.add (.neg (.num 68376864184999987 20)) (.mul (.rd (.var .T)) (.add (.num 18166780798333333 23) (.mul (.rd (.var .T)) (.add (.neg (.num 31423539574999999 27)) (.mul (.num 21630922955000003 31) (.rd (.var .T)))))))))) (.div (.num 1390856446 5) (.rd (.var .T)))),
  .set (.var .Kc) (.mul (.num 1 0) (.exp (.rd (.var .Kc)))),
  .set (.arr .rev 69) (.div (.mul (.mul (.rd (.arr .C 15)) (.rd (.arr .C 2))) (.rd (.var .kf))) (.rd (.var .Kc)))]

/-- utilities/mechanisms/yao/lib/src/rxn_rates.c:848-859 -/
def rate70 : List CStmt := [
  .set (.var .kf) (.exp (.sub (.num 17399029496420383 15) (.div (.num 44987829098409138 13) (.rd (.var .T))))),
  .set (.arr .fwd 70) (.mul (.mul (.rd (.arr .C 11)) (.rd (.arr .C 8))) (.rd (.var .kf))),
  .ite (.rd (.var .T)) (.num 1000 0) (.var .Kc) (.sub (.add (.add (.neg (.num 68128421199999991 16)) (.mul (.num 14629819999999998 16) (.rd (.var .logT)))) (.mul (.rd (.var .T)) (.add (.neg (.num 60740003349999995 19)) (.mul (.rd (.var .T)) (.add (.num 47120211899999999 22) (.mul (.rd (.var .T)) (.add (.neg (.num 22645494324999997 25)) (.mul (.num 472602664 21) (.rd (.var .T)))))))))) (.div (.neg (.num 26308473820000003 12)) (.rd (.var .T)))) (.sub (.add (.add (.num 63674972699999994 16) (.mul (.neg (.num 94283661999999957 17)) (.rd (.var .logT)))) (.mul (.rd (.var .T)) (.add (.num 76675869499999991 20) (.mul (.rd (.var .T)) (.add (.neg (.num 15609345649999993 23)) (.mul (.rd (.var .T)) (.add (.num 19314899033333327 27) (.mul (.neg (.num 10665151980000003 31)) (.rd (.var .T)))))))))) (.div (.neg (.num 25964101139999999 12)) (.rd (.var .T)))),
  .set (.var .Kc) (.mul (.num 1 0) (.exp (.rd (.var .Kc)))),
  .set (.arr .rev 70) (.div (.mul (.mul (.rd (.arr .C 14)) (.rd (.arr .C 3))) (.rd (.var .kf))) (.rd (.var .Kc)))]

/-- utilities/mechanisms/yao/lib/src/rxn_rates.c:860-871 -/
def rate71 : List CStmt := [
  .set (.var .kf) (.num 1000000000 0),
  .set (.arr .fwd 71) (.mul (.mul (.rd (.arr .C 11)) (.rd (.arr .C 4))) (.rd (.var .kf))),
  .ite (.rd (.var .T)) (.num 1000 0) (.var .Kc) (.sub (.add (.add (.neg (.num 72617988899999997 16)) (.mul (.num 95694408000000042 17) (.rd (.var .logT)))) (.mul (.rd (.var .T)) (.add (.neg (.num 69647721000000006 19)) (.mul (.rd (.var .T)) (.add (.num 53564757083333336 22) (.mul (.rd (.var .T)) (.add (.neg (.num 22506695033333343 25)) (.mul (.num 40385076950000006 29) (.rd (.var .T)))))))))) (.div (.neg (.num 28050398000000001 12)) (.rd (.var .T)))) (.sub (.add (.add (.num 14570914635000003 15) (.mul (.neg (.num 29455392850000006 16)) (.rd (.var .logT)))) (.mul (.rd (.var .T)) (.add (.num 269715687 11) (.mul (.rd (.var .T)) (.add (.neg (.num 47833718816666649 23)) (.mul (.rd (.var .T)) (.add (.num 60205407583333335 27) (.mul (.neg (.num 32990358250000004 31)) (.rd (.var .T)))))))))) (.div (.neg (.num 27444243323000002 12)) (.rd (.var .T)))),
  .set (.var .Kc) (.mul (.num 1 0) (.exp (.rd (.var .Kc)))),
  .set (.arr .rev 71) (.div (.mul (.mul (.rd (.arr .C 12)) (.rd (.arr .C 8))) (.rd (.var .kf))) (.rd (.var .Kc)))]

/-- utilities/mechanisms/yao/lib/src/rxn_rates.c:872-883 -/
def rate72 : List CStmt := [
  .set (.var .kf) (.num 13400000000 0),
  .set (.arr .fwd 72) (.mul (.mul (.rd (.arr .C 11)) (.rd (.arr .C 4))) (.rd (.var .kf))),
  .ite (.rd (.var .T)) (.num 1000 0) (.var .Kc) (.sub (.add (.add (.num 69902668000000023 17) (.mul (.neg (.num 13827778000000013 17)) (.rd (.var .logT)))) (.mul (.rd (.var .T)) (.add (.neg (.num 16459568450000002 19)) (.mul (.rd (.var .T)) (.add (.num 2882372725000001 21) (.mul (.rd (.var .T)) (.add (.neg (.num 18298484733333338 25)) (.mul (.num 44425536050000008 29) (.rd (.var .T)))))))))) (.div (.neg (.num 12062571120000001 12)) (.rd (.var .T)))) (.sub (.add (.add (.neg (.num 98499261100000002 16)) (.mul (.num 1319592619999999 15) (.rd (.var .logT)))) (.mul (.rd (.var .T)) (.add (.neg (.num 4908956399999997 19)) (.mul (.rd (.var .T)) (.add (.num 11077785200000005 23) (.mul (.rd (.var .T)) (.add (.neg (.num 20109886883333336 27)) (.mul (.num 14910312170000001 31) (.rd (.var .T)))))))))) (.div (.neg (.num 12790471332999998 12)) (.rd (.var .T)))),
  .set (.var .Kc) (.mul (.num 1 0) (.exp (.rd (.var .Kc)))),
  .set (.arr .rev 72) (.div (.mul (.mul (.rd (.arr .C 15)) (.rd (.arr .C 3))) (.rd (.var .kf))) (.rd (.var .Kc)))]

/-- utilities/mechanisms/yao/lib/src/rxn_rates.c:884-895 -/
def rate73 : List CStmt := [
  .set (.var .kf) (.exp (.sub (.add (.num 31986731175506815 16) (.mul (.num 247 2) (.rd (.var .logT)))) (.div (.num 26066773459704623 13) (.rd (.var .T))))),
  .set (.arr .fwd 73) (.mul (.mul (.rd (.arr .C 11)) (.rd (.arr .C 7))) (.rd (.var .kf))),
  .ite (.rd (.var .T)) (.num 1000 0) (.var .Kc) (.sub (.add (.add (.neg (.num 74662274299999982 16)) (.mul (.num 15019710499999999 16) (.rd (.var .logT)))) (.mul (.rd (.var .T)) (.add (.neg (.num 99441143215000007 19)) (.mul (.rd (.var .T)) (.add (.num 79790933899999987 22) (.mul (.rd (.var .T)) (.add (.neg (.num 36918697041666675 25)) (.mul (.num 73966229350000002 29) (.rd (.var .T)))))))))) (.div (.neg (.num 86942562600000019 13)) (.rd (.var .T)))) (.sub (.add (.add (.num 13184849914999999 15) (.mul (.neg (.num 23586581749999995 16)) (.rd (.var .logT)))) (.mul (.rd (.var .T)) (.add (.num 17412747600000001 19) (.mul (.rd (.var .T)) (.add (.neg (.num 24633008499999989 23)) (.mul (.rd (.var .T)) (.add (.num 30858424166666656 27) (.mul (.neg (.num 18549906799999997 31)) (.rd (.var .T)))))))))) (.div (.neg (.num 82702844770000011 13)) (.rd (.var .T)))),
  .set (.var .Kc) (.mul (.num 1 0) (.exp (.rd (.var .Kc)))),
  .set (.arr .rev 73) (.div (.mul (.mul (.rd (.arr .C 12)) (.rd (.arr .C 4))) (.rd (.var .kf))) (.rd (.var .Kc)))]

/-- utilities/mechanisms/yao/lib/src/rxn_rates.c:896-907 -/
def rate74 : List CStmt := [
  .set (.var .kf) (.num 8480000000 0),
  .set (.arr .fwd 74) (.mul (.mul (.rd (.arr .C 11)) (.rd (.arr .C 13))) (.rd (.var .kf))),
  .ite (.rd (.var .T)) (.num 1000 0) (.var .Kc) (.sub (.add (.add (.neg (.num 69664645999999983 16)) (.mul (.num 83463335999999977 17) (.rd (.var .logT)))) (.mul (.rd (.var .T)) (.add (.neg (.num 6524179455000001 18)) (.mul (.rd (.var .T)) (.add (.num 51144518450000005 22) (.mul (.rd (.var .T)) (.add (.neg (.num 22818094305000002 25)) (.mul (.num 44417125555000006 29) (.rd (.var .T)))))))))) (.div (.neg (.num 44875297360000004 12)) (.rd (.var .T)))) (.sub (.add (.add (.num 10245444005000003 15) (.mul (.neg (.num 22678549950000004 16)) (.rd (.var .logT)))) (.mul (.rd (.var .T)) (.add (.num 16283092500000004 19) (.mul (.rd (.var .T)) (.add (.neg (.num 2100140418333332 22)) (.mul (.rd (.var .T)) (.add (.num 22344327999999988 27) (.mul (.neg (.num 11056845550000002 31)) (.rd (.var .T)))))))))) (.div (.neg (.num 44407719440000001 12)) (.rd (.var .T)))),
  .set (.var .Kc) (.mul (.num 1 0) (.exp (.rd (.var .Kc)))),
  .set (.arr .rev 74) (.div (.mul (.mul (.rd (.arr .C 12)) (.rd (.arr .C 16))) (.rd (.var .kf))) (.rd (.var .Kc)))]

/-- utilities/mechanisms/yao/lib/src/rxn_rates.c:908-919 -/
def rate75 : List CStmt := [
  .set (.var .kf) (.exp (.sub (.add (.num 1199964782928397 15) (.mul (.num 281 2) (.rd (.var .logT)))) (.div (.num 29488666500746931 13) (.rd (.var .T))))),
  .set (.arr .fwd 75) (.mul (.mul (.rd (.arr .C 14)) (.rd (.arr .C 11))) (.rd (.var .kf))),
  .ite (.rd (.var .T)) (.num 1000 0) (.var .Kc) (.sub (.add (.add (.neg (.num 43580569799999989 16)) (.mul (.num 90374842000000033 17) (.rd (.var .logT)))) (.mul (.rd (.var .T)) (.add (.neg (.num 45087610900000005 19)) (.mul (.rd (.var .T)) (.add (.num 3317964190000001 21) (.mul (.rd (.var .T)) (.add (.neg (.num 14157509625000007 25)) (.mul (.num 26429808550000006 29) (.rd (.var .T)))))))))) (.div (.neg (.num 85431247400000011 13)) (.rd (.var .T)))) (.sub (.add (.add (.num 72986500549999986 16) (.mul (.neg (.num 1199381925 9)) (.rd (.var .logT)))) (.mul (.rd (.var .T)) (.add (.num 95400038499999975 20) (.mul (.rd (.var .T)) (.add (.neg (.num 13459710166666672 23)) (.mul (.rd (.var .T)) (.add (.num 17499196999999993 27) (.mul (.neg (.num 1003254884999999 30)) (.rd (.var .T)))))))))) (.div (.neg (.num 82361784399999997 13)) (.rd (.var .T)))),
  .set (.var .Kc) (.mul (.num 1 0) (.exp (.rd (.var .Kc)))),
  .set (.arr .rev 75) (.div (.mul (.mul (.rd (.arr .C 12)) (.rd (.arr .C 13))) (.rd (.var .kf))) (.rd (.var .Kc)))]

/-- utilities/mechanisms/yao/lib/src/rxn_rates.c:920-931 -/
def rate76 : List CStmt := [
  .set (.var .kf) (.num 40000000000 0),
  .set (.arr .fwd 76) (.mul (.mul (.rd (.arr .C 9)) (.rd (.arr .C 11))) (.rd (.var .kf))),
  .ite (.rd (.var .T)) (.num 1000 0) (.var .Kc) (.sub (.add (.add (.num 1460619517 9) (.mul (.neg (.num 97706759000000032 17)) (.rd (.var .logT)))) (.mul (.rd (.var .T)) (.add (.neg (.num 52751731811473343 19)) (.mul (.rd (.var .T)) (.add (.num 80956520380006795 22) (.mul (.rd (.var .T)) (.add (.neg (.num 4869732459808265 24)) (.mul (.num 11378581384536135 28) (.rd (.var .T)))))))))) (.div (.neg (.num 31885603070000001 12)) (.rd (.var .T)))) (.sub (.add (.add (.neg (.num 41688709639999981 16)) (.mul (.neg (.num 62370768000000032 17)) (.rd (.var .logT)))) (.mul (.rd (.var .T)) (.add (.num 18745608934578519 19) (.mul (.rd (.var .T)) (.add (.neg (.num 3857816139739677 22)) (.mul (.rd (.var .T)) (.add (.num 51363752688737337 27) (.mul (.neg (.num 30108932200901318 31)) (.rd (.var .T)))))))))) (.div (.neg (.num 32625642260000001 12)) (.rd (.var .T)))),
  .set (.var .Kc) (.mul (.num 1 0) (.exp (.rd (.var .Kc)))),
  .set (.arr .rev 76) (.div (.mul (.mul (.rd (.arr .C 1)) (.rd (.arr .C 20))) (.rd (.var .kf))) (.rd (.var .Kc)))]

/-- utilities/mechanisms/yao/lib/src/rxn_rates.c:932-943 -/
def rate77 : List CStmt := [
  .set (.var .kf) (.exp (.sub (.num 23208172486734412 15) (.div (.neg (.num 28683515196972269 14)) (.rd (.var .T))))),
  .set (.arr .fwd 77) (.mul (.mul (.rd (.arr .C 11)) (.rd (.arr .C 10))) (.rd (.var .kf))),
  .ite (.rd (.var .T)) (.num 1000 0) (.var .Kc) (.sub (.add (.add (.num 42281957739999996 16) (.mul (.neg (.num 141299303 8)) (.rd (.var .logT)))) (.mul (.rd (.var .T)) (.add (.neg (.num 36074300146473346 19)) (.mul (.rd (.var .T)) (.add (.num 71893080730006792 22) (.mul (.rd (.var .T)) (.add (.neg (.num 46332951031415987 25)) (.mul (.num 11250716294536134 28) (.rd (.var .T)))))))))) (.div (.neg (.num 36378379270000005 12)) (.rd (.var .T)))) (.sub (.add (.add (.neg (.num 72062421239999983 16)) (.mul (.neg (.num 41644970000000114 18)) (.rd (.var .logT)))) (.mul (.rd (.var .T)) (.add (.num 13748141684578516 19) (.mul (.rd (.var .T)) (.add (.neg (.num 28528603064063435 23)) (.mul (.rd (.var .T)) (.add (.num 38219881772070668 27) (.mul (.neg (.num 22509492300901323 31)) (.rd (.var .T)))))))))) (.div (.neg (.num 37288037960000001 12)) (.rd (.var .T)))),
  .set (.var .Kc) (.mul (.num 1 0) (.exp (.rd (.var .Kc)))),
  .set (.arr .rev 77) (.div (.mul (.mul (.rd (.arr .C 1)) (.rd (.arr .C 20))) (.rd (.var .kf))) (.rd (.var .Kc)))]

/-- utilities/mechanisms/yao/lib/src/rxn_rates.c:944-955 -/
def rate78 : List CStmt := [
  .set (.var .kf) (.exp (.sub (.sub (.num 30685022297606515 15) (.mul (.num 97 2) (.rd (.var .logT)))) (.div (.num 31199613021268084 14) (.rd (.var .T))))),
  .set (.arr .fwd 78) (.mul (.mul (.rd (.arr .C 11)) (.rd (.arr .C 11))) (.rd (.var .kf))),
  .ite (.rd (.var .T)) (.num 1000 0) (.var .Kc) (.sub (.add (.add (.num 25134503800000001 16) (.mul (.neg (.num 20557558800000004 16)) (.rd (.var .logT)))) (.mul (.rd (.var .T)) (.add (.neg (.num 47617231000000003 19)) (.mul (.rd (.var .T)) (.add (.num 80805652800000013 22) (.mul (.rd (.var .T)) (.add (.neg (.num 47586900000000002 25)) (.mul (.num 10890431210000001 28) (.rd (.var .T)))))))))) (.div (.neg (.num 44412203099999999 12)) (.rd (.var .T)))) (.sub (.add (.add (.num 16550210599999993 16) (.mul (.neg (.num 24995539400000002 16)) (.rd (.var .logT)))) (.mul (.rd (.var .T)) (.add (.num 36027334800000001 19) (.mul (.rd (.var .T)) (.add (.neg (.num 67521995666666668 23)) (.mul (.rd (.var .T)) (.add (.num 85229226833333329 27) (.mul (.neg (.num 48286005599999995 31)) (.rd (.var .T)))))))))) (.div (.neg (.num 44977561799999996 12)) (.rd (.var .T)))),
  .set (.var .Kc) (.mul (.num 82057360967184814 18) (.exp (.rd (.var .Kc)))),
  .set (.arr .rev 78) (.div (.mul (.rd (.arr .C 22)) (.rd (.var .kf))) (.rd (.var .Kc)))]

/-- utilities/mechanisms/yao/lib/src/rxn_rates.c:956-967 -/
def rate79 : List CStmt := [
  .set (.var .kf) (.exp (.sub (.add (.num 22330701746709838 15) (.mul (.num 1 1) (.rd (.var .logT)))) (.div (.num 53341273875071238 13) (.rd (.var .T))))),
  .set (.arr .fwd 79) (.mul (.mul (.rd (.arr .C 11)) (.rd (.arr .C 11))) (.rd (.var .kf))),
  .ite (.rd (.var .T)) (.num 1000 0) (.var .Kc) (.sub (.add (.add (.num 15921128470000006 16) (.mul (.neg (.num 54071512000000066 17)) (.rd (.var .logT)))) (.mul (.rd (.var .T)) (.add (.neg (.num 4104246209647334 18)) (.mul (.rd (.var .T)) (.add (.num 63756405963340138 22) (.mul (.rd (.var .T)) (.add (.neg (.num 38475260081415982 25)) (.mul (.num 89815928595361359 29) (.rd (.var .T)))))))))) (.div (.num 54252887999999948 13) (.rd (.var .T)))) (.sub (.add (.add (.neg (.num 38276131840000023 16)) (.mul (.neg (.num 11677901000000013 17)) (.rd (.var .logT)))) (.mul (.rd (.var .T)) (.add (.num 14587357184578514 19) (.mul (.rd (.var .T)) (.add (.neg (.num 33462995064063426 23)) (.mul (.rd (.var .T)) (.add (.num 46733966438737313 27) (.mul (.neg (.num 28105348350901323 31)) (.rd (.var .T)))))))))) (.div (.num 47800113000000056 13) (.rd (.var .T)))),
  .set (.var .Kc) (.mul (.num 1 0) (.exp (.rd (.var .Kc)))),
  .set (.arr .rev 79) (.div (.mul (.mul (.rd (.arr .C 1)) (.rd (.arr .C 21))) (.rd (.var .kf))) (.rd (.var .Kc)))]

/-- utilities/mechanisms/yao/lib/src/rxn_rates.c:968-979 -/
def rate80 : List CStmt := [
  .set (.var .kf) (.num 20000000000 0),
  .set (.arr .fwd 80) (.mul (.mul (.rd (.arr .C 1)) (.rd (.arr .C 15))) (.rd (.var .kf))),
  .ite (.rd (.var .T)) (.num 1000 0) (.var .Kc) (.sub (.add (.add (.neg (.num 57661518990000005 16)) (.mul (.num 92624924999999969 17) (.rd (.var .logT)))) (.mul (.rd (.var .T)) (.add (.num 43841005964733338 20) (.mul (.rd (.var .T)) (.add (.neg (.num 33018745496673476 22)) (.mul (.rd (.var .T)) (.add (.num 24613243498082658 25) (.mul (.neg (.num 64288472045361349 29)) (.rd (.var .T)))))))))) (.div (.neg (.num 41996249372999999 12)) (.rd (.var .T)))) (.sub (.add (.add (.num 15024605994000002 15) (.mul (.neg (.num 21598231099999996 16)) (.rd (.var .logT)))) (.mul (.rd (.var .T)) (.add (.num 85458681499214805 20) (.mul (.rd (.var .T)) (.add (.neg (.num 20434660135936575 23)) (.mul (.rd (.var .T)) (.add (.num 32396268894596017 27) (.mul (.neg (.num 21003158549098684 31)) (.rd (.var .T)))))))))) (.div (.neg (.num 40797763061999998 12)) (.rd (.var .T)))),
  .set (.var .Kc) (.mul (.num 1 0) (.exp (.rd (.var .Kc)))),
  .set (.arr .rev 80) (.div (.mul (.mul (.rd (.arr .C 14)) (.rd (.arr .C 5))) (.rd (.var .kf))) (.rd (.var .Kc)))]

/-- utilities/mechanisms/yao/lib/src/rxn_rates.c:980-991 -/
def rate81 : List CStmt := [
  .set (.var .kf) (.num 32000000000 0),
  .set (.arr .fwd 81) (.mul (.mul (.rd (.arr .C 1)) (.rd (.arr .C 15))) (.rd (.var .kf))),
  .ite (.rd (.var .T)) (.num 1000 0) (.var .Kc) (.sub (.add (.add (.neg (.num 67986854070000007 16)) (.mul (.num 15870909900000001 16) (.rd (.var .logT)))) (.mul (.rd (.var .T)) (.add (.num 79506770964733362 20) (.mul (.rd (.var .T)) (.add (.neg (.num 42328719380006812 22)) (.mul (.rd (.var .T)) (.add (.num 28864581848082654 25) (.mul (.neg (.num 70263054345361339 29)) (.rd (.var .T)))))))))) (.div (.neg (.num 6942820579999996 12)) (.rd (.var .T)))) (.sub (.add (.add (.num 18702541524000001 15) (.mul (.neg (.num 21073458099999995 16)) (.rd (.var .logT)))) (.mul (.rd (.var .T)) (.add (.num 42749006654214808 20) (.mul (.rd (.var .T)) (.add (.neg (.num 91529082359365724 24)) (.mul (.rd (.var .T)) (.add (.num 15676334344596026 27) (.mul (.neg (.num 10846844429098682 31)) (.rd (.var .T)))))))))) (.div (.neg (.num 53573298000000004 13)) (.rd (.var .T)))),
  .set (.var .Kc) (.mul (.num 1 0) (.exp (.rd (.var .Kc)))),
  .set (.arr .rev 81) (.div (.mul (.mul (.rd (.arr .C 11)) (.rd (.arr .C 3))) (.rd (.var .kf))) (.rd (.var .Kc)))]

/-- utilities/mechanisms/yao/lib/src/rxn_rates.c:992-1003 -/
def rate82 : List CStmt := [
  .set (.var .kf) (.num 16000000000 0),
  .set (.arr .fwd 82) (.mul (.mul (.rd (.arr .C 1)) (.rd (.arr .C 15))) (.rd (.var .kf))),
  .ite (.rd (.var .T)) (.num 1000 0) (.var .Kc) (.sub (.add (.add (.neg (.num 99293166120000009 16)) (.mul (.num 21854396500000002 16) (.rd (.var .logT)))) (.mul (.rd (.var .T)) (.add (.neg (.num 7992076153526663 19)) (.mul (.rd (.var .T)) (.add (.neg (.num 38169554646673479 22)) (.mul (.rd (.var .T)) (.add (.num 29275898723082651 25) (.mul (.neg (.num 74718582295361341 29)) (.rd (.var .T)))))))))) (.div (.neg (.num 65662678999999989 13)) (.rd (.var .T)))) (.sub (.add (.add (.num 17938516463999999 15) (.mul (.neg (.num 19317614799999996 16)) (.rd (.var .logT)))) (.mul (.rd (.var .T)) (.add (.neg (.num 30431015345785094 20)) (.mul (.rd (.var .T)) (.add (.num 86843292640634185 24) (.mul (.rd (.var .T)) (.add (.neg (.num 97688738554039677 28)) (.mul (.num 46010860009013214 32) (.rd (.var .T)))))))))) (.div (.neg (.num 4930069239999998 12)) (.rd (.var .T)))),
  .set (.var .Kc) (.mul (.num 1 0) (.exp (.rd (.var .Kc)))),
  .set (.arr .rev 82) (.div (.mul (.mul (.rd (.arr .C 6)) (.rd (.arr .C 10))) (.rd (.var .kf))) (.rd (.var .Kc)))]

/-- utilities/mechanisms/yao/lib/src/rxn_rates.c:1004-1015 -/
def rate83 : List CStmt := [
  .set (.var .kf) (.num 10000000000 0),
  .set (.arr .fwd 83) (.mul (.mul (.rd (.arr .C 15)) (.rd (.arr .C 2))) (.rd (.var .kf))),
  .ite (.rd (.var .T)) (.num 1000 0) (.var .Kc) (.sub (.add (.add (.neg (.num 10750918799999997 15)) (.mul (.num 20389566399999999 16) (.rd (.var .logT)))) (.mul (.rd (.var .T)) (.add (.neg (.num 35249155899999994 19)) (.mul (.rd (.var .T)) (.add (.neg (.num 74752225000000982 24)) (.mul (.rd (.var .T)) (.add (.num 80901771750000029 26) (.mul (.neg (.num 27659313600000008 29)) (.rd (.var .T)))))))))) (.div (.neg (.num 41345375379999998 12)) (.rd (.var .T)))) (.sub (.add (.add (.num 19242219590000001 15) (.mul (.neg (.num 27017942199999996 16)) (.rd (.var .logT)))) (.mul (.rd (.var .T)) (.add (.num 14505273368499998 19) (.mul (.rd (.var .T)) (.add (.neg (.num 33776126448333326 23)) (.mul (.rd (.var .T)) (.add (.num 50738438608333322 27) (.mul (.neg (.num 32296074935000004 31)) (.rd (.var .T)))))))))) (.div (.neg (.num 398726656 4)) (.rd (.var .T)))),
  .set (.var .Kc) (.mul (.num 1 0) (.exp (.rd (.var .Kc)))),
  .set (.arr .rev 83) (.div (.mul (.mul (.rd (.arr .C 14)) (.rd (.arr .C 3))) (.rd (.var .kf))) (.rd (.var .Kc)))]

/-- utilities/mechanisms/yao/lib/src/rxn_rates.c:1016-1027 -/
def rate84 : List CStmt := [
  .set (.var .kf) (.num 5000000000 0),
  .set (.arr .fwd 84) (.mul (.mul (.rd (.arr .C 15)) (.rd (.arr .C 3))) (.rd (.var .kf))),
  .ite (.rd (.var .T)) (.num 1000 0) (.var .Kc) (.sub (.add (.add (.neg (.num 72834480679999993 16)) (.mul (.num 11552530800000005 16) (.rd (.var .logT)))) (.mul (.rd (.var .T)) (.add (.neg (.num 29573426699999994 19)) (.mul (.rd (.var .T)) (.add (.neg (.num 56723516666667436 24)) (.mul (.rd (.var .T)) (.add (.num 8074373841666666 25) (.mul (.neg (.num 28859862100000009 29)) (.rd (.var .T)))))))))) (.div (.neg (.num 49279919119999999 12)) (.rd (.var .T)))) (.sub (.add (.add (.num 17716091319999997 15) (.mul (.neg (.num 28278386699999998 16)) (.rd (.var .logT)))) (.mul (.rd (.var .T)) (.add (.num 14394948199999999 19) (.mul (.rd (.var .T)) (.add (.neg (.num 27175435499999995 23)) (.mul (.rd (.var .T)) (.add (.num 36729813466666661 27) (.mul (.neg (.num 21939898120000006 31)) (.rd (.var .T)))))))))) (.div (.neg (.num 4809709908 5)) (.rd (.var .T)))),
  .set (.var .Kc) (.mul (.num 1 0) (.exp (.rd (.var .Kc)))),
  .set (.arr .rev 84) (.div (.mul (.mul (.rd (.arr .C 14)) (.rd (.arr .C 6))) (.rd (.var .kf))) (.rd (.var .Kc)))]

/-- utilities/mechanisms/yao/lib/src/rxn_rates.c:1028-1039 -/
def rate85 : List CStmt := [
  .set (.var .kf) (.exp (.sub (.add (.neg (.num 35387408478311023 15)) (.mul (.num 76 1) (.rd (.var .logT)))) (.div (.neg (.num 17763650639528441 13)) (.rd (.var .T))))),
  .set (.arr .fwd 85) (.mul (.mul (.rd (.arr .C 15)) (.rd (.arr .C 8))) (.rd (.var .kf))),
  .ite (.rd (.var .T)) (.num 1000 0) (.var .Kc) (.sub (.add (.add (.neg (.num 75118687999999993 16)) (.mul (.num 16012597799999999 16) (.rd (.var .logT)))) (.mul (.rd (.var .T)) (.add (.neg (.num 44280434899999993 19)) (.mul (.rd (.var .T)) (.add (.num 18296484649999991 22) (.mul (.rd (.var .T)) (.add (.neg (.num 43470095916666702 26)) (.mul (.num 28347303500000022 30) (.rd (.var .T)))))))))) (.div (.neg (.num 14245902700000001 12)) (.rd (.var .T)))) (.sub (.add (.add (.num 1621742338 8) (.mul (.neg (.num 22624292399999995 16)) (.rd (.var .logT)))) (.mul (.rd (.var .T)) (.add (.num 12576543350000004 19) (.mul (.rd (.var .T)) (.add (.neg (.num 26687130849999999 23)) (.mul (.rd (.var .T)) (.add (.num 3942478591666666 26) (.mul (.neg (.num 25575464150000006 31)) (.rd (.var .T)))))))))) (.div (.neg (.num 13173629807000001 12)) (.rd (.var .T)))),
  .set (.var .Kc) (.mul (.num 1 0) (.exp (.rd (.var .Kc)))),
  .set (.arr .rev 85) (.div (.mul (.mul (.rd (.arr .C 14)) (.rd (.arr .C 4))) (.rd (.var .kf))) (.rd (.var .Kc)))]

/-- utilities/mechanisms/yao/lib/src/rxn_rates.c:1040-1051 -/
def rate86 : List CStmt := [
  .set (.var .kf) (.exp (.sub (.add (.num 13399995114002609 15) (.mul (.num 162 2) (.rd (.var .logT)))) (.div (.num 5454900083073323 12) (.rd (.var .T))))),
  .set (.arr .fwd 86) (.mul (.mul (.rd (.arr .C 1)) (.rd (.arr .C 12))) (.rd (.var .kf))),
  .ite (.rd (.var .T)) (.num 1000 0) (.var .Kc) (.sub (.add (.add (.num 90075157909999994 16) (.mul (.neg (.num 16319546100000002 16)) (.rd (.var .logT)))) (.mul (.rd (.var .T)) (.add (.num 11831225649647333 18) (.mul (.rd (.var .T)) (.add (.neg (.num 10487998723000681 21)) (.mul (.rd (.var .T)) (.add (.num 51466948123082656 25) (.mul (.neg (.num 10750827934536134 28)) (.rd (.var .T)))))))))) (.div (.num 30005132700000286 14) (.rd (.var .T)))) (.sub (.add (.add (.neg (.num 15763732020999999 15)) (.mul (.num 3048145415 9) (.rd (.var .logT)))) (.mul (.rd (.var .T)) (.add (.neg (.num 3100224390007851 18)) (.mul (.rd (.var .T)) (.add (.num 54086189530730073 23) (.mul (.rd (.var .T)) (.add (.neg (.num 67233924605403965 27)) (.mul (.num 37562663850901325 31) (.rd (.var .T)))))))))) (.div (.neg (.num 17988993200000004 14)) (.rd (.var .T)))),
  .set (.var .Kc) (.mul (.num 1 0) (.exp (.rd (.var .Kc)))),
  .set (.arr .rev 86) (.div (.mul (.mul (.rd (.arr .C 5)) (.rd (.arr .C 11))) (.rd (.var .kf))) (.rd (.var .Kc)))]

/-- utilities/mechanisms/yao/lib/src/rxn_rates.c:1052-1063 -/
def rate87 : List CStmt := [
  .set (.var .kf) (.exp (.sub (.add (.num 13835313185260453 15) (.mul (.num 15 1) (.rd (.var .logT)))) (.div (.num 43276882577887991 13) (.rd (.var .T))))),
  .set (.arr .fwd 87) (.mul (.mul (.rd (.arr .C 12)) (.rd (.arr .C 2))) (.rd (.var .kf))),
  .ite (.rd (.var .T)) (.num 1000 0) (.var .Kc) (.sub (.add (.add (.num 4022748889999999 15) (.mul (.neg (.num 51924722000000001 17)) (.rd (.var .logT)))) (.mul (.rd (.var .T)) (.add (.num 78679000000000006 19) (.mul (.rd (.var .T)) (.add (.neg (.num 72608763983333341 22)) (.mul (.rd (.var .T)) (.add (.num 34943881800000005 25) (.mul (.neg (.num 70879120900000006 29)) (.rd (.var .T)))))))))) (.div (.num 9509253200000021 13) (.rd (.var .T)))) (.sub (.add (.add (.neg (.num 11546118425 9)) (.mul (.num 25061743049999996 16) (.rd (.var .logT)))) (.mul (.rd (.var .T)) (.add (.neg (.num 25042838681500002 19)) (.mul (.rd (.var .T)) (.add (.num 40744723218333332 23) (.mul (.rd (.var .T)) (.add (.neg (.num 48891754891666666 27)) (.mul (.num 26269747465000002 31) (.rd (.var .T)))))))))) (.div (.num 74520752999999968 14) (.rd (.var .T)))),
  .set (.var .Kc) (.mul (.num 1 0) (.exp (.rd (.var .Kc)))),
  .set (.arr .rev 87) (.div (.mul (.mul (.rd (.arr .C 11)) (.rd (.arr .C 3))) (.rd (.var .kf))) (.rd (.var .Kc)))]

/-- utilities/mechanisms/yao/lib/src/rxn_rates.c:1064-1075 -/
def rate88 : List CStmt := [
  .set (.var .kf) (.exp (.sub (.add (.num 11512925464970229 15) (.mul (.num 16 1) (.rd (.var .logT)))) (.div (.num 15700450423605873 13) (.rd (.var .T))))),
  .set (.arr .fwd 88) (.mul (.mul (.rd (.arr .C 12)) (.rd (.arr .C 3))) (.rd (.var .kf))),
  .ite (.rd (.var .T)) (.num 1000 0) (.var .Kc) (.sub (.add (.add (.num 74902196219999988 16) (.mul (.neg (.num 14029507799999994 16)) (.rd (.var .logT)))) (.mul (.rd (.var .T)) (.add (.num 84354729200000009 19) (.mul (.rd (.var .T)) (.add (.neg (.num 72428476900000003 22)) (.mul (.rd (.var .T)) (.add (.num 34928078466666671 25) (.mul (.neg (.num 72079669399999992 29)) (.rd (.var .T)))))))))) (.div (.neg (.num 6983618419999998 12)) (.rd (.var .T)))) (.sub (.add (.add (.neg (.num 13072246695 9)) (.mul (.num 23801298550000003 16) (.rd (.var .logT)))) (.mul (.rd (.var .T)) (.add (.neg (.num 25153163849999998 19)) (.mul (.rd (.var .T)) (.add (.num 47345414166666663 23) (.mul (.rd (.var .T)) (.add (.neg (.num 62900380033333334 27)) (.mul (.num 36625924279999999 31) (.rd (.var .T)))))))))) (.div (.neg (.num 747922595 5)) (.rd (.var .T)))),
  .set (.var .Kc) (.mul (.num 1 0) (.exp (.rd (.var .Kc)))),
  .set (.arr .rev 88) (.div (.mul (.mul (.rd (.arr .C 6)) (.rd (.arr .C 11))) (.rd (.var .kf))) (.rd (.var .Kc)))]

/-- utilities/mechanisms/yao/lib/src/rxn_rates.c:1076-1087 -/
def rate89 : List CStmt := [
  .set (.var .kf) (.exp (.sub (.add (.num 78079166289264084 16) (.mul (.num 2 0) (.rd (.var .logT)))) (.div (.num 41616258013852748 13) (.rd (.var .T))))),
  .set (.arr .fwd 89) (.mul (.mul (.rd (.arr .C 9)) (.rd (.arr .C 12))) (.rd (.var .kf))),
  .ite (.rd (.var .T)) (.num 1000 0) (.var .Kc) (.sub (.add (.add (.num 78532745699999982 16) (.mul (.neg (.num 15653739999999998 16)) (.rd (.var .logT)))) (.mul (.rd (.var .T)) (.add (.num 83620050785000004 19) (.mul (.rd (.var .T)) (.add (.neg (.num 67524201983333334 22)) (.mul (.rd (.var .T)) (.add (.num 32152388025000006 25) (.mul (.neg (.num 66345490549999999 29)) (.rd (.var .T)))))))))) (.div (.neg (.num 28673948999999957 13)) (.rd (.var .T)))) (.sub (.add (.add (.neg (.num 92708504749999996 16)) (.mul (.num 16224828150000001 16) (.rd (.var .logT)))) (.mul (.rd (.var .T)) (.add (.neg (.num 12837694399999997 19)) (.mul (.rd (.var .T)) (.add (.num 19458618333333327 23) (.mul (.rd (.var .T)) (.add (.neg (.num 24311300916666658 27)) (.mul (.num 13578553950000004 31) (.rd (.var .T)))))))))) (.div (.neg (.num 32440908100000015 13)) (.rd (.var .T)))),
  .set (.var .Kc) (.mul (.num 1 0) (.exp (.rd (.var .Kc)))),
  .set (.arr .rev 89) (.div (.mul (.mul (.rd (.arr .C 11)) (.rd (.arr .C 11))) (.rd (.var .kf))) (.rd (.var .Kc)))]

/-- utilities/mechanisms/yao/lib/src/rxn_rates.c:1088-1099 -/
def rate90 : List CStmt := [
  .set (.var .kf) (.exp (.sub (.num 23495854559186192 15) (.div (.neg (.num 28683515196972269 14)) (.rd (.var .T))))),
  .set (.arr .fwd 90) (.mul (.mul (.rd (.arr .C 12)) (.rd (.arr .C 10))) (.rd (.var .kf))),
  .ite (.rd (.var .T)) (.num 1000 0) (.var .Kc) (.sub (.add (.add (.num 10620850826999998 15) (.mul (.neg (.num 20012994399999995 16)) (.rd (.var .logT)))) (.mul (.rd (.var .T)) (.add (.num 10029748245000001 18) (.mul (.rd (.var .T)) (.add (.neg (.num 76587641633333345 22)) (.mul (.rd (.var .T)) (.add (.num 34516761591666669 25) (.mul (.neg (.num 6762414145 22)) (.rd (.var .T)))))))))) (.div (.neg (.num 73601710999999996 13)) (.rd (.var .T)))) (.sub (.add (.add (.neg (.num 12308221634999999 15)) (.mul (.num 22045455250000003 16) (.rd (.var .logT)))) (.mul (.rd (.var .T)) (.add (.neg (.num 1783516165 12)) (.mul (.rd (.var .T)) (.add (.num 29508176666666662 23) (.mul (.rd (.var .T)) (.add (.neg (.num 37455171833333334 27)) (.mul (.num 21177993849999999 31) (.rd (.var .T)))))))))) (.div (.neg (.num 79064865100000025 13)) (.rd (.var .T)))),
  .set (.var .Kc) (.mul (.num 1 0) (.exp (.rd (.var .Kc)))),
  .set (.arr .rev 90) (.div (.mul (.mul (.rd (.arr .C 11)) (.rd (.arr .C 11))) (.rd (.var .kf))) (.rd (.var .Kc)))]

/-- utilities/mechanisms/yao/lib/src/rxn_rates.c:1100-1111 -/
def rate91 : List CStmt := [
  .set (.var .kf) (.exp (.sub (.add (.num 17468762834435058 15) (.mul (.num 162 2) (.rd (.var .logT)))) (.div (.num 18643379082815227 12) (.rd (.var .T))))),
  .set (.arr .fwd 91) (.mul (.rd (.arr .C 19)) (.rd (.var .kf))),
  .ite (.rd (.var .T)) (.num 1000 0) (.var .Kc) (.sub (.add (.add (.num 48862673529999983 16) (.mul (.neg (.num 90378535599999998 17)) (.rd (.var .logT)))) (.mul (.rd (.var .T)) (.add (.num 10923385640352666 18) (.mul (.rd (.var .T)) (.add (.neg (.num 1023968711699932 20)) (.mul (.rd (.var .T)) (.add (.num 53150857001917346 25) (.mul (.neg (.num 11607908520463867 28)) (.rd (.var .T)))))))))) (.div (.num 17042793799999999 12) (.rd (.var .T)))) (.sub (.add (.add (.neg (.num 13095133554 9)) (.mul (.num 26308456500000004 16) (.rd (.var .logT)))) (.mul (.rd (.var .T)) (.add (.neg (.num 21842812915421491 19)) (.mul (.rd (.var .T)) (.add (.num 3846458310260324 22) (.mul (.rd (.var .T)) (.add (.neg (.num 45851726144596027 27)) (.mul (.num 25068591649098675 31) (.rd (.var .T)))))))))) (.div (.num 16796785199999998 12) (.rd (.var .T)))),
  .set (.var .Kc) (.mul (.num 12186597134166982 15) (.exp (.rd (.var .Kc)))),
  .set (.arr .rev 91) (.div (.mul (.mul (.rd (.arr .C 1)) (.rd (.arr .C 18))) (.rd (.var .kf))) (.rd (.var .Kc)))]

/-- utilities/mechanisms/yao/lib/src/rxn_rates.c:1112-1123 -/
def rate92 : List CStmt := [
  .set (.var .kf) (.exp (.sub (.add (.num 83138522673982074 16) (.mul (.num 2 0) (.rd (.var .logT)))) (.div (.num 95611717323240896 14) (.rd (.var .T))))),
  .set (.arr .fwd 92) (.mul (.mul (.rd (.arr .C 18)) (.rd (.arr .C 2))) (.rd (.var .kf))),
  .ite (.rd (.var .T)) (.num 1000 0) (.var .Kc) (.sub (.add (.add (.neg (.num 14285961375999998 15)) (.mul (.num 33652639460000002 16) (.rd (.var .logT)))) (.mul (.rd (.var .T)) (.add (.neg (.num 98618627984999995 19)) (.mul (.rd (.var .T)) (.add (.num 544763838 14) (.mul (.rd (.var .T)) (.add (.neg (.num 20692569254999999 25)) (.mul (.num 35855313604999996 29) (.rd (.var .T)))))))))) (.div (.neg (.num 23891285800000001 12)) (.rd (.var .T)))) (.sub (.add (.add (.num 1156352721 8) (.mul (.neg (.num 11277036800000007 16)) (.rd (.var .logT)))) (.mul (.rd (.var .T)) (.add (.neg (.num 78386088149999999 21)) (.mul (.rd (.var .T)) (.add (.neg (.num 12795279983333339 24)) (.mul (.rd (.var .T)) (.add (.num 27365138249999962 28) (.mul (.neg (.num 2121171955000002 31)) (.rd (.var .T)))))))))) (.div (.neg (.num 23041846699999998 12)) (.rd (.var .T)))),
  .set (.var .Kc) (.mul (.num 1 0) (.exp (.rd (.var .Kc)))),
  .set (.arr .rev 92) (.div (.mul (.mul (.rd (.arr .C 9)) (.rd (.arr .C 16))) (.rd (.var .kf))) (.rd (.var .Kc)))]

/-- utilities/mechanisms/yao/lib/src/rxn_rates.c:1124-1135 -/
def rate93 : List CStmt := [
  .set (.var .kf) (.exp (.sub (.add (.neg (.num 14543249183293838 15)) (.mul (.num 4 0) (.rd (.var .logT)))) (.div (.neg (.num 10064391297183253 13)) (.rd (.var .T))))),
  .set (.arr .fwd 93) (.mul (.mul (.rd (.arr .C 18)) (.rd (.arr .C 3))) (.rd (.var .kf))),
  .ite (.rd (.var .T)) (.num 1000 0) (.var .Kc) (.sub (.add (.add (.neg (.num 10455435695999999 15)) (.mul (.num 2319137166 9) (.rd (.var .logT)))) (.mul (.rd (.var .T)) (.add (.neg (.num 93677577199999997 19)) (.mul (.rd (.var .T)) (.add (.num 59560945799999999 22) (.mul (.rd (.var .T)) (.add (.neg (.num 23484063030000003 25)) (.mul (.num 40388943954999997 29) (.rd (.var .T)))))))))) (.div (.neg (.num 27709606019999999 12)) (.rd (.var .T)))) (.sub (.add (.add (.num 13838795160000002 15) (.mul (.neg (.num 20113951700000006 16)) (.rd (.var .logT)))) (.mul (.rd (.var .T)) (.add (.num 11421283400000002 19) (.mul (.rd (.var .T)) (.add (.neg (.num 22565632883333335 23)) (.mul (.rd (.var .T)) (.add (.num 27316967799999994 27) (.mul (.neg (.num 14812365470000001 31)) (.rd (.var .T)))))))))) (.div (.neg (.num 27031145039999999 12)) (.rd (.var .T)))),
  .set (.var .Kc) (.mul (.num 1 0) (.exp (.rd (.var .Kc)))),
  .set (.arr .rev 93) (.div (.mul (.mul (.rd (.arr .C 11)) (.rd (.arr .C 16))) (.rd (.var .kf))) (.rd (.var .Kc)))]

/-- utilities/mechanisms/yao/lib/src/rxn_rates.c:1136-1147 -/
def rate94 : List CStmt := [
  .set (.var .kf) (.exp (.sub (.add (.num 92103403719761836 16) (.mul (.num 2 0) (.rd (.var .logT)))) (.div (.num 30193173891549759 13) (.rd (.var .T))))),
  .set (.arr .fwd 94) (.mul (.mul (.rd (.arr .C 18)) (.rd (.arr .C 13))) (.rd (.var .kf))),
  .ite (.rd (.var .T)) (.num 1000 0) (.var .Kc) (.sub (.add (.add (.neg (.num 70772609859999989 16)) (.mul (.num 17621329860000001 16) (.rd (.var .logT)))) (.mul (.rd (.var .T)) (.add (.neg (.num 96065998200000006 19)) (.mul (.rd (.var .T)) (.add (.num 8112498738333333 21) (.mul (.rd (.var .T)) (.add (.neg (.num 41299677679999994 25)) (.mul (.num 89868519455000001 29) (.rd (.var .T)))))))))) (.div (.neg (.num 97527848599999998 13)) (.rd (.var .T)))) (.sub (.add (.add (.num 82257822000000012 16) (.mul (.neg (.num 11878344100000007 16)) (.rd (.var .logT)))) (.mul (.rd (.var .T)) (.add (.num 73706736500000081 20) (.mul (.rd (.var .T)) (.add (.neg (.num 1370407685 16)) (.mul (.rd (.var .T)) (.add (.num 15925994916666657 27) (.mul (.neg (.num 85755416499999955 32)) (.rd (.var .T)))))))))) (.div (.neg (.num 94869158499999994 13)) (.rd (.var .T)))),
  .set (.var .Kc) (.mul (.num 1 0) (.exp (.rd (.var .Kc)))),
  .set (.arr .rev 94) (.div (.mul (.mul (.rd (.arr .C 19)) (.rd (.arr .C 16))) (.rd (.var .kf))) (.rd (.var .Kc)))]

/-- utilities/mechanisms/yao/lib/src/rxn_rates.c:1148-1159 -/
def rate95 : List CStmt := [
  .set (.var .kf) (.exp (.sub (.sub (.num 11611507144422505 14) (.mul (.num 1282 2) (.rd (.var .logT)))) (.div (.num 17980035052417879 12) (.rd (.var .T))))),
  .set (.arr .fwd 95) (.mul (.mul (.rd (.arr .C 11)) (.rd (.arr .C 18))) (.rd (.var .kf))),
  .ite (.rd (.var .T)) (.num 1000 0) (.var .Kc) (.sub (.add (.add (.num 47480325640000043 16) (.mul (.neg (.num 2119087994 9)) (.rd (.var .logT)))) (.mul (.rd (.var .T)) (.add (.neg (.num 27793468250000009 19)) (.mul (.rd (.var .T)) (.add (.num 70473371566666666 22) (.mul (.rd (.var .T)) (.add (.neg (.num 45416353708333335 25)) (.mul (.num 109017217 20) (.rd (.var .T)))))))))) (.div (.neg (.num 236283505 4)) (.rd (.var .T)))) (.sub (.add (.add (.neg (.num 18560340919999998 15)) (.mul (.num 10675003399999996 16) (.rd (.var .logT)))) (.mul (.rd (.var .T)) (.add (.num 56158199500000016 20) (.mul (.rd (.var .T)) (.add (.neg (.num 53011866666666561 24)) (.mul (.rd (.var .T)) (.add (.num 37486070833333322 28) (.mul (.neg (.num 37624631499999923 32)) (.rd (.var .T)))))))))) (.div (.neg (.num 25229134499999996 12)) (.rd (.var .T)))),
  .set (.var .Kc) (.mul (.num 82057360967184814 18) (.exp (.rd (.var .Kc)))),
  .set (.arr .rev 95) (.div (.mul (.rd (.arr .C 24)) (.rd (.var .kf))) (.rd (.var .Kc)))]

/-- utilities/mechanisms/yao/lib/src/rxn_rates.c:1160-1171 -/
def rate96 : List CStmt := [
  .set (.var .kf) (.exp (.sub (.add (.num 22528270532924488 15) (.mul (.num 27 2) (.rd (.var .logT)))) (.div (.num 14090147816056555 14) (.rd (.var .T))))),
  .set (.arr .fwd 96) (.mul (.mul (.rd (.arr .C 1)) (.rd (.arr .C 19))) (.rd (.var .kf))),
  .ite (.rd (.var .T)) (.num 1000 0) (.var .Kc) (.sub (.add (.add (.neg (.num 22132614670000001 16)) (.mul (.neg (.num 75326497000000003 17)) (.rd (.var .logT)))) (.mul (.rd (.var .T)) (.add (.neg (.num 45426570453526664 19)) (.mul (.rd (.var .T)) (.add (.num 51963480003326537 22) (.mul (.rd (.var .T)) (.add (.neg (.num 27827575501917343 25)) (.mul (.num 61366750004638666 29) (.rd (.var .T)))))))))) (.div (.neg (.num 55243730769999995 12)) (.rd (.var .T)))) (.sub (.add (.add (.num 64453412840000022 16) (.mul (.neg (.num 248061285 8)) (.rd (.var .logT)))) (.mul (.rd (.var .T)) (.add (.num 21575929615421478 19) (.mul (.rd (.var .T)) (.add (.neg (.num 3383259460260326 22)) (.mul (.rd (.var .T)) (.add (.num 37883029561262699 27) (.mul (.neg (.num 19722678699098683 31)) (.rd (.var .T)))))))))) (.div (.neg (.num 55146647660000002 12)) (.rd (.var .T)))),
  .set (.var .Kc) (.mul (.num 82057360967184814 18) (.exp (.rd (.var .Kc)))),
  .set (.arr .rev 96) (.div (.mul (.rd (.arr .C 20)) (.rd (.var .kf))) (.rd (.var .Kc)))]

/-- utilities/mechanisms/yao/lib/src/rxn_rates.c:1172-1183 -/
def rate97 : List CStmt := [
  .set (.var .kf) (.num 90000000000 0),
  .set (.arr .fwd 97) (.mul (.mul (.rd (.arr .C 1)) (.rd (.arr .C 19))) (.rd (.var .kf))),
  .ite (.rd (.var .T)) (.num 1000 0) (.var .Kc) (.sub (.add (.add (.num 9118312177 9) (.mul (.neg (.num 25594542359999997 16)) (.rd (.var .logT)))) (.mul (.rd (.var .T)) (.add (.num 14913646014647333 18) (.mul (.rd (.var .T)) (.add (.neg (.num 13486045616334013 21)) (.mul (.rd (.var .T)) (.add (.num 69948531498082656 25) (.mul (.neg (.num 15295967324536134 28)) (.rd (.var .T)))))))))) (.div (.neg (.num 34822461173000003 12)) (.rd (.var .T)))) (.sub (.add (.add (.neg (.num 13744070216000001 15)) (.mul (.num 19681248299999998 16) (.rd (.var .logT)))) (.mul (.rd (.var .T)) (.add (.neg (.num 22089825050078515 19)) (.mul (.rd (.var .T)) (.add (.num 46788862197396742 23) (.mul (.rd (.var .T)) (.add (.neg (.num 60815591522070634 27)) (.mul (.num 35081359950901319 31) (.rd (.var .T)))))))))) (.div (.neg (.num 35100693522000001 12)) (.rd (.var .T)))),
  .set (.var .Kc) (.mul (.num 1 0) (.exp (.rd (.var .Kc)))),
  .set (.arr .rev 97) (.div (.mul (.mul (.rd (.arr .C 5)) (.rd (.arr .C 18))) (.rd (.var .kf))) (.rd (.var .Kc)))]

/-- utilities/mechanisms/yao/lib/src/rxn_rates.c:1184-1195 -/
def rate98 : List CStmt := [
  .set (.var .kf) (.num 48000000000 0),
  .set (.arr .fwd 98) (.mul (.mul (.rd (.arr .C 19)) (.rd (.arr .C 2))) (.rd (.var .kf))),
  .ite (.rd (.var .T)) (.num 1000 0) (.var .Kc) (.sub (.add (.add (.neg (.num 6321890419999999 15)) (.mul (.num 87239031999999961 17) (.rd (.var .logT)))) (.mul (.rd (.var .T)) (.add (.num 15825626450000001 19) (.mul (.rd (.var .T)) (.add (.neg (.num 43028287116666659 22)) (.mul (.rd (.var .T)) (.add (.num 29941402144999999 25) (.mul (.neg (.num 75941570844999999 29)) (.rd (.var .T)))))))))) (.div (.neg (.num 61881193199999994 12)) (.rd (.var .T)))) (.sub (.add (.add (.num 43123385400000007 16) (.mul (.neg (.num 58524145000000027 17)) (.rd (.var .logT)))) (.mul (.rd (.var .T)) (.add (.neg (.num 4709136431500001 19)) (.mul (.rd (.var .T)) (.add (.num 10881763001666656 23) (.mul (.rd (.var .T)) (.add (.neg (.num 15156454008333338 27)) (.mul (.num 89760780949999945 32) (.rd (.var .T)))))))))) (.div (.neg (.num 61206741099999999 12)) (.rd (.var .T)))),
  .set (.var .Kc) (.mul (.num 1 0) (.exp (.rd (.var .Kc)))),
  .set (.arr .rev 98) (.div (.mul (.mul (.rd (.arr .C 11)) (.rd (.arr .C 16))) (.rd (.var .kf))) (.rd (.var .Kc)))]

/-- utilities/mechanisms/yao/lib/src/rxn_rates.c:1196-1207 -/
def rate99 : List CStmt := [
  .set (.var .kf) (.num 30110000000 0),
  .set (.arr .fwd 99) (.mul (.mul (.rd (.arr .C 19)) (.rd (.arr .C 3))) (.rd (.var .kf))),
  .ite (.rd (.var .T)) (.num 1000 0) (.var .Kc) (.sub (.add (.add (.num 76010160079999984 16) (.mul (.neg (.num 23304504059999998 16)) (.rd (.var .logT)))) (.mul (.rd (.var .T)) (.add (.num 11517893284999999 18) (.mul (.rd (.var .T)) (.add (.neg (.num 10240894583333331 21)) (.mul (.rd (.var .T)) (.add (.num 53409661841666667 25) (.mul (.neg (.num 11753106330000001 28)) (.rd (.var .T)))))))))) (.div (.neg (.num 42106130919999996 12)) (.rd (.var .T)))) (.sub (.add (.add (.neg (.num 1105258489 8)) (.mul (.num 13001092700000005 16) (.rd (.var .logT)))) (.mul (.rd (.var .T)) (.add (.neg (.num 16240745000000005 19)) (.mul (.rd (.var .T)) (.add (.num 40048086833333327 23) (.mul (.rd (.var .T)) (.add (.neg (.num 56482046949999996 27)) (.mul (.num 34144620379999997 31) (.rd (.var .T)))))))))) (.div (.neg (.num 42400029539999996 12)) (.rd (.var .T)))),
  .set (.var .Kc) (.mul (.num 1 0) (.exp (.rd (.var .Kc)))),
  .set (.arr .rev 99) (.div (.mul (.mul (.rd (.arr .C 6)) (.rd (.arr .C 18))) (.rd (.var .kf))) (.rd (.var .Kc)))]

/-- utilities/mechanisms/yao/lib/src/rxn_rates.c:1208-1219 -/
def rate100 : List CStmt := [
  .set (.var .kf) (.exp (.sub (.add (.num 7200424892944957 15) (.mul (.num 161 2) (.rd (.var .logT)))) (.div (.neg (.num 19293438116700293 14)) (.rd (.var .T))))),
  .set (.arr .fwd 100) (.mul (.mul (.rd (.arr .C 19)) (.rd (.arr .C 8))) (.rd (.var .kf))),
  .ite (.rd (.var .T)) (.num 1000 0) (.var .Kc) (.sub (.add (.add (.num 73725952759999993 16) (.mul (.neg (.num 18844437060000003 16)) (.rd (.var .logT)))) (.mul (.rd (.var .T)) (.add (.num 10047192465 12) (.mul (.rd (.var .T)) (.add (.neg (.num 8354522601666667 21)) (.mul (.rd (.var .T)) (.add (.num 40988278408333331 25) (.mul (.neg (.num 85836470849999991 29)) (.rd (.var .T)))))))))) (.div (.neg (.num 70721144999999997 13)) (.rd (.var .T)))) (.sub (.add (.add (.neg (.num 12551252830000001 15)) (.mul (.num 18655187000000009 16) (.rd (.var .logT)))) (.mul (.rd (.var .T)) (.add (.neg (.num 1805914985 12)) (.mul (.rd (.var .T)) (.add (.num 40536391483333328 23) (.mul (.rd (.var .T)) (.add (.neg (.num 53787074499999991 27)) (.mul (.num 30509054349999997 31) (.rd (.var .T)))))))))) (.div (.neg (.num 74765602669999989 13)) (.rd (.var .T)))),
  .set (.var .Kc) (.mul (.num 1 0) (.exp (.rd (.var .Kc)))),
  .set (.arr .rev 100) (.div (.mul (.mul (.rd (.arr .C 4)) (.rd (.arr .C 18))) (.rd (.var .kf))) (.rd (.var .Kc)))]

/-- utilities/mechanisms/yao/lib/src/rxn_rates.c:1220-1231 -/
def rate101 : List CStmt := [
  .set (.var .kf) (.exp (.sub (.add (.num 19519293032620475 15) (.mul (.num 29 2) (.rd (.var .logT)))) (.div (.num 5535415213450789 15) (.rd (.var .T))))),
  .set (.arr .fwd 101) (.mul (.mul (.rd (.arr .C 19)) (.rd (.arr .C 8))) (.rd (.var .kf))),
  .ite (.rd (.var .T)) (.num 1000 0) (.var .Kc) (.sub (.add (.add (.neg (.num 12723570999999989 17)) (.mul (.neg (.num 41759331000000044 17)) (.rd (.var .logT)))) (.mul (.rd (.var .T)) (.add (.num 44705988500000002 19) (.mul (.rd (.var .T)) (.add (.neg (.num 45389477916666659 22)) (.mul (.rd (.var .T)) (.add (.num 26800358708333334 25) (.mul (.neg (.num 64893854299999995 29)) (.rd (.var .T)))))))))) (.div (.neg (.num 46116440399999992 13)) (.rd (.var .T)))) (.sub (.add (.add (.neg (.num 15734133170000002 15)) (.mul (.num 22458288399999997 16) (.rd (.var .logT)))) (.mul (.rd (.var .T)) (.add (.neg (.num 18843497268500003 19)) (.mul (.rd (.var .T)) (.add (.num 45618568631666658 23) (.mul (.rd (.var .T)) (.add (.neg (.num 69174233741666667 27)) (.mul (.num 43700324704999998 31) (.rd (.var .T)))))))))) (.div (.neg (.num 52763370799999993 13)) (.rd (.var .T)))),
  .set (.var .Kc) (.mul (.num 1 0) (.exp (.rd (.var .Kc)))),
  .set (.arr .rev 101) (.div (.mul (.mul (.rd (.arr .C 23)) (.rd (.arr .C 2))) (.rd (.var .kf))) (.rd (.var .Kc)))]

/-- utilities/mechanisms/yao/lib/src/rxn_rates.c:1232-1243 -/
def rate102 : List CStmt := [
  .set (.var .kf) (.exp (.sub (.sub (.num 31459662512417644 15) (.mul (.num 139 2) (.rd (.var .logT)))) (.div (.num 50825176050775428 14) (.rd (.var .T))))),
  .set (.arr .fwd 102) (.mul (.mul (.rd (.arr .C 19)) (.rd (.arr .C 8))) (.rd (.var .kf))),
  .ite (.rd (.var .T)) (.num 1000 0) (.var .Kc) (.sub (.add (.add (.neg (.num 10191016829999999 15)) (.mul (.num 20199861800000005 16) (.rd (.var .logT)))) (.mul (.rd (.var .T)) (.add (.neg (.num 58351582350000004 19)) (.mul (.rd (.var .T)) (.add (.num 25556170316666676 22) (.mul (.rd (.var .T)) (.add (.neg (.num 4829879675 19)) (.mul (.neg (.num 22193090999999984 30)) (.rd (.var .T)))))))))) (.div (.neg (.num 44265294979999999 12)) (.rd (.var .T)))) (.sub (.add (.add (.num 11980510229999998 15) (.mul (.neg (.num 17663973799999999 16)) (.rd (.var .logT)))) (.mul (.rd (.var .T)) (.add (.num 11718196699999997 19) (.mul (.rd (.var .T)) (.add (.neg (.num 24470901683333341 23)) (.mul (.rd (.var .T)) (.add (.num 30705871916666657 27) (.mul (.neg (.num 16901975800000012 31)) (.rd (.var .T)))))))))) (.div (.neg (.num 43508330330000004 12)) (.rd (.var .T)))),
  .set (.var .Kc) (.mul (.num 1 0) (.exp (.rd (.var .Kc)))),
  .set (.arr .rev 102) (.div (.mul (.mul (.rd (.arr .C 14)) (.rd (.arr .C 13))) (.rd (.var .kf))) (.rd (.var .Kc)))]

/-- utilities/mechanisms/yao/lib/src/rxn_rates.c:1244-1255 -/
def rate103 : List CStmt := [
  .set (.var .kf) (.num 10000000000 0),
  .set (.arr .fwd 103) (.mul (.mul (.rd (.arr .C 19)) (.rd (.arr .C 4))) (.rd (.var .kf))),
  .ite (.rd (.var .T)) (.num 1000 0) (.var .Kc) (.sub (.add (.add (.neg (.num 33662857099999992 16)) (.mul (.num 2010354999999997 17) (.rd (.var .logT)))) (.mul (.rd (.var .T)) (.add (.num 53737267500000001 19) (.mul (.rd (.var .T)) (.add (.neg (.num 64433484816666655 22)) (.mul (.rd (.var .T)) (.add (.num 39237545475000001 25) (.mul (.neg (.num 95387898249999995 29)) (.rd (.var .T)))))))))) (.div (.neg (.num 31711116719999998 12)) (.rd (.var .T)))) (.sub (.add (.add (.neg (.num 1270933696 8)) (.mul (.num 18064638599999991 16) (.rd (.var .logT)))) (.mul (.rd (.var .T)) (.add (.neg (.num 16914767250000007 19)) (.mul (.rd (.var .T)) (.add (.num 38529573033333326 23) (.mul (.rd (.var .T)) (.add (.neg (.num 57860581050000005 27)) (.mul (.num 36979713919999992 31) (.rd (.var .T)))))))))) (.div (.neg (.num 31975372873 6)) (.rd (.var .T)))),
  .set (.var .Kc) (.mul (.num 1 0) (.exp (.rd (.var .Kc)))),
  .set (.arr .rev 103) (.div (.mul (.mul (.rd (.arr .C 23)) (.rd (.arr .C 3))) (.rd (.var .kf))) (.rd (.var .Kc)))]

/-- utilities/mechanisms/yao/lib/src/rxn_rates.c:1256-1267 -/
def rate104 : List CStmt := [
  .set (.var .kf) (.exp (.sub (.num 16308716010566968 15) (.div (.neg (.num 29991886065606093 14)) (.rd (.var .T))))),
  .set (.arr .fwd 104) (.mul (.mul (.rd (.arr .C 19)) (.rd (.arr .C 7))) (.rd (.var .kf))),
  .ite (.rd (.var .T)) (.num 1000 0) (.var .Kc) (.sub (.add (.add (.neg (.num 49040179300000002 16)) (.mul (.num 77242034999999998 17) (.rd (.var .logT)))) (.mul (.rd (.var .T)) (.add (.neg (.num 66458060915 13)) (.mul (.rd (.var .T)) (.add (.num 59338011666666649 22) (.mul (.rd (.var .T)) (.add (.neg (.num 30076998916666664 25)) (.mul (.num 64705288050000023 29) (.rd (.var .T)))))))))) (.div (.neg (.num 1177268073 5)) (.rd (.var .T)))) (.sub (.add (.add (.num 451539584 8) (.mul (.neg (.num 11284047899999994 16)) (.rd (.var .logT)))) (.mul (.rd (.var .T)) (.add (.num 82334454499999972 20) (.mul (.rd (.var .T)) (.add (.neg (.num 12703692666666678 23)) (.mul (.rd (.var .T)) (.add (.num 16471394500000016 27) (.mul (.neg (.num 10722689950000007 31)) (.rd (.var .T)))))))))) (.div (.neg (.num 11699343346999998 12)) (.rd (.var .T)))),
  .set (.var .Kc) (.mul (.num 1 0) (.exp (.rd (.var .Kc)))),
  .set (.arr .rev 104) (.div (.mul (.mul (.rd (.arr .C 20)) (.rd (.arr .C 4))) (.rd (.var .kf))) (.rd (.var .Kc)))]

/-- utilities/mechanisms/yao/lib/src/rxn_rates.c:1268-1279 -/
def rate105 : List CStmt := [
  .set (.var .kf) (.num 90330000000 0),
  .set (.arr .fwd 105) (.mul (.mul (.rd (.arr .C 19)) (.rd (.arr .C 13))) (.rd (.var .kf))),
  .ite (.rd (.var .T)) (.num 1000 0) (.var .Kc) (.sub (.add (.add (.neg (.num 44042551000000003 16)) (.mul (.num 10508265999999988 17) (.rd (.var .logT)))) (.mul (.rd (.var .T)) (.add (.neg (.num 32258712250000003 19)) (.mul (.rd (.var .T)) (.add (.num 30691596216666667 22) (.mul (.rd (.var .T)) (.add (.neg (.num 15976396179999993 25)) (.mul (.num 35156184255000016 29) (.rd (.var .T)))))))))) (.div (.neg (.num 47953721830000002 12)) (.rd (.var .T)))) (.sub (.add (.add (.num 15759899300000013 16) (.mul (.neg (.num 10376016100000003 16)) (.rd (.var .logT)))) (.mul (.rd (.var .T)) (.add (.num 71037903499999912 20) (.mul (.rd (.var .T)) (.add (.neg (.num 90720883500000089 24)) (.mul (.rd (.var .T)) (.add (.num 79572983333333482 28) (.mul (.neg (.num 32296286999999951 32)) (.rd (.var .T)))))))))) (.div (.neg (.num 47836778309999994 12)) (.rd (.var .T)))),
  .set (.var .Kc) (.mul (.num 1 0) (.exp (.rd (.var .Kc)))),
  .set (.arr .rev 105) (.div (.mul (.mul (.rd (.arr .C 20)) (.rd (.arr .C 16))) (.rd (.var .kf))) (.rd (.var .Kc)))]

/-- utilities/mechanisms/yao/lib/src/rxn_rates.c:1280-1291 -/
def rate106 : List CStmt := [
  .set (.var .kf) (.num 18000000000 0),
  .set (.arr .fwd 106) (.mul (.mul (.rd (.arr .C 19)) (.rd (.arr .C 13))) (.rd (.var .kf))),
  .ite (.rd (.var .T)) (.num 1000 0) (.var .Kc) (.sub (.add (.add (.num 13755466809999998 15) (.mul (.neg (.num 51623024900000001 16)) (.rd (.var .logT)))) (.mul (.rd (.var .T)) (.add (.num 1398009385 11) (.mul (.rd (.var .T)) (.add (.neg (.num 81653527166666655 22)) (.mul (.rd (.var .T)) (.add (.num 36913722333333332 25) (.mul (.neg (.num 78523608250000001 29)) (.rd (.var .T)))))))))) (.div (.neg (.num 48035146160000004 12)) (.rd (.var .T)))) (.sub (.add (.add (.neg (.num 22466757519999998 15)) (.mul (.num 10222884199999998 16) (.rd (.var .logT)))) (.mul (.rd (.var .T)) (.add (.num 91353577000000043 20) (.mul (.rd (.var .T)) (.add (.neg (.num 53022746666666747 24)) (.mul (.rd (.var .T)) (.add (.neg (.num 15130813166666671 27)) (.mul (.num 239323671 23) (.rd (.var .T)))))))))) (.div (.neg (.num 49408846049999993 12)) (.rd (.var .T)))),
  .set (.var .Kc) (.mul (.num 82057360967184814 18) (.exp (.rd (.var .Kc)))),
  .set (.arr .rev 106) (.div (.mul (.rd (.arr .C 27)) (.rd (.var .kf))) (.rd (.var .Kc)))]

/-- utilities/mechanisms/yao/lib/src/rxn_rates.c:1292-1303 -/
def rate107 : List CStmt := [
  .set (.var .kf) (.num 392000000 0),
  .set (.arr .fwd 107) (.mul (.mul (.rd (.arr .C 11)) (.rd (.arr .C 19))) (.rd (.var .kf))),
  .ite (.rd (.var .T)) (.num 1000 0) (.var .Kc) (.sub (.add (.add (.num 11079638599999964 17) (.mul (.neg (.num 92749962600000035 17)) (.rd (.var .logT)))) (.mul (.rd (.var .T)) (.add (.num 30824203650000001 19) (.mul (.rd (.var .T)) (.add (.neg (.num 29980468933333325 22)) (.mul (.rd (.var .T)) (.add (.num 18481583374999996 25) (.mul (.neg (.num 45451393899999995 29)) (.rd (.var .T)))))))))) (.div (.neg (.num 35122512499999997 12)) (.rd (.var .T)))) (.sub (.add (.add (.num 20196618049999984 16) (.mul (.neg (.num 10800205849999998 16)) (.rd (.var .logT)))) (.mul (.rd (.var .T)) (.add (.num 89124188499999871 20) (.mul (.rd (.var .T)) (.add (.neg (.num 72973273333333417 24)) (.mul (.rd (.var .T)) (.add (.num 64183330833333442 28) (.mul (.neg (.num 24813039000000106 32)) (.rd (.var .T)))))))))) (.div (.neg (.num 34920803589999996 12)) (.rd (.var .T)))),
  .set (.var .Kc) (.mul (.num 1 0) (.exp (.rd (.var .Kc)))),
  .set (.arr .rev 107) (.div (.mul (.mul (.rd (.arr .C 12)) (.rd (.arr .C 18))) (.rd (.var .kf))) (.rd (.var .Kc)))]

/-- utilities/mechanisms/yao/lib/src/rxn_rates.c:1304-1315 -/
def rate108 : List CStmt := [
  .set (.var .kf) (.num 25000000000 0),
  .set (.arr .fwd 108) (.mul (.mul (.rd (.arr .C 11)) (.rd (.arr .C 19))) (.rd (.var .kf))),
  .ite (.rd (.var .T)) (.num 1000 0) (.var .Kc) (.sub (.add (.add (.num 11422985270000002 15) (.mul (.neg (.num 43927498500000004 16)) (.rd (.var .logT)))) (.mul (.rd (.var .T)) (.add (.num 86997183150000004 19) (.mul (.rd (.var .T)) (.add (.neg (.num 45273942933333333 22)) (.mul (.rd (.var .T)) (.add (.num 21623199124999998 25) (.mul (.neg (.num 50503993199999997 29)) (.rd (.var .T)))))))))) (.div (.neg (.num 502300196 4)) (.rd (.var .T)))) (.sub (.add (.add (.neg (.num 31010560850000001 15)) (.mul (.num 24298152799999997 16) (.rd (.var .logT)))) (.mul (.rd (.var .T)) (.add (.neg (.num 13308947849999999 19)) (.mul (.rd (.var .T)) (.add (.num 45301132833333336 23) (.mul (.rd (.var .T)) (.add (.neg (.num 74342943666666652 27)) (.mul (.num 4765705175 24) (.rd (.var .T)))))))))) (.div (.neg (.num 523120285 4)) (.rd (.var .T)))),
  .set (.var .Kc) (.mul (.num 82057360967184814 18) (.exp (.rd (.var .Kc)))),
  .set (.arr .rev 108) (.div (.mul (.rd (.arr .C 25)) (.rd (.var .kf))) (.rd (.var .Kc)))]

/-- utilities/mechanisms/yao/lib/src/rxn_rates.c:1316-1327 -/
def rate109 : List CStmt := [
  .set (.var .kf) (.exp (.sub (.sub (.num 48759752060983125 15) (.mul (.num 283 2) (.rd (.var .logT)))) (.div (.num 93689418585478907 13) (.rd (.var .T))))),
  .set (.arr .fwd 109) (.mul (.mul (.rd (.arr .C 11)) (.rd (.arr .C 19))) (.rd (.var .kf))),
  .ite (.rd (.var .T)) (.num 1000 0) (.var .Kc) (.sub (.add (.add (.num 96342999169999999 16) (.mul (.neg (.num 30228733500000002 16)) (.rd (.var .logT)))) (.mul (.rd (.var .T)) (.add (.num 81440388153526649 19) (.mul (.rd (.var .T)) (.add (.neg (.num 31923499603326526 22)) (.mul (.rd (.var .T)) (.add (.num 77345032935840157 26) (.mul (.neg (.num 70618682046386615 30)) (.rd (.var .T)))))))))) (.div (.neg (.num 6585556700000001 12)) (.rd (.var .T)))) (.sub (.add (.add (.neg (.num 31655474474000002 15)) (.mul (.num 369834599 8) (.rd (.var .logT)))) (.mul (.rd (.var .T)) (.add (.neg (.num 16226992965421485 19)) (.mul (.rd (.var .T)) (.add (.num 33163396435936579 23) (.mul (.rd (.var .T)) (.add (.neg (.num 42103119061262695 27)) (.mul (.num 21306128499098683 31) (.rd (.var .T)))))))))) (.div (.neg (.num 8432349299999998 12)) (.rd (.var .T)))),
  .set (.var .Kc) (.mul (.num 1 0) (.exp (.rd (.var .Kc)))),
  .set (.arr .rev 109) (.div (.mul (.mul (.rd (.arr .C 1)) (.rd (.arr .C 24))) (.rd (.var .kf))) (.rd (.var .Kc)))]

/-- utilities/mechanisms/yao/lib/src/rxn_rates.c:1328-1339 -/
def rate110 : List CStmt := [
  .set (.var .kf) (.num 960000000 0),
  .set (.arr .fwd 110) (.mul (.mul (.rd (.arr .C 19)) (.rd (.arr .C 19))) (.rd (.var .kf))),
  .ite (.rd (.var .T)) (.num 1000 0) (.var .Kc) (.sub (.add (.add (.num 26730058859999986 16) (.mul (.neg (.num 16570503260000002 16)) (.rd (.var .logT)))) (.mul (.rd (.var .T)) (.add (.num 63807285950000002 19) (.mul (.rd (.var .T)) (.add (.neg (.num 50433391166666663 22)) (.mul (.rd (.var .T)) (.add (.num 25323281500000003 25) (.mul (.neg (.num 54712335199999985 29)) (.rd (.var .T)))))))))) (.div (.neg (.num 38200936969999995 12)) (.rd (.var .T)))) (.sub (.add (.add (.neg (.num 66497922699999998 16)) (.mul (.num 15023280000000039 17) (.rd (.var .logT)))) (.mul (.rd (.var .T)) (.add (.neg (.num 26688330000001689 21)) (.mul (.rd (.var .T)) (.add (.num 46319884999999696 24) (.mul (.rd (.var .T)) (.add (.neg (.num 79686965833333218 28)) (.mul (.num 53459129499999964 32) (.rd (.var .T)))))))))) (.div (.neg (.num 38349862460000004 12)) (.rd (.var .T)))),
  .set (.var .Kc) (.mul (.num 1 0) (.exp (.rd (.var .Kc)))),
  .set (.arr .rev 110) (.div (.mul (.mul (.rd (.arr .C 20)) (.rd (.arr .C 18))) (.rd (.var .kf))) (.rd (.var .Kc)))]

/-- utilities/mechanisms/yao/lib/src/rxn_rates.c:1340-1351 -/
def rate111 : List CStmt := [
  .set (.var .kf) (.exp (.sub (.sub (.num 96460112546451413 15) (.mul (.num 9147 3) (.rd (.var .logT)))) (.div (.num 23600997591894728 12) (.rd (.var .T))))),
  .set (.arr .fwd 111) (.mul (.rd (.arr .C 23)) (.rd (.var .kf))),
  .ite (.rd (.var .T)) (.num 1000 0) (.var .Kc) (.sub (.add (.add (.neg (.num 83025413600000011 16)) (.mul (.num 28440614699999998 16) (.rd (.var .logT)))) (.mul (.rd (.var .T)) (.add (.neg (.num 46689879650000004 19)) (.mul (.rd (.var .T)) (.add (.num 8092567316666669 22) (.mul (.rd (.var .T)) (.add (.num 99534561166666716 27) (.mul (.neg (.num 61397612949999979 30)) (.rd (.var .T)))))))))) (.div (.num 20389128000000019 13) (.rd (.var .T)))) (.sub (.add (.add (.num 2230561398 8) (.mul (.neg (.num 19747665699999999 16)) (.rd (.var .logT)))) (.mul (.rd (.var .T)) (.add (.num 58591820000000044 20) (.mul (.rd (.var .T)) (.add (.neg (.num 20705745850000005 23)) (.mul (.rd (.var .T)) (.add (.num 34892270166666664 27) (.mul (.neg (.num 22660020000000002 31)) (.rd (.var .T)))))))))) (.div (.num 35932118999999984 13) (.rd (.var .T)))),
  .set (.var .Kc) (.mul (.num 12186597134166982 15) (.exp (.rd (.var .Kc)))),
  .set (.arr .rev 111) (.div (.mul (.mul (.rd (.arr .C 11)) (.rd (.arr .C 16))) (.rd (.var .kf))) (.rd (.var .Kc)))]

/-- utilities/mechanisms/yao/lib/src/rxn_rates.c:1352-1363 -/
def rate112 : List CStmt := [
  .set (.var .kf) (.num 90000000000 0),
  .set (.arr .fwd 112) (.mul (.mul (.rd (.arr .C 23)) (.rd (.arr .C 1))) (.rd (.var .kf))),
  .ite (.rd (.var .T)) (.num 1000 0) (.var .Kc) (.sub (.add (.add (.neg (.num 61115477269999996 16)) (.mul (.num 19857138400000007 16) (.rd (.var .logT)))) (.mul (.rd (.var .T)) (.add (.neg (.num 59857737853526672 19)) (.mul (.rd (.var .T)) (.add (.num 2936445110332653 21) (.mul (.rd (.var .T)) (.add (.neg (.num 10855833710250679 25)) (.mul (.num 20070804454638663 29) (.rd (.var .T)))))))))) (.div (.neg (.num 52510961399999978 13)) (.rd (.var .T)))) (.sub (.add (.add (.num 27174965333999999 15) (.mul (.neg (.num 34177778099999996 16)) (.rd (.var .logT)))) (.mul (.rd (.var .T)) (.add (.num 20331321265421487 19) (.mul (.rd (.var .T)) (.add (.neg (.num 45466252102603256 23)) (.mul (.rd (.var .T)) (.add (.num 64818001394596021 27) (.mul (.neg (.num 39153069999098686 31)) (.rd (.var .T)))))))))) (.div (.neg (.num 37166574499999988 13)) (.rd (.var .T)))),
  .set (.var .Kc) (.mul (.num 1 0) (.exp (.rd (.var .Kc)))),
  .set (.arr .rev 112) (.div (.mul (.mul (.rd (.arr .C 11)) (.rd (.arr .C 13))) (.rd (.var .kf))) (.rd (.var .Kc)))]

/-- utilities/mechanisms/yao/lib/src/rxn_rates.c:1364-1375 -/
def rate113 : List CStmt := [
  .set (.var .kf) (.num 18000000 0),
  .set (.arr .fwd 113) (.mul (.mul (.rd (.arr .C 23)) (.rd (.arr .C 8))) (.rd (.var .kf))),
  .ite (.rd (.var .T)) (.num 1000 0) (.var .Kc) (.sub (.add (.add (.neg (.num 1511538348 8)) (.mul (.num 430704347 8) (.rd (.var .logT)))) (.mul (.rd (.var .T)) (.add (.neg (.num 10742988300000001 18)) (.mul (.rd (.var .T)) (.add (.num 55212779216666664 22) (.mul (.rd (.var .T)) (.add (.neg (.num 2165014871333333 24)) (.mul (.num 41120505105000006 29) (.rd (.var .T)))))))))) (.div (.neg (.num 24269561019999997 12)) (.rd (.var .T)))) (.sub (.add (.add (.num 28673111250000005 15) (.mul (.neg (.num 29176031899999995 16)) (.rd (.var .logT)))) (.mul (.rd (.var .T)) (.add (.num 13526768950000005 19) (.mul (.rd (.var .T)) (.add (.neg (.num 363150915 15)) (.mul (.rd (.var .T)) (.add (.num 54207169200000007 27) (.mul (.neg (.num 33325171979999998 31)) (.rd (.var .T)))))))))) (.div (.neg (.num 22370889240000004 12)) (.rd (.var .T)))),
  .set (.var .Kc) (.mul (.num 12186597134166982 15) (.exp (.rd (.var .Kc)))),
  .set (.arr .rev 113) (.div (.mul (.mul (.mul (.rd (.arr .C 14)) (.rd (.arr .C 16))) (.rd (.arr .C 3))) (.rd (.var .kf))) (.rd (.var .Kc)))]

/-- utilities/mechanisms/yao/lib/src/rxn_rates.c:1376-1387 -/
def rate114 : List CStmt := [
  .set (.var .kf) (.exp (.sub (.add (.num 15195535306070569 15) (.mul (.num 128 2) (.rd (.var .logT)))) (.div (.num 6494702669941812 13) (.rd (.var .T))))),
  .set (.arr .fwd 114) (.mul (.mul (.rd (.arr .C 1)) (.rd (.arr .C 20))) (.rd (.var .kf))),
  .ite (.rd (.var .T)) (.num 1000 0) (.var .Kc) (.sub (.add (.add (.num 32092969330000005 16) (.mul (.neg (.num 11527358000000003 16)) (.rd (.var .logT)))) (.mul (.rd (.var .T)) (.add (.num 16919667746473337 19) (.mul (.rd (.var .T)) (.add (.neg (.num 12307914163340125 22)) (.mul (.rd (.var .T)) (.add (.num 77051789147493195 26) (.mul (.neg (.num 19687684495361349 29)) (.rd (.var .T)))))))))) (.div (.neg (.num 17721809329999996 12)) (.rd (.var .T)))) (.sub (.add (.add (.num 61852026639999984 16) (.mul (.neg (.num 15814547499999998 16)) (.rd (.var .logT)))) (.mul (.rd (.var .T)) (.add (.num 13759285615421498 19) (.mul (.rd (.var .T)) (.add (.neg (.num 21188125769269901 23)) (.mul (.rd (.var .T)) (.add (.num 23328972061262663 27) (.mul (.neg (.num 11967757749098668 31)) (.rd (.var .T)))))))))) (.div (.neg (.num 17556026039999997 12)) (.rd (.var .T)))),
  .set (.var .Kc) (.mul (.num 82057360967184814 18) (.exp (.rd (.var .Kc)))),
  .set (.arr .rev 114) (.div (.mul (.rd (.arr .C 21)) (.rd (.var .kf))) (.rd (.var .Kc)))]

/-- utilities/mechanisms/yao/lib/src/rxn_rates.c:1388-1399 -/
def rate115 : List CStmt := [
  .set (.var .kf) (.exp (.sub (.add (.num 10833681189579275 15) (.mul (.num 19 1) (.rd (.var .logT)))) (.div (.num 65166933649261564 13) (.rd (.var .T))))),
  .set (.arr .fwd 115) (.mul (.mul (.rd (.arr .C 1)) (.rd (.arr .C 20))) (.rd (.var .kf))),
  .ite (.rd (.var .T)) (.num 1000 0) (.var .Kc) (.sub (.add (.add (.num 64453062909999996 16) (.mul (.neg (.num 90240390999999986 17)) (.rd (.var .logT)))) (.mul (.rd (.var .T)) (.add (.num 85329174196473335 19) (.mul (.rd (.var .T)) (.add (.neg (.num 84427064996673472 22)) (.mul (.rd (.var .T)) (.add (.num 44625249998082653 25) (.mul (.neg (.num 98247338045361357 29)) (.rd (.var .T)))))))))) (.div (.num 33784757970000028 13) (.rd (.var .T)))) (.sub (.add (.add (.neg (.num 70942779460000009 16)) (.mul (.num 18178920299999994 16) (.rd (.var .logT)))) (.mul (.rd (.var .T)) (.add (.neg (.num 21822941750078515 19)) (.mul (.rd (.var .T)) (.add (.num 42156873697396772 23) (.mul (.rd (.var .T)) (.add (.neg (.num 52846894938737325 27)) (.mul (.num 29735447000901326 31) (.rd (.var .T)))))))))) (.div (.num 3249168937999998 12) (.rd (.var .T)))),
  .set (.var .Kc) (.mul (.num 1 0) (.exp (.rd (.var .Kc)))),
  .set (.arr .rev 115) (.div (.mul (.mul (.rd (.arr .C 5)) (.rd (.arr .C 19))) (.rd (.var .kf))) (.rd (.var .Kc)))]

/-- utilities/mechanisms/yao/lib/src/rxn_rates.c:1400-1411 -/
def rate116 : List CStmt := [
  .set (.var .kf) (.exp (.sub (.add (.num 96224500228030152 16) (.mul (.num 19 1) (.rd (.var .logT)))) (.div (.num 18820411725732683 13) (.rd (.var .T))))),
  .set (.arr .fwd 116) (.mul (.mul (.rd (.arr .C 20)) (.rd (.arr .C 2))) (.rd (.var .kf))),
  .ite (.rd (.var .T)) (.num 1000 0) (.var .Kc) (.sub (.add (.add (.num 14605393900000005 16) (.mul (.num 21030347999999988 17) (.rd (.var .logT)))) (.mul (.rd (.var .T)) (.add (.num 456959177 11) (.mul (.rd (.var .T)) (.add (.neg (.num 52155841750000004 22)) (.mul (.rd (.var .T)) (.add (.num 28102183674999999 25) (.mul (.neg (.num 61618179600000016 29)) (.rd (.var .T)))))))))) (.div (.num 40293497899999929 13) (.rd (.var .T)))) (.sub (.add (.add (.neg (.num 287666435 8)) (.mul (.num 12759209199999999 16) (.rd (.var .logT)))) (.mul (.rd (.var .T)) (.add (.neg (.num 15863536531499998 19)) (.mul (.rd (.var .T)) (.add (.num 28815407385000021 23) (.mul (.rd (.var .T)) (.add (.neg (.num 3450472522500002 26)) (.mul (.num 18442530615000007 31) (.rd (.var .T)))))))))) (.div (.num 41742663999999968 13) (.rd (.var .T)))),
  .set (.var .Kc) (.mul (.num 1 0) (.exp (.rd (.var .Kc)))),
  .set (.arr .rev 116) (.div (.mul (.mul (.rd (.arr .C 19)) (.rd (.arr .C 3))) (.rd (.var .kf))) (.rd (.var .Kc)))]

/-- utilities/mechanisms/yao/lib/src/rxn_rates.c:1412-1423 -/
def rate117 : List CStmt := [
  .set (.var .kf) (.exp (.sub (.add (.num 98626655580158733 16) (.mul (.num 183 2) (.rd (.var .logT)))) (.div (.num 11070830426901578 14) (.rd (.var .T))))),
  .set (.arr .fwd 117) (.mul (.mul (.rd (.arr .C 20)) (.rd (.arr .C 2))) (.rd (.var .kf))),
  .ite (.rd (.var .T)) (.num 1000 0) (.var .Kc) (.sub (.add (.add (.neg (.num 191763532 8)) (.mul (.num 76730766000000061 17) (.rd (.var .logT)))) (.mul (.rd (.var .T)) (.add (.num 480843387 11) (.mul (.rd (.var .T)) (.add (.neg (.num 73719883333333335 22)) (.mul (.rd (.var .T)) (.add (.num 45917798324999999 25) (.mul (.neg (.num 11109775510000001 28)) (.rd (.var .T)))))))))) (.div (.neg (.num 13927471369999999 12)) (.rd (.var .T)))) (.sub (.add (.add (.num 2736348609999999 15) (.mul (.num 45236016000000001 17) (.rd (.var .logT)))) (.mul (.rd (.var .T)) (.add (.neg (.num 11812926781500001 19)) (.mul (.rd (.var .T)) (.add (.num 1995385135166667 22) (.mul (.rd (.var .T)) (.add (.neg (.num 23113752341666686 27)) (.mul (.num 12205706794999998 31) (.rd (.var .T)))))))))) (.div (.neg (.num 13369962789999998 12)) (.rd (.var .T)))),
  .set (.var .Kc) (.mul (.num 1 0) (.exp (.rd (.var .Kc)))),
  .set (.arr .rev 117) (.div (.mul (.mul (.rd (.arr .C 11)) (.rd (.arr .C 13))) (.rd (.var .kf))) (.rd (.var .Kc)))]

/-- utilities/mechanisms/yao/lib/src/rxn_rates.c:1424-1435 -/
def rate118 : List CStmt := [
  .set (.var .kf) (.exp (.sub (.add (.num 59506425525877269 16) (.mul (.num 183 2) (.rd (.var .logT)))) (.div (.num 11070830426901578 14) (.rd (.var .T))))),
  .set (.arr .fwd 118) (.mul (.mul (.rd (.arr .C 20)) (.rd (.arr .C 2))) (.rd (.var .kf))),
  .ite (.rd (.var .T)) (.num 1000 0) (.var .Kc) (.sub (.add (.add (.neg (.num 54128529099999998 16)) (.mul (.num 14289332399999997 16) (.rd (.var .logT)))) (.mul (.rd (.var .T)) (.add (.num 95518988150000012 20) (.mul (.rd (.var .T)) (.add (.neg (.num 39375323250000003 22)) (.mul (.rd (.var .T)) (.add (.num 27922919925 19) (.mul (.neg (.num 71182073100000012 29)) (.rd (.var .T)))))))))) (.div (.neg (.num 25169517300000043 13)) (.rd (.var .T)))) (.sub (.add (.add (.num 47085490299999986 16) (.mul (.num 29259270000000281 18) (.rd (.var .logT)))) (.mul (.rd (.var .T)) (.add (.neg (.num 85152362315000011 20)) (.mul (.rd (.var .T)) (.add (.num 13954943185000016 23) (.mul (.rd (.var .T)) (.add (.neg (.num 16301648425000028 27)) (.mul (.num 86597016949999927 32) (.rd (.var .T)))))))))) (.div (.neg (.num 18896935400000002 13)) (.rd (.var .T)))),
  .set (.var .Kc) (.mul (.num 1 0) (.exp (.rd (.var .Kc)))),
  .set (.arr .rev 118) (.div (.mul (.mul (.rd (.arr .C 14)) (.rd (.arr .C 9))) (.rd (.var .kf))) (.rd (.var .Kc)))]

/-- utilities/mechanisms/yao/lib/src/rxn_rates.c:1436-1447 -/
def rate119 : List CStmt := [
  .set (.var .kf) (.exp (.sub (.add (.num 81886891244442008 16) (.mul (.num 2 0) (.rd (.var .logT)))) (.div (.num 12580489121479065 13) (.rd (.var .T))))),
  .set (.arr .fwd 119) (.mul (.mul (.rd (.arr .C 20)) (.rd (.arr .C 3))) (.rd (.var .kf))),
  .ite (.rd (.var .T)) (.num 1000 0) (.var .Kc) (.sub (.add (.add (.num 49280101219999999 16) (.mul (.neg (.num 67340007999999951 17)) (.rd (.var .logT)))) (.mul (.rd (.var .T)) (.add (.num 51371646900000003 19) (.mul (.rd (.var .T)) (.add (.neg (.num 51975554666666666 22)) (.mul (.rd (.var .T)) (.add (.num 2808638034166666 24) (.mul (.neg (.num 62818728100000013 29)) (.rd (.var .T)))))))))) (.div (.neg (.num 39051939499999999 13)) (.rd (.var .T)))) (.sub (.add (.add (.neg (.num 44027926200000014 16)) (.mul (.num 11498764700000002 16) (.rd (.var .logT)))) (.mul (.rd (.var .T)) (.add (.neg (.num 15973861699999997 19)) (.mul (.rd (.var .T)) (.add (.num 35416098333333352 23) (.mul (.rd (.var .T)) (.add (.neg (.num 4851335036666668 26)) (.mul (.num 28798707430000004 31) (.rd (.var .T)))))))))) (.div (.neg (.num 40501670800000006 13)) (.rd (.var .T)))),
  .set (.var .Kc) (.mul (.num 1 0) (.exp (.rd (.var .Kc)))),
  .set (.arr .rev 119) (.div (.mul (.mul (.rd (.arr .C 6)) (.rd (.arr .C 19))) (.rd (.var .kf))) (.rd (.var .Kc)))]

/-- utilities/mechanisms/yao/lib/src/rxn_rates.c:1448-1459 -/
def rate120 : List CStmt := [
  .set (.var .kf) (.exp (.sub (.add (.num 92103403719761836 16) (.mul (.num 2 0) (.rd (.var .logT)))) (.div (.num 4025756518873301 12) (.rd (.var .T))))),
  .set (.arr .fwd 120) (.mul (.mul (.rd (.arr .C 20)) (.rd (.arr .C 13))) (.rd (.var .kf))),
  .ite (.rd (.var .T)) (.num 1000 0) (.var .Kc) (.sub (.add (.add (.num 10183033000000008 16) (.mul (.neg (.num 29438817000000039 17)) (.rd (.var .logT)))) (.mul (.rd (.var .T)) (.add (.num 30087525949999997 19) (.mul (.rd (.var .T)) (.add (.neg (.num 33579797949999995 22)) (.mul (.rd (.var .T)) (.add (.num 19556358236666672 25) (.mul (.neg (.num 45898250244999998 29)) (.rd (.var .T)))))))))) (.div (.neg (.num 10431800389999999 12)) (.rd (.var .T)))) (.sub (.add (.add (.num 13158513099999984 16) (.mul (.neg (.num 1384435100000001 16)) (.rd (.var .logT)))) (.mul (.rd (.var .T)) (.add (.neg (.num 71285364999999767 21)) (.mul (.rd (.var .T)) (.add (.num 35723804833333499 24) (.mul (.rd (.var .T)) (.add (.neg (.num 65967591666666878 28)) (.mul (.num 45252922500000041 32) (.rd (.var .T)))))))))) (.div (.neg (.num 1024615669 5)) (.rd (.var .T)))),
  .set (.var .Kc) (.mul (.num 1 0) (.exp (.rd (.var .Kc)))),
  .set (.arr .rev 120) (.div (.mul (.mul (.rd (.arr .C 21)) (.rd (.arr .C 16))) (.rd (.var .kf))) (.rd (.var .Kc)))]

/-- utilities/mechanisms/yao/lib/src/rxn_rates.c:1460-1471 -/
def rate121 : List CStmt := [
  .set (.var .kf) (.exp (.sub (.num 23718998110500401 15) (.div (.num 30193173891549759 13) (.rd (.var .T))))),
  .set (.arr .fwd 121) (.mul (.mul (.rd (.arr .C 9)) (.rd (.arr .C 20))) (.rd (.var .kf))),
  .ite (.rd (.var .T)) (.num 1000 0) (.var .Kc) (.sub (.add (.add (.num 14925364987000002 15) (.mul (.neg (.num 38586966499999997 16)) (.rd (.var .logT)))) (.mul (.rd (.var .T)) (.add (.num 13207735663852666 18) (.mul (.rd (.var .T)) (.add (.neg (.num 78994779353326523 22)) (.mul (.rd (.var .T)) (.add (.num 3304519319358401 24) (.mul (.neg (.num 64146417454638672 29)) (.rd (.var .T)))))))))) (.div (.neg (.num 63745271299999986 13)) (.rd (.var .T)))) (.sub (.add (.add (.neg (.num 32256870874000001 15)) (.mul (.num 40905754199999995 16) (.rd (.var .logT)))) (.mul (.rd (.var .T)) (.add (.neg (.num 19885385215421478 19)) (.mul (.rd (.var .T)) (.add (.num 40692698935936594 23) (.mul (.rd (.var .T)) (.add (.neg (.num 52027390311262707 27)) (.mul (.num 27057465599098688 31) (.rd (.var .T)))))))))) (.div (.neg (.num 82473812399999988 13)) (.rd (.var .T)))),
  .set (.var .Kc) (.mul (.num 1 0) (.exp (.rd (.var .Kc)))),
  .set (.arr .rev 121) (.div (.mul (.mul (.rd (.arr .C 1)) (.rd (.arr .C 24))) (.rd (.var .kf))) (.rd (.var .Kc)))]

/-- utilities/mechanisms/yao/lib/src/rxn_rates.c:1472-1483 -/
def rate122 : List CStmt := [
  .set (.var .kf) (.num 50000000000 0),
  .set (.arr .fwd 122) (.mul (.mul (.rd (.arr .C 20)) (.rd (.arr .C 10))) (.rd (.var .kf))),
  .ite (.rd (.var .T)) (.num 1000 0) (.var .Kc) (.sub (.add (.add (.num 17692941244 9) (.mul (.neg (.num 42946220899999998 16)) (.rd (.var .logT)))) (.mul (.rd (.var .T)) (.add (.num 14875478830352666 18) (.mul (.rd (.var .T)) (.add (.neg (.num 88058219003326534 22)) (.mul (.rd (.var .T)) (.add (.num 35409566760250678 25) (.mul (.neg (.num 65425068354638672 29)) (.rd (.var .T)))))))))) (.div (.neg (.num 10867303330000002 12)) (.rd (.var .T)))) (.sub (.add (.add (.neg (.num 35294242034 9)) (.mul (.num 46726381300000002 16) (.rd (.var .logT)))) (.mul (.rd (.var .T)) (.add (.neg (.num 2488285246542148 18)) (.mul (.rd (.var .T)) (.add (.num 50742257269269924 23) (.mul (.rd (.var .T)) (.add (.neg (.num 65171261227929376 27)) (.mul (.num 34656905499098683 31) (.rd (.var .T)))))))))) (.div (.neg (.num 12909776940000003 12)) (.rd (.var .T)))),
  .set (.var .Kc) (.mul (.num 1 0) (.exp (.rd (.var .Kc)))),
  .set (.arr .rev 122) (.div (.mul (.mul (.rd (.arr .C 1)) (.rd (.arr .C 24))) (.rd (.var .kf))) (.rd (.var .Kc)))]

/-- utilities/mechanisms/yao/lib/src/rxn_rates.c:1484-1495 -/
def rate123 : List CStmt := [
  .set (.var .kf) (.exp (.sub (.add (.num 54249500174814029 16) (.mul (.num 2 0) (.rd (.var .logT)))) (.div (.num 46296199967042967 13) (.rd (.var .T))))),
  .set (.arr .fwd 123) (.mul (.mul (.rd (.arr .C 11)) (.rd (.arr .C 20))) (.rd (.var .kf))),
  .ite (.rd (.var .T)) (.num 1000 0) (.var .Kc) (.sub (.add (.add (.neg (.num 25622094999999985 16)) (.mul (.num 72955069999999989 17) (.rd (.var .logT)))) (.mul (.rd (.var .T)) (.add (.neg (.num 32983082299999997 19)) (.mul (.rd (.var .T)) (.add (.num 20452922233333337 22) (.mul (.rd (.var .T)) (.add (.neg (.num 6841698125000011 25)) (.mul (.num 92609412999999793 30) (.rd (.var .T)))))))))) (.div (.num 30784244699999981 13) (.rd (.var .T)))) (.sub (.add (.add (.num 86694540750000009 16) (.mul (.neg (.num 12302533850000001 16)) (.rd (.var .logT)))) (.mul (.rd (.var .T)) (.add (.num 91793021500000127 20) (.mul (.rd (.var .T)) (.add (.neg (.num 11929315833333311 23)) (.mul (.rd (.var .T)) (.add (.num 14387029666666653 27) (.mul (.neg (.num 78272168499999992 32)) (.rd (.var .T)))))))))) (.div (.num 34290588699999998 13) (.rd (.var .T)))),
  .set (.var .Kc) (.mul (.num 1 0) (.exp (.rd (.var .Kc)))),
  .set (.arr .rev 123) (.div (.mul (.mul (.rd (.arr .C 19)) (.rd (.arr .C 12))) (.rd (.var .kf))) (.rd (.var .Kc)))]

/-- utilities/mechanisms/yao/lib/src/rxn_rates.c:1496-1507 -/
def rate124 : List CStmt := [
  .set (.var .kf) (.exp (.sub (.num 32195369307396383 15) (.div (.num 15611350367451911 12) (.rd (.var .T))))),
  .set (.arr .fwd 124) (.mul (.rd (.arr .C 26)) (.rd (.var .kf))),
  .ite (.rd (.var .T)) (.num 1000 0) (.var .Kc) (.sub (.add (.add (.neg (.num 22017813289999999 15)) (.mul (.num 55836745800000003 16) (.rd (.var .logT)))) (.mul (.rd (.var .T)) (.add (.neg (.num 15784271860000001 18)) (.mul (.rd (.var .T)) (.add (.num 10079166026666668 21) (.mul (.rd (.var .T)) (.add (.neg (.num 47029097958333326 25)) (.mul (.num 10080136970000001 28) (.rd (.var .T)))))))))) (.div (.num 11222428730000001 12) (.rd (.var .T)))) (.sub (.add (.add (.num 37688657110000001 15) (.mul (.neg (.num 438791902 8)) (.rd (.var .logT)))) (.mul (.rd (.var .T)) (.add (.num 2926915234999999 18) (.mul (.rd (.var .T)) (.add (.neg (.num 73764980500000018 23)) (.mul (.rd (.var .T)) (.add (.num 10908586283333333 26) (.mul (.neg (.num 66779390700000008 31)) (.rd (.var .T)))))))))) (.div (.num 13739246839999996 12) (.rd (.var .T)))),
  .set (.var .Kc) (.mul (.num 12186597134166982 15) (.exp (.rd (.var .Kc)))),
  .set (.arr .rev 124) (.div (.mul (.mul (.rd (.arr .C 11)) (.rd (.arr .C 20))) (.rd (.var .kf))) (.rd (.var .Kc)))]

/-- utilities/mechanisms/yao/lib/src/rxn_rates.c:1508-1519 -/
def rate125 : List CStmt := [
  .set (.var .kf) (.exp (.sub (.num 24465686057988378 15) (.div (.num 30595749543437087 12) (.rd (.var .T))))),
  .set (.arr .fwd 125) (.mul (.mul (.rd (.arr .C 20)) (.rd (.arr .C 8))) (.rd (.var .kf))),
  .ite (.rd (.var .T)) (.num 1000 0) (.var .Kc) (.sub (.add (.add (.num 46995893899999999 16) (.mul (.neg (.num 22739338000000009 17)) (.rd (.var .logT)))) (.mul (.rd (.var .T)) (.add (.num 366646387 11) (.mul (.rd (.var .T)) (.add (.neg (.num 33111834849999999 22)) (.mul (.rd (.var .T)) (.add (.num 15664996908333323 25) (.mul (.neg (.num 31124135650000006 29)) (.rd (.var .T)))))))))) (.div (.num 31128822470000003 12) (.rd (.var .T)))) (.sub (.add (.add (.neg (.num 59014605600000012 16)) (.mul (.num 17152859000000005 16) (.rd (.var .logT)))) (.mul (.rd (.var .T)) (.add (.neg (.num 17792266549999992 19)) (.mul (.rd (.var .T)) (.add (.num 35904402983333348 23) (.mul (.rd (.var .T)) (.add (.neg (.num 45818377916666682 27)) (.mul (.num 25163141400000009 31) (.rd (.var .T)))))))))) (.div (.num 30873302193 6) (.rd (.var .T)))),
  .set (.var .Kc) (.mul (.num 1 0) (.exp (.rd (.var .Kc)))),
  .set (.arr .rev 125) (.div (.mul (.mul (.rd (.arr .C 19)) (.rd (.arr .C 4))) (.rd (.var .kf))) (.rd (.var .Kc)))]

/-- utilities/mechanisms/yao/lib/src/rxn_rates.c:1520-1531 -/
def rate126 : List CStmt := [
  .set (.var .kf) (.exp (.sub (.sub (.num 82661131290438362 15) (.mul (.num 847 2) (.rd (.var .logT)))) (.div (.num 7155782212297293 12) (.rd (.var .T))))),
  .set (.arr .fwd 126) (.mul (.mul (.rd (.arr .C 20)) (.rd (.arr .C 19))) (.rd (.var .kf))),
  .ite (.rd (.var .T)) (.num 1000 0) (.var .Kc) (.sub (.add (.add (.num 17257180399999999 15) (.mul (.neg (.num 54271736099999996 16)) (.rd (.var .logT)))) (.mul (.rd (.var .T)) (.add (.num 22867293925000001 18) (.mul (.rd (.var .T)) (.add (.neg (.num 176530094 13)) (.mul (.rd (.var .T)) (.add (.num 8921663108333334 24) (.mul (.neg (.num 19696943550000002 28)) (.rd (.var .T)))))))))) (.div (.neg (.num 17296294729999998 12)) (.rd (.var .T)))) (.sub (.add (.add (.neg (.num 28942649420000002 15)) (.mul (.num 29606483400000005 16) (.rd (.var .logT)))) (.mul (.rd (.var .T)) (.add (.neg (.num 11705431500000007 19)) (.mul (.rd (.var .T)) (.add (.num 35617594000000005 23) (.mul (.rd (.var .T)) (.add (.neg (.num 67422450833333341 27)) (.mul (.num 53940297549999999 31) (.rd (.var .T)))))))))) (.div (.neg (.num 18597752039999996 12)) (.rd (.var .T)))),
  .set (.var .Kc) (.mul (.num 82057360967184814 18) (.exp (.rd (.var .Kc)))),
  .set (.arr .rev 126) (.div (.mul (.rd (.arr .C 28)) (.rd (.var .kf))) (.rd (.var .Kc)))]

/-- utilities/mechanisms/yao/lib/src/rxn_rates.c:1532-1543 -/
def rate127 : List CStmt := [
  .set (.var .kf) (.exp (.sub (.sub (.num 33886771157681913 15) (.mul (.num 99 2) (.rd (.var .logT)))) (.div (.num 79508691247747697 14) (.rd (.var .T))))),
  .set (.arr .fwd 127) (.mul (.mul (.rd (.arr .C 1)) (.rd (.arr .C 21))) (.rd (.var .kf))),
  .ite (.rd (.var .T)) (.num 1000 0) (.var .Kc) (.sub (.add (.add (.num 92133753299999954 17) (.mul (.neg (.num 15150407599999998 16)) (.rd (.var .logT)))) (.mul (.rd (.var .T)) (.add (.neg (.num 65747689035266588 20)) (.mul (.rd (.var .T)) (.add (.num 17049246836659875 22) (.mul (.rd (.var .T)) (.add (.neg (.num 91116399185840205 26)) (.mul (.num 1908838350463865 28) (.rd (.var .T)))))))))) (.div (.neg (.num 49837491899999994 12)) (.rd (.var .T)))) (.sub (.add (.add (.num 54826342439999998 16) (.mul (.neg (.num 23827749300000001 16)) (.rd (.var .logT)))) (.mul (.rd (.var .T)) (.add (.num 21439977615421487 19) (.mul (.rd (.var .T)) (.add (.neg (.num 34059000602603242 23)) (.mul (.rd (.var .T)) (.add (.num 38495260394596016 27) (.mul (.neg (.num 20180657249098672 31)) (.rd (.var .T)))))))))) (.div (.neg (.num 49757573099999994 12)) (.rd (.var .T)))),
  .set (.var .Kc) (.mul (.num 82057360967184814 18) (.exp (.rd (.var .Kc)))),
  .set (.arr .rev 127) (.div (.mul (.rd (.arr .C 22)) (.rd (.var .kf))) (.rd (.var .Kc)))]

/-- utilities/mechanisms/yao/lib/src/rxn_rates.c:1544-1555 -/
def rate128 : List CStmt := [
  .set (.var .kf) (.num 2000000000 0),
  .set (.arr .fwd 128) (.mul (.mul (.rd (.arr .C 1)) (.rd (.arr .C 21))) (.rd (.var .kf))),
  .ite (.rd (.var .T)) (.num 1000 0) (.var .Kc) (.sub (.add (.add (.num 10227478909999994 16) (.mul (.neg (.num 50293307999999914 17)) (.rd (.var .logT)))) (.mul (.rd (.var .T)) (.add (.num 22982935996473334 19) (.mul (.rd (.var .T)) (.add (.neg (.num 20155670830006801 22)) (.mul (.rd (.var .T)) (.add (.num 909249558141599 24) (.mul (.neg (.num 17192903545361343 29)) (.rd (.var .T)))))))))) (.div (.neg (.num 34143445642999999 12)) (.rd (.var .T)))) (.sub (.add (.add (.neg (.num 68341393259999972 16)) (.mul (.num 9187339299999997 16) (.rd (.var .logT)))) (.mul (.rd (.var .T)) (.add (.neg (.num 14006297750078526 19)) (.mul (.rd (.var .T)) (.add (.num 29512404864063403 23) (.mul (.rd (.var .T)) (.add (.neg (.num 38292837438737289 27)) (.mul (.num 21980526050901319 31) (.rd (.var .T)))))))))) (.div (.neg (.num 34341452682000003 12)) (.rd (.var .T)))),
  .set (.var .Kc) (.mul (.num 1 0) (.exp (.rd (.var .Kc)))),
  .set (.arr .rev 128) (.div (.mul (.mul (.rd (.arr .C 5)) (.rd (.arr .C 20))) (.rd (.var .kf))) (.rd (.var .Kc)))]

/-- utilities/mechanisms/yao/lib/src/rxn_rates.c:1556-1567 -/
def rate129 : List CStmt := [
  .set (.var .kf) (.num 16040000000 0),
  .set (.arr .fwd 129) (.mul (.mul (.rd (.arr .C 21)) (.rd (.arr .C 2))) (.rd (.var .kf))),
  .ite (.rd (.var .T)) (.num 1000 0) (.var .Kc) (.sub (.add (.add (.neg (.num 55443462399999994 16)) (.mul (.num 99258077000000045 17) (.rd (.var .logT)))) (.mul (.rd (.var .T)) (.add (.neg (.num 21573708999999977 20)) (.mul (.rd (.var .T)) (.add (.neg (.num 22175208833333346 22)) (.mul (.rd (.var .T)) (.add (.num 17700855408333336 25) (.mul (.neg (.num 47212187850000007 29)) (.rd (.var .T)))))))))) (.div (.neg (.num 398278436 4)) (.rd (.var .T)))) (.sub (.add (.add (.num 4367291250000001 15) (.mul (.neg (.num 47766940000000035 17)) (.rd (.var .logT)))) (.mul (.rd (.var .T)) (.add (.neg (.num 43569844814999968 20)) (.mul (.rd (.var .T)) (.add (.num 88397768516666726 24) (.mul (.rd (.var .T)) (.add (.neg (.num 11671862174999995 27)) (.mul (.num 66561178449999901 32) (.rd (.var .T)))))))))) (.div (.neg (.num 39295347099999999 12)) (.rd (.var .T)))),
  .set (.var .Kc) (.mul (.num 1 0) (.exp (.rd (.var .Kc)))),
  .set (.arr .rev 129) (.div (.mul (.mul (.rd (.arr .C 14)) (.rd (.arr .C 11))) (.rd (.var .kf))) (.rd (.var .Kc)))]

/-- utilities/mechanisms/yao/lib/src/rxn_rates.c:1568-1579 -/
def rate130 : List CStmt := [
  .set (.var .kf) (.num 20000000 0),
  .set (.arr .fwd 130) (.mul (.mul (.rd (.arr .C 21)) (.rd (.arr .C 8))) (.rd (.var .kf))),
  .ite (.rd (.var .T)) (.num 1000 0) (.var .Kc) (.sub (.add (.add (.neg (.num 72296901000000036 17)) (.mul (.num 17207745000000019 17) (.rd (.var .logT)))) (.mul (.rd (.var .T)) (.add (.neg (.num 25681599499999992 19)) (.mul (.rd (.var .T)) (.add (.num 31159559316666656 22) (.mul (.rd (.var .T)) (.add (.neg (.num 19867757508333331 25)) (.mul (.num 49930298850000008 29) (.rd (.var .T)))))))))) (.div (.neg (.num 63930989700000009 13)) (.rd (.var .T)))) (.sub (.add (.add (.neg (.num 56413219399999974 16)) (.mul (.num 81612780000000029 17) (.rd (.var .logT)))) (.mul (.rd (.var .T)) (.add (.neg (.num 9975622550000003 19)) (.mul (.rd (.var .T)) (.add (.num 23259934149999997 23) (.mul (.rd (.var .T)) (.add (.neg (.num 31264320416666646 27)) (.mul (.num 17408220449999992 31) (.rd (.var .T)))))))))) (.div (.neg (.num 67173194270000004 13)) (.rd (.var .T)))),
  .set (.var .Kc) (.mul (.num 1 0) (.exp (.rd (.var .Kc)))),
  .set (.arr .rev 130) (.div (.mul (.mul (.rd (.arr .C 20)) (.rd (.arr .C 4))) (.rd (.var .kf))) (.rd (.var .Kc)))]

/-- utilities/mechanisms/yao/lib/src/rxn_rates.c:1580-1591 -/
def rate131 : List CStmt := [
  .set (.var .kf) (.num 300000000 0),
  .set (.arr .fwd 131) (.mul (.mul (.rd (.arr .C 21)) (.rd (.arr .C 4))) (.rd (.var .kf))),
  .ite (.rd (.var .T)) (.num 1000 0) (.var .Kc) (.sub (.add (.add (.neg (.num 15649903900000006 16)) (.mul (.neg (.num 5343824099999992 16)) (.rd (.var .logT)))) (.mul (.rd (.var .T)) (.add (.num 21871628500000047 20) (.mul (.rd (.var .T)) (.add (.neg (.num 18023983166666591 23)) (.mul (.rd (.var .T)) (.add (.num 30509386749999911 26) (.mul (.neg (.num 1115423085000002 28)) (.rd (.var .T)))))))))) (.div (.neg (.num 25722583600000002 12)) (.rd (.var .T)))) (.sub (.add (.add (.num 49387535200000006 16) (.mul (.neg (.num 16174479800000006 16)) (.rd (.var .logT)))) (.mul (.rd (.var .T)) (.add (.num 17656314549999998 19) (.mul (.rd (.var .T)) (.add (.neg (.num 36130808983333325 23)) (.mul (.rd (.var .T)) (.add (.num 46430608750000006 27) (.mul (.neg (.num 25621119949999994 31)) (.rd (.var .T)))))))))) (.div (.neg (.num 25484227633000002 12)) (.rd (.var .T)))),
  .set (.var .Kc) (.mul (.num 1 0) (.exp (.rd (.var .Kc)))),
  .set (.arr .rev 131) (.div (.mul (.mul (.rd (.arr .C 22)) (.rd (.arr .C 8))) (.rd (.var .kf))) (.rd (.var .Kc)))]

/-- utilities/mechanisms/yao/lib/src/rxn_rates.c:1592-1603 -/
def rate132 : List CStmt := [
  .set (.var .kf) (.num 300000000 0),
  .set (.arr .fwd 132) (.mul (.mul (.rd (.arr .C 21)) (.rd (.arr .C 4))) (.rd (.var .kf))),
  .ite (.rd (.var .T)) (.num 1000 0) (.var .Kc) (.sub (.add (.add (.neg (.num 51854047000000048 17)) (.mul (.neg (.num 3729495199999997 16)) (.rd (.var .logT)))) (.mul (.rd (.var .T)) (.add (.num 41118227149999952 20) (.mul (.rd (.var .T)) (.add (.num 49333825000000005 23) (.mul (.rd (.var .T)) (.add (.neg (.num 54557555000000033 26)) (.mul (.num 16349146449999992 29) (.rd (.var .T)))))))))) (.div (.neg (.num 25749240710000002 12)) (.rd (.var .T)))) (.sub (.add (.add (.neg (.num 42552572199999972 16)) (.mul (.num 2292466899999992 16) (.rd (.var .logT)))) (.mul (.rd (.var .T)) (.add (.neg (.num 41680145000000174 21)) (.mul (.rd (.var .T)) (.add (.num 59223833333320598 26) (.mul (.rd (.var .T)) (.add (.neg (.num 1917336999999991 27)) (.mul (.num 29677689999999944 32) (.rd (.var .T)))))))))) (.div (.neg (.num 25891278273000004 12)) (.rd (.var .T)))),
  .set (.var .Kc) (.mul (.num 1 0) (.exp (.rd (.var .Kc)))),
  .set (.arr .rev 132) (.div (.mul (.mul (.rd (.arr .C 20)) (.rd (.arr .C 7))) (.rd (.var .kf))) (.rd (.var .Kc)))]

/-- utilities/mechanisms/yao/lib/src/rxn_rates.c:1604-1615 -/
def rate133 : List CStmt := [
  .set (.var .kf) (.num 24000000000 0),
  .set (.arr .fwd 133) (.mul (.mul (.rd (.arr .C 21)) (.rd (.arr .C 4))) (.rd (.var .kf))),
  .ite (.rd (.var .T)) (.num 1000 0) (.var .Kc) (.sub (.add (.add (.neg (.num 10891282889999999 15)) (.mul (.num 29843554700000006 16) (.rd (.var .logT)))) (.mul (.rd (.var .T)) (.add (.neg (.num 10935609499999996 19)) (.mul (.rd (.var .T)) (.add (.neg (.num 35487839216666664 22)) (.mul (.rd (.var .T)) (.add (.num 27992344350000001 25) (.mul (.neg (.num 72798276550000018 29)) (.rd (.var .T)))))))))) (.div (.neg (.num 76188543199999995 13)) (.rd (.var .T)))) (.sub (.add (.add (.num 96512297300000025 16) (.mul (.neg (.num 6073066000000038 17)) (.rd (.var .logT)))) (.mul (.rd (.var .T)) (.add (.neg (.num 1070343329999999 18)) (.mul (.rd (.var .T)) (.add (.num 15781841033333343 23) (.mul (.rd (.var .T)) (.add (.neg (.num 1948371905 20)) (.mul (.num 11999733669999993 31) (.rd (.var .T)))))))))) (.div (.neg (.num 64707669730000025 13)) (.rd (.var .T)))),
  .set (.var .Kc) (.mul (.num 12186597134166982 15) (.exp (.rd (.var .Kc)))),
  .set (.arr .rev 133) (.div (.mul (.mul (.mul (.rd (.arr .C 14)) (.rd (.arr .C 11))) (.rd (.arr .C 3))) (.rd (.var .kf))) (.rd (.var .Kc)))]

/-- utilities/mechanisms/yao/lib/src/rxn_rates.c:1616-1627 -/
def rate134 : List CStmt := [
  .set (.var .kf) (.exp (.sub (.num 15978833583624812 15) (.div (.num 49013585617282439 14) (.rd (.var .T))))),
  .set (.arr .fwd 134) (.mul (.mul (.rd (.arr .C 21)) (.rd (.arr .C 7))) (.rd (.var .kf))),
  .ite (.rd (.var .T)) (.num 1000 0) (.var .Kc) (.sub (.add (.add (.neg (.num 17694189300000005 16)) (.mul (.num 10644560000000247 18) (.rd (.var .logT)))) (.mul (.rd (.var .T)) (.add (.neg (.num 27606259365 13)) (.mul (.rd (.var .T)) (.add (.num 24423778499999996 22) (.mul (.rd (.var .T)) (.add (.neg (.num 11361063333333339 25)) (.mul (.num 22426921550000002 29) (.rd (.var .T)))))))))) (.div (.neg (.num 6366441859999999 12)) (.rd (.var .T)))) (.sub (.add (.add (.num 35526887999999999 16) (.mul (.neg (.num 10305668699999995 16)) (.rd (.var .logT)))) (.mul (.rd (.var .T)) (.add (.num 80974934499999972 20) (.mul (.rd (.var .T)) (.add (.neg (.num 1293009866666666 22)) (.mul (.rd (.var .T)) (.add (.num 17083625333333333 27) (.mul (.neg (.num 11180668499999996 31)) (.rd (.var .T)))))))))) (.div (.neg (.num 63102687870000009 13)) (.rd (.var .T)))),
  .set (.var .Kc) (.mul (.num 1 0) (.exp (.rd (.var .Kc)))),
  .set (.arr .rev 134) (.div (.mul (.mul (.rd (.arr .C 22)) (.rd (.arr .C 4))) (.rd (.var .kf))) (.rd (.var .Kc)))]

/-- utilities/mechanisms/yao/lib/src/rxn_rates.c:1628-1639 -/
def rate135 : List CStmt := [
  .set (.var .kf) (.num 15000000000 0),
  .set (.arr .fwd 135) (.mul (.mul (.rd (.arr .C 21)) (.rd (.arr .C 19))) (.rd (.var .kf))),
  .ite (.rd (.var .T)) (.num 1000 0) (.var .Kc) (.sub (.add (.add (.num 1418251364 8) (.mul (.neg (.num 53377941299999998 16)) (.rd (.var .logT)))) (.mul (.rd (.var .T)) (.add (.num 1676258865 11) (.mul (.rd (.var .T)) (.add (.neg (.num 117581162 13)) (.mul (.rd (.var .T)) (.add (.num 59186297749999998 25) (.mul (.neg (.num 13327897350000001 28)) (.rd (.var .T)))))))))) (.div (.neg (.num 49491873699999996 12)) (.rd (.var .T)))) (.sub (.add (.add (.neg (.num 27887607599999997 16)) (.mul (.neg (.num 19177963199999999 16)) (.rd (.var .logT)))) (.mul (.rd (.var .T)) (.add (.num 33115028000000003 19) (.mul (.rd (.var .T)) (.add (.neg (.num 53671780499999977 23)) (.mul (.rd (.var .T)) (.add (.num 44929702500000026 27) (.mul (.neg (.num 88540849500000217 32)) (.rd (.var .T)))))))))) (.div (.neg (.num 49610116999999998 12)) (.rd (.var .T)))),
  .set (.var .Kc) (.mul (.num 82057360967184814 18) (.exp (.rd (.var .Kc)))),
  .set (.arr .rev 135) (.div (.mul (.rd (.arr .C 29)) (.rd (.var .kf))) (.rd (.var .Kc)))]

/-- utilities/mechanisms/yao/lib/src/rxn_rates.c:1640-1651 -/
def rate136 : List CStmt := [
  .set (.var .kf) (.exp (.sub (.sub (.num 68135944249962932 15) (.mul (.num 522 2) (.rd (.var .logT)))) (.div (.num 99370767472738844 13) (.rd (.var .T))))),
  .set (.arr .fwd 136) (.mul (.mul (.rd (.arr .C 21)) (.rd (.arr .C 19))) (.rd (.var .kf))),
  .ite (.rd (.var .T)) (.num 1000 0) (.var .Kc) (.sub (.add (.add (.num 80421870700000007 16) (.mul (.neg (.num 24821582299999996 16)) (.rd (.var .logT)))) (.mul (.rd (.var .T)) (.add (.num 12248285025 12) (.mul (.rd (.var .T)) (.add (.neg (.num 95679905566666663 22)) (.mul (.rd (.var .T)) (.add (.num 46209763374999994 25) (.mul (.neg (.num 9687779680000001 28)) (.rd (.var .T)))))))))) (.div (.neg (.num 12010845499999996 12)) (.rd (.var .T)))) (.sub (.add (.add (.neg (.num 27827861290000001 15)) (.mul (.num 38151250000000001 16) (.rd (.var .logT)))) (.mul (.rd (.var .T)) (.add (.neg (.num 30814350150000008 19)) (.mul (.rd (.var .T)) (.add (.num 66626391500000016 23) (.mul (.rd (.var .T)) (.add (.neg (.num 88837085500000001 27)) (.mul (.num 49411476849999999 31) (.rd (.var .T)))))))))) (.div (.neg (.num 13212360600000004 12)) (.rd (.var .T)))),
  .set (.var .Kc) (.mul (.num 1 0) (.exp (.rd (.var .Kc)))),
  .set (.arr .rev 136) (.div (.mul (.mul (.rd (.arr .C 11)) (.rd (.arr .C 24))) (.rd (.var .kf))) (.rd (.var .Kc)))]

/-- utilities/mechanisms/yao/lib/src/rxn_rates.c:1652-1663 -/
def rate137 : List CStmt := [
  .set (.var .kf) (.exp (.sub (.add (.num 11652687407345388 15) (.mul (.num 19 1) (.rd (.var .logT)))) (.div (.num 37892433233894944 13) (.rd (.var .T))))),
  .set (.arr .fwd 137) (.mul (.mul (.rd (.arr .C 22)) (.rd (.arr .C 1))) (.rd (.var .kf))),
  .ite (.rd (.var .T)) (.num 1000 0) (.var .Kc) (.sub (.add (.add (.num 33107072910000004 16) (.mul (.neg (.num 14062811999999969 17)) (.rd (.var .logT)))) (.mul (.rd (.var .T)) (.add (.num 46477372646473326 19) (.mul (.rd (.var .T)) (.add (.neg (.num 49512831830006802 22)) (.mul (.rd (.var .T)) (.add (.num 2590931441474933 24) (.mul (.neg (.num 55968971545361332 29)) (.rd (.var .T)))))))))) (.div (.neg (.num 20277630729999983 13)) (.rd (.var .T)))) (.sub (.add (.add (.neg (.num 61315709060000012 16)) (.mul (.num 172005411 8) (.rd (.var .logT)))) (.mul (.rd (.var .T)) (.add (.neg (.num 21686989750078511 19)) (.mul (.rd (.var .T)) (.add (.num 42383279697396738 23) (.mul (.rd (.var .T)) (.add (.neg (.num 53459125772070642 27)) (.mul (.num 30193425550901323 31) (.rd (.var .T)))))))))) (.div (.neg (.num 21399056219999984 13)) (.rd (.var .T)))),
  .set (.var .Kc) (.mul (.num 1 0) (.exp (.rd (.var .Kc)))),
  .set (.arr .rev 137) (.div (.mul (.mul (.rd (.arr .C 5)) (.rd (.arr .C 21))) (.rd (.var .kf))) (.rd (.var .Kc)))]

/-- utilities/mechanisms/yao/lib/src/rxn_rates.c:1664-1675 -/
def rate138 : List CStmt := [
  .set (.var .kf) (.exp (.sub (.add (.num 11405340254290291 15) (.mul (.num 192 2) (.rd (.var .logT)))) (.div (.num 28633193240486353 13) (.rd (.var .T))))),
  .set (.arr .fwd 138) (.mul (.mul (.rd (.arr .C 22)) (.rd (.arr .C 2))) (.rd (.var .kf))),
  .ite (.rd (.var .T)) (.num 1000 0) (.var .Kc) (.sub (.add (.add (.neg (.num 16740596099999991 16)) (.mul (.num 97207926999999961 17) (.rd (.var .logT)))) (.mul (.rd (.var .T)) (.add (.num 6844116149999995 19) (.mul (.rd (.var .T)) (.add (.neg (.num 17241608583333331 22)) (.mul (.rd (.var .T)) (.add (.num 93862480916666716 26) (.mul (.neg (.num 1933981309999999 28)) (.rd (.var .T)))))))))) (.div (.neg (.num 13768890800000008 13)) (.rd (.var .T)))) (.sub (.add (.add (.neg (.num 19139573100000002 16)) (.mul (.num 1178083 6) (.rd (.var .logT)))) (.mul (.rd (.var .T)) (.add (.neg (.num 15727584531499989 19)) (.mul (.rd (.var .T)) (.add (.num 29041813385000003 23) (.mul (.rd (.var .T)) (.add (.neg (.num 35116956058333337 27)) (.mul (.num 18900509165000003 31) (.rd (.var .T)))))))))) (.div (.neg (.num 12148081599999969 13)) (.rd (.var .T)))),
  .set (.var .Kc) (.mul (.num 1 0) (.exp (.rd (.var .Kc)))),
  .set (.arr .rev 138) (.div (.mul (.mul (.rd (.arr .C 21)) (.rd (.arr .C 3))) (.rd (.var .kf))) (.rd (.var .Kc)))]

/-- utilities/mechanisms/yao/lib/src/rxn_rates.c:1676-1687 -/
def rate139 : List CStmt := [
  .set (.var .kf) (.exp (.sub (.add (.num 81718820061278201 16) (.mul (.num 212 2) (.rd (.var .logT)))) (.div (.num 43780102142747148 14) (.rd (.var .T))))),
  .set (.arr .fwd 139) (.mul (.mul (.rd (.arr .C 22)) (.rd (.arr .C 3))) (.rd (.var .kf))),
  .ite (.rd (.var .T)) (.num 1000 0) (.var .Kc) (.sub (.add (.add (.num 17934111220000002 16) (.mul (.num 88375710000000218 18) (.rd (.var .logT)))) (.mul (.rd (.var .T)) (.add (.num 12519845349999994 19) (.mul (.rd (.var .T)) (.add (.neg (.num 17061321500000013 22)) (.mul (.rd (.var .T)) (.add (.num 93704447583333368 26) (.mul (.neg (.num 20540361600000002 29)) (.rd (.var .T)))))))))) (.div (.neg (.num 93114328200000018 13)) (.rd (.var .T)))) (.sub (.add (.add (.neg (.num 34400855800000021 16)) (.mul (.num 10520385500000002 16) (.rd (.var .logT)))) (.mul (.rd (.var .T)) (.add (.neg (.num 15837909699999997 19)) (.mul (.rd (.var .T)) (.add (.num 35642504333333334 23) (.mul (.rd (.var .T)) (.add (.neg (.num 49125581200000011 27)) (.mul (.num 29256685980000001 31) (.rd (.var .T)))))))))) (.div (.neg (.num 94392416399999984 13)) (.rd (.var .T)))),
  .set (.var .Kc) (.mul (.num 1 0) (.exp (.rd (.var .Kc)))),
  .set (.arr .rev 139) (.div (.mul (.mul (.rd (.arr .C 21)) (.rd (.arr .C 6))) (.rd (.var .kf))) (.rd (.var .Kc)))]

/-- utilities/mechanisms/yao/lib/src/rxn_rates.c:1688-1699 -/
def rate140 : List CStmt := [
  .set (.var .kf) (.exp (.sub (.num 24412145291060348 15) (.div (.neg (.num 27677076067253944 14)) (.rd (.var .T))))),
  .set (.arr .fwd 140) (.mul (.mul (.rd (.arr .C 22)) (.rd (.arr .C 10))) (.rd (.var .kf))),
  .ite (.rd (.var .T)) (.num 1000 0) (.var .Kc) (.sub (.add (.add (.num 49240423270000004 16) (.mul (.neg (.num 50997294999999987 17)) (.rd (.var .logT)))) (.mul (.rd (.var .T)) (.add (.num 28462598599999995 19) (.mul (.rd (.var .T)) (.add (.neg (.num 21220486233333329 22)) (.mul (.rd (.var .T)) (.add (.num 89591278833333444 26) (.mul (.neg (.num 1608483364999999 28)) (.rd (.var .T)))))))))) (.div (.neg (.num 96879855000000025 13)) (.rd (.var .T)))) (.sub (.add (.add (.neg (.num 26760605200000009 16)) (.mul (.num 87645422000000028 17) (.rd (.var .logT)))) (.mul (.rd (.var .T)) (.add (.neg (.num 85199074999999956 20)) (.mul (.rd (.var .T)) (.add (.num 17805266833333333 23) (.mul (.rd (.var .T)) (.add (.neg (.num 23680373000000011 27)) (.mul (.num 13808755549999999 31) (.rd (.var .T)))))))))) (.div (.neg (.num 98665022000000026 13)) (.rd (.var .T)))),
  .set (.var .Kc) (.mul (.num 1 0) (.exp (.rd (.var .Kc)))),
  .set (.arr .rev 140) (.div (.mul (.mul (.rd (.arr .C 21)) (.rd (.arr .C 11))) (.rd (.var .kf))) (.rd (.var .Kc)))]

/-- utilities/mechanisms/yao/lib/src/rxn_rates.c:1700-1711 -/
def rate141 : List CStmt := [
  .set (.var .kf) (.exp (.sub (.add (.num 8722580021141189 15) (.mul (.num 174 2) (.rd (.var .logT)))) (.div (.num 52586444527782496 13) (.rd (.var .T))))),
  .set (.arr .fwd 141) (.mul (.mul (.rd (.arr .C 22)) (.rd (.arr .C 11))) (.rd (.var .kf))),
  .ite (.rd (.var .T)) (.num 1000 0) (.var .Kc) (.sub (.add (.add (.neg (.num 56968084999999977 16)) (.mul (.num 14913264899999996 16) (.rd (.var .logT)))) (.mul (.rd (.var .T)) (.add (.neg (.num 71834883850000007 19)) (.mul (.rd (.var .T)) (.add (.num 55367155399999999 22) (.mul (.rd (.var .T)) (.add (.neg (.num 25557633708333321 25)) (.mul (.num 51539307800000025 29) (.rd (.var .T)))))))))) (.div (.neg (.num 23278144000000011 13)) (.rd (.var .T)))) (.sub (.add (.add (.num 96321611149999988 16) (.mul (.neg (.num 13280913050000001 16)) (.rd (.var .logT)))) (.mul (.rd (.var .T)) (.add (.num 9315254150000004 19) (.mul (.rd (.var .T)) (.add (.neg (.num 11702909833333329 23)) (.mul (.rd (.var .T)) (.add (.num 13774798833333342 27) (.mul (.neg (.num 73692383000000025 32)) (.rd (.var .T)))))))))) (.div (.neg (.num 19600156899999984 13)) (.rd (.var .T)))),
  .set (.var .Kc) (.mul (.num 1 0) (.exp (.rd (.var .Kc)))),
  .set (.arr .rev 141) (.div (.mul (.mul (.rd (.arr .C 21)) (.rd (.arr .C 12))) (.rd (.var .kf))) (.rd (.var .Kc)))]

/-- utilities/mechanisms/yao/lib/src/rxn_rates.c:1712-1723 -/
def rate142 : List CStmt := [
  .set (.var .kf) (.num 200000000000 0),
  .set (.arr .fwd 142) (.mul (.mul (.rd (.arr .C 1)) (.rd (.arr .C 24))) (.rd (.var .kf))),
  .ite (.rd (.var .T)) (.num 1000 0) (.var .Kc) (.sub (.add (.add (.num 1788685353 9) (.mul (.neg (.num 13698765000000002 16)) (.rd (.var .logT)))) (.mul (.rd (.var .T)) (.add (.num 55567949964733555 20) (.mul (.rd (.var .T)) (.add (.neg (.num 13350443330006803 22)) (.mul (.rd (.var .T)) (.add (.num 13888695831415984 25) (.mul (.neg (.num 43442124995361336 29)) (.rd (.var .T)))))))))) (.div (.neg (.num 43644462899999999 12)) (.rd (.var .T)))) (.sub (.add (.add (.num 64491362400000085 17) (.mul (.neg (.num 12685307100000003 16)) (.rd (.var .logT)))) (.mul (.rd (.var .T)) (.add (.num 29180451154214859 20) (.mul (.rd (.var .T)) (.add (.num 12137736397396757 23) (.mul (.rd (.var .T)) (.add (.neg (.num 32239824605403963 27)) (.mul (.num 26350923250901317 31) (.rd (.var .T)))))))))) (.div (.neg (.num 43879679199999999 12)) (.rd (.var .T)))),
  .set (.var .Kc) (.mul (.num 82057360967184814 18) (.exp (.rd (.var .Kc)))),
  .set (.arr .rev 142) (.div (.mul (.rd (.arr .C 25)) (.rd (.var .kf))) (.rd (.var .Kc)))]

/-- utilities/mechanisms/yao/lib/src/rxn_rates.c:1724-1735 -/
def rate143 : List CStmt := [
  .set (.var .kf) (.num 60000000000 0),
  .set (.arr .fwd 143) (.mul (.mul (.rd (.arr .C 24)) (.rd (.arr .C 2))) (.rd (.var .kf))),
  .ite (.rd (.var .T)) (.num 1000 0) (.var .Kc) (.sub (.add (.add (.num 58634748699999717 17) (.mul (.neg (.num 76010080000000002 17)) (.rd (.var .logT)))) (.mul (.rd (.var .T)) (.add (.num 48482759203526665 19) (.mul (.rd (.var .T)) (.add (.neg (.num 47385590769993202 22)) (.mul (.rd (.var .T)) (.add (.num 28916578368584013 25) (.mul (.neg (.num 73055882054638657 29)) (.rd (.var .T)))))))))) (.div (.neg (.num 32229962700000004 12)) (.rd (.var .T)))) (.sub (.add (.add (.num 1912249716000002 15) (.mul (.neg (.num 75902167000000054 17)) (.rd (.var .logT)))) (.mul (.rd (.var .T)) (.add (.num 14377495453078513 19) (.mul (.rd (.var .T)) (.add (.neg (.num 30786689045730103 23)) (.mul (.rd (.var .T)) (.add (.num 27263547930403981 27) (.mul (.neg (.num 13056452059013247 32)) (.rd (.var .T)))))))))) (.div (.neg (.num 32010422200000001 12)) (.rd (.var .T)))),
  .set (.var .Kc) (.mul (.num 1 0) (.exp (.rd (.var .Kc)))),
  .set (.arr .rev 143) (.div (.mul (.mul (.rd (.arr .C 1)) (.rd (.arr .C 27))) (.rd (.var .kf))) (.rd (.var .Kc)))]

/-- utilities/mechanisms/yao/lib/src/rxn_rates.c:1736-1747 -/
def rate144 : List CStmt := [
  .set (.var .kf) (.exp (.sub (.sub (.num 68210052222116644 15) (.mul (.num 516 2) (.rd (.var .logT)))) (.div (.num 15159992610947134 12) (.rd (.var .T))))),
  .set (.arr .fwd 144) (.mul (.mul (.rd (.arr .C 24)) (.rd (.arr .C 3))) (.rd (.var .kf))),
  .ite (.rd (.var .T)) (.num 1000 0) (.var .Kc) (.sub (.add (.add (.num 13390695639999963 16) (.mul (.neg (.num 21713930999999942 17)) (.rd (.var .logT)))) (.mul (.rd (.var .T)) (.add (.num 48213411957053337 19) (.mul (.rd (.var .T)) (.add (.neg (.num 47193229023319735 22)) (.mul (.rd (.var .T)) (.add (.num 28641970195501358 25) (.mul (.neg (.num 72804452459277317 29)) (.rd (.var .T)))))))))) (.div (.num 18984418279999994 12) (.rd (.var .T)))) (.sub (.add (.add (.neg (.num 16564272179999997 16)) (.mul (.num 44567025999999954 17) (.rd (.var .logT)))) (.mul (.rd (.var .T)) (.add (.num 86651023691570388 20) (.mul (.rd (.var .T)) (.add (.neg (.num 25769501828126858 23)) (.mul (.rd (.var .T)) (.add (.num 23885243594141272 27) (.mul (.neg (.num 25497121802645575 34)) (.rd (.var .T)))))))))) (.div (.num 18961959059999994 12) (.rd (.var .T)))),
  .set (.var .Kc) (.mul (.num 12186597134166982 15) (.exp (.rd (.var .Kc)))),
  .set (.arr .rev 144) (.div (.mul (.mul (.mul (.rd (.arr .C 1)) (.rd (.arr .C 1))) (.rd (.arr .C 27))) (.rd (.var .kf))) (.rd (.var .Kc)))]

/-- utilities/mechanisms/yao/lib/src/rxn_rates.c:1748-1759 -/
def rate145 : List CStmt := [
  .set (.var .kf) (.exp (.sub (.sub (.num 23624687431029162 15) (.mul (.num 41 2) (.rd (.var .logT)))) (.div (.num 11503096033115598 12) (.rd (.var .T))))),
  .set (.arr .fwd 145) (.mul (.mul (.rd (.arr .C 24)) (.rd (.arr .C 8))) (.rd (.var .kf))),
  .ite (.rd (.var .T)) (.num 1000 0) (.var .Kc) (.sub (.add (.add (.neg (.num 22742612400000031 16)) (.mul (.num 25101555000000042 17) (.rd (.var .logT)))) (.mul (.rd (.var .T)) (.add (.num 30942588850000011 19) (.mul (.rd (.var .T)) (.add (.neg (.num 41846576000000003 22)) (.mul (.rd (.var .T)) (.add (.num 27045488716666666 25) (.mul (.neg (.num 68399356399999999 29)) (.rd (.var .T)))))))))) (.div (.neg (.num 24135881720000001 12)) (.rd (.var .T)))) (.sub (.add (.add (.num 77400689200000006 16) (.mul (.neg (.num 11074098800000005 16)) (.rd (.var .logT)))) (.mul (.rd (.var .T)) (.add (.num 11814709700000013 19) (.mul (.rd (.var .T)) (.add (.neg (.num 21772816483333342 23)) (.mul (.rd (.var .T)) (.add (.num 11516342699999998 27) (.mul (.num 94784333199999987 32) (.rd (.var .T)))))))))) (.div (.neg (.num 23459187540000003 12)) (.rd (.var .T)))),
  .set (.var .Kc) (.mul (.num 1 0) (.exp (.rd (.var .Kc)))),
  .set (.arr .rev 145) (.div (.mul (.mul (.rd (.arr .C 27)) (.rd (.arr .C 3))) (.rd (.var .kf))) (.rd (.var .Kc)))]

/-- utilities/mechanisms/yao/lib/src/rxn_rates.c:1760-1771 -/
def rate146 : List CStmt := [
  .set (.var .kf) (.num 2660000000 0),
  .set (.arr .fwd 146) (.mul (.mul (.rd (.arr .C 24)) (.rd (.arr .C 4))) (.rd (.var .kf))),
  .ite (.rd (.var .T)) (.num 1000 0) (.var .Kc) (.sub (.add (.add (.neg (.num 69764257000000063 17)) (.mul (.neg (.num 3892181499999996 16)) (.rd (.var .logT)))) (.mul (.rd (.var .T)) (.add (.num 1431872675000001 18) (.mul (.rd (.var .T)) (.add (.neg (.num 32202088483333329 22)) (.mul (.rd (.var .T)) (.add (.num 26051274424999998 25) (.mul (.neg (.num 73684739350000005 29)) (.rd (.var .T)))))))))) (.div (.neg (.num 19529554599999999 12)) (.rd (.var .T)))) (.sub (.add (.add (.num 10103289999999809 17) (.mul (.neg (.num 50320375999999989 17)) (.rd (.var .logT)))) (.mul (.rd (.var .T)) (.add (.neg (.num 86561795000000266 21)) (.mul (.rd (.var .T)) (.add (.num 10065928016666665 23) (.mul (.rd (.var .T)) (.add (.neg (.num 2430447625 20)) (.mul (.num 20910460549999995 31) (.rd (.var .T)))))))))) (.div (.neg (.num 19606333733000003 12)) (.rd (.var .T)))),
  .set (.var .Kc) (.mul (.num 1 0) (.exp (.rd (.var .Kc)))),
  .set (.arr .rev 146) (.div (.mul (.mul (.rd (.arr .C 25)) (.rd (.arr .C 8))) (.rd (.var .kf))) (.rd (.var .Kc)))]

/-- utilities/mechanisms/yao/lib/src/rxn_rates.c:1772-1783 -/
def rate147 : List CStmt := [
  .set (.var .kf) (.num 6600000000 0),
  .set (.arr .fwd 147) (.mul (.mul (.rd (.arr .C 24)) (.rd (.arr .C 4))) (.rd (.var .kf))),
  .ite (.rd (.var .T)) (.num 1000 0) (.var .Kc) (.sub (.add (.add (.neg (.num 1893346996 8)) (.mul (.num 5466513700000001 15) (.rd (.var .logT)))) (.mul (.rd (.var .T)) (.add (.neg (.num 13341845975000001 18)) (.mul (.rd (.var .T)) (.add (.num 60192066350000004 22) (.mul (.rd (.var .T)) (.add (.neg (.num 18217419025000001 25)) (.mul (.num 24079520250000002 29) (.rd (.var .T)))))))))) (.div (.num 43919911799999973 13) (.rd (.var .T)))) (.sub (.add (.add (.num 37479091020000006 15) (.mul (.neg (.num 38758556600000009 16)) (.rd (.var .logT)))) (.mul (.rd (.var .T)) (.add (.num 20110916850000007 19) (.mul (.rd (.var .T)) (.add (.neg (.num 50844550466666657 23)) (.mul (.rd (.var .T)) (.add (.num 69353366449999995 27) (.mul (.neg (.num 3741174318000001 30)) (.rd (.var .T)))))))))) (.div (.num 67415936269999956 13) (.rd (.var .T)))),
  .set (.var .Kc) (.mul (.num 12186597134166982 15) (.exp (.rd (.var .Kc)))),
  .set (.arr .rev 147) (.div (.mul (.mul (.mul (.rd (.arr .C 14)) (.rd (.arr .C 19))) (.rd (.arr .C 3))) (.rd (.var .kf))) (.rd (.var .Kc)))]

/-- utilities/mechanisms/yao/lib/src/rxn_rates.c:1784-1795 -/
def rate148 : List CStmt := [
  .set (.var .kf) (.num 60000000000 0),
  .set (.arr .fwd 148) (.mul (.mul (.rd (.arr .C 24)) (.rd (.arr .C 13))) (.rd (.var .kf))),
  .ite (.rd (.var .T)) (.num 1000 0) (.var .Kc) (.sub (.add (.add (.neg (.num 40230828000000107 17)) (.mul (.neg (.num 51152887000000025 17)) (.rd (.var .logT)))) (.mul (.rd (.var .T)) (.add (.num 18724653200000005 19) (.mul (.rd (.var .T)) (.add (.neg (.num 34622327116666669 22)) (.mul (.rd (.var .T)) (.add (.num 2573987515333333 24) (.mul (.neg (.num 69652690744999995 29)) (.rd (.var .T)))))))))) (.div (.neg (.num 36354453959999999 12)) (.rd (.var .T)))) (.sub (.add (.add (.neg (.num 42244377299999991 16)) (.mul (.num 17448052999999941 17) (.rd (.var .logT)))) (.mul (.rd (.var .T)) (.add (.neg (.num 11554094149999992 19)) (.mul (.rd (.var .T)) (.add (.num 36898242649999997 23) (.mul (.rd (.var .T)) (.add (.neg (.num 62165555833333327 27)) (.mul (.num 42843973249999997 31) (.rd (.var .T)))))))))) (.div (.neg (.num 36569809849999998 12)) (.rd (.var .T)))),
  .set (.var .Kc) (.mul (.num 1 0) (.exp (.rd (.var .Kc)))),
  .set (.arr .rev 148) (.div (.mul (.mul (.rd (.arr .C 25)) (.rd (.arr .C 16))) (.rd (.var .kf))) (.rd (.var .Kc)))]

/-- utilities/mechanisms/yao/lib/src/rxn_rates.c:1796-1807 -/
def rate149 : List CStmt := [
  .set (.var .kf) (.exp (.sub (.sub (.num 25328436022934504 15) (.mul (.num 32 2) (.rd (.var .logT)))) (.div (.neg (.num 13199449186255836 14)) (.rd (.var .T))))),
  .set (.arr .fwd 149) (.mul (.mul (.rd (.arr .C 11)) (.rd (.arr .C 24))) (.rd (.var .kf))),
  .ite (.rd (.var .T)) (.num 1000 0) (.var .Kc) (.sub (.add (.add (.num 61403265699999974 16) (.mul (.neg (.num 28556359000000002 16)) (.rd (.var .logT)))) (.mul (.rd (.var .T)) (.add (.num 45143036250000004 19) (.mul (.rd (.var .T)) (.add (.neg (.num 21901256433333337 22)) (.mul (.rd (.var .T)) (.add (.num 12976534375 19) (.mul (.neg (.num 36401176700000005 29)) (.rd (.var .T)))))))))) (.div (.neg (.num 37481028200000001 12)) (.rd (.var .T)))) (.sub (.add (.add (.num 25039100529999999 15) (.mul (.neg (.num 573292132 8)) (.rd (.var .logT)))) (.mul (.rd (.var .T)) (.add (.num 63929378150000011 19) (.mul (.rd (.var .T)) (.add (.neg (.num 12029817199999999 22)) (.mul (.rd (.var .T)) (.add (.num 13376678800000003 26) (.mul (.neg (.num 5826556180000002 30)) (.rd (.var .T)))))))))) (.div (.neg (.num 36397756399999998 12)) (.rd (.var .T)))),
  .set (.var .Kc) (.mul (.num 82057360967184814 18) (.exp (.rd (.var .Kc)))),
  .set (.arr .rev 149) (.div (.mul (.rd (.arr .C 29)) (.rd (.var .kf))) (.rd (.var .Kc)))]

/-- utilities/mechanisms/yao/lib/src/rxn_rates.c:1808-1819 -/
def rate150 : List CStmt := [
  .set (.var .kf) (.exp (.sub (.num 23311029872174121 15) (.div (.num 16408480351362714 13) (.rd (.var .T))))),
  .set (.arr .fwd 150) (.mul (.mul (.rd (.arr .C 25)) (.rd (.arr .C 1))) (.rd (.var .kf))),
  .ite (.rd (.var .T)) (.num 1000 0) (.var .Kc) (.sub (.add (.add (.num 8381566552999999 15) (.mul (.neg (.num 19441896999999999 16)) (.rd (.var .logT)))) (.mul (.rd (.var .T)) (.add (.num 25418964996473336 19) (.mul (.rd (.var .T)) (.add (.neg (.num 35542373300068009 23)) (.mul (.rd (.var .T)) (.add (.neg (.num 24216766685840129 26)) (.mul (.num 11069373504638663 29) (.rd (.var .T)))))))))) (.div (.neg (.num 16236139899999998 12)) (.rd (.var .T)))) (.sub (.add (.add (.neg (.num 23275497599999984 17)) (.mul (.neg (.num 52250910999999967 17)) (.rd (.var .logT)))) (.mul (.rd (.var .T)) (.add (.num 56157251154214901 20) (.mul (.rd (.var .T)) (.add (.neg (.num 53687469359365802 24)) (.mul (.rd (.var .T)) (.add (.num 31401103945960297 28) (.mul (.neg (.num 60033974909868239 33)) (.rd (.var .T)))))))))) (.div (.neg (.num 16573865999999998 12)) (.rd (.var .T)))),
  .set (.var .Kc) (.mul (.num 82057360967184814 18) (.exp (.rd (.var .Kc)))),
  .set (.arr .rev 150) (.div (.mul (.rd (.arr .C 26)) (.rd (.var .kf))) (.rd (.var .Kc)))]

/-- utilities/mechanisms/yao/lib/src/rxn_rates.c:1820-1831 -/
def rate151 : List CStmt := [
  .set (.var .kf) (.exp (.sub (.sub (.num 43525973215572655 15) (.mul (.num 239 2) (.rd (.var .logT)))) (.div (.num 56259947351254386 13) (.rd (.var .T))))),
  .set (.arr .fwd 151) (.mul (.mul (.rd (.arr .C 25)) (.rd (.arr .C 1))) (.rd (.var .kf))),
  .ite (.rd (.var .T)) (.num 1000 0) (.var .Kc) (.sub (.add (.add (.neg (.num 13636246737000002 15)) (.mul (.num 36394848800000004 16) (.rd (.var .logT)))) (.mul (.rd (.var .T)) (.add (.neg (.num 13242375360352667 18)) (.mul (.rd (.var .T)) (.add (.num 9723742293665987 21) (.mul (.rd (.var .T)) (.add (.neg (.num 49450774626917337 25)) (.mul (.num 11187074320463866 28) (.rd (.var .T)))))))))) (.div (.neg (.num 50137111699999987 13)) (.rd (.var .T)))) (.sub (.add (.add (.num 37455902133999999 15) (.mul (.neg (.num 49104281299999997 16)) (.rd (.var .logT)))) (.mul (.rd (.var .T)) (.add (.num 34884877465421482 19) (.mul (.rd (.var .T)) (.add (.neg (.num 79133727435936596 23)) (.mul (.rd (.var .T)) (.add (.num 11222597322792936 26) (.mul (.neg (.num 6737973044909869 30)) (.rd (.var .T)))))))))) (.div (.neg (.num 2834619160000002 12)) (.rd (.var .T)))),
  .set (.var .Kc) (.mul (.num 1 0) (.exp (.rd (.var .Kc)))),
  .set (.arr .rev 151) (.div (.mul (.mul (.rd (.arr .C 11)) (.rd (.arr .C 20))) (.rd (.var .kf))) (.rd (.var .Kc)))]

/-- utilities/mechanisms/yao/lib/src/rxn_rates.c:1832-1843 -/
def rate152 : List CStmt := [
  .set (.var .kf) (.exp (.sub (.add (.num 51532915944977793 16) (.mul (.num 25 1) (.rd (.var .logT)))) (.div (.num 1253016716499315 12) (.rd (.var .T))))),
  .set (.arr .fwd 152) (.mul (.mul (.rd (.arr .C 25)) (.rd (.arr .C 1))) (.rd (.var .kf))),
  .ite (.rd (.var .T)) (.num 1000 0) (.var .Kc) (.sub (.add (.add (.num 24433594710000004 16) (.mul (.neg (.num 28579237999999973 17)) (.rd (.var .logT)))) (.mul (.rd (.var .T)) (.add (.num 34345808746473329 19) (.mul (.rd (.var .T)) (.add (.neg (.num 19113141663340132 22)) (.mul (.rd (.var .T)) (.add (.num 29089786647493231 26) (.mul (.num 65615369546386567 30) (.rd (.var .T)))))))))) (.div (.neg (.num 82207920730000005 13)) (.rd (.var .T)))) (.sub (.add (.add (.neg (.num 12938502859999987 16)) (.mul (.num 60580988999999974 17) (.rd (.var .logT)))) (.mul (.rd (.var .T)) (.add (.neg (.num 31650572500785195 20)) (.mul (.rd (.var .T)) (.add (.neg (.num 38134573026032476 24)) (.mul (.rd (.var .T)) (.add (.num 1727595922792935 26) (.mul (.neg (.num 16338154949098673 31)) (.rd (.var .T)))))))))) (.div (.neg (.num 80177995219999975 13)) (.rd (.var .T)))),
  .set (.var .Kc) (.mul (.num 1 0) (.exp (.rd (.var .Kc)))),
  .set (.arr .rev 152) (.div (.mul (.mul (.rd (.arr .C 5)) (.rd (.arr .C 24))) (.rd (.var .kf))) (.rd (.var .Kc)))]

/-- utilities/mechanisms/yao/lib/src/rxn_rates.c:1844-1855 -/
def rate153 : List CStmt := [
  .set (.var .kf) (.exp (.sub (.add (.num 10596634733096073 15) (.mul (.num 165 2) (.rd (.var .logT)))) (.div (.num 16455279770894617 14) (.rd (.var .T))))),
  .set (.arr .fwd 153) (.mul (.mul (.rd (.arr .C 25)) (.rd (.arr .C 2))) (.rd (.var .kf))),
  .ite (.rd (.var .T)) (.num 1000 0) (.var .Kc) (.sub (.add (.add (.neg (.num 12023378660000028 16)) (.mul (.num 60977570000000059 17) (.rd (.var .logT)))) (.mul (.rd (.var .T)) (.add (.num 42925964207053326 19) (.mul (.rd (.var .T)) (.add (.neg (.num 34035147439986403 22)) (.mul (.rd (.var .T)) (.add (.num 15027882537168027 25) (.mul (.neg (.num 29613757059277322 29)) (.rd (.var .T)))))))))) (.div (.num 11414500199999995 12) (.rd (.var .T)))) (.sub (.add (.add (.num 12673360920000012 16) (.mul (.num 50950903999999975 17) (.rd (.var .logT)))) (.mul (.rd (.var .T)) (.add (.num 11459450337657036 19) (.mul (.rd (.var .T)) (.add (.neg (.num 4292442544312686 22)) (.mul (.rd (.var .T)) (.add (.num 59503372535807931 27) (.mul (.neg (.num 27656568456802642 31)) (.rd (.var .T)))))))))) (.div (.num 11869256999999994 12) (.rd (.var .T)))),
  .set (.var .Kc) (.mul (.num 12186597134166982 15) (.exp (.rd (.var .Kc)))),
  .set (.arr .rev 153) (.div (.mul (.mul (.mul (.rd (.arr .C 1)) (.rd (.arr .C 1))) (.rd (.arr .C 27))) (.rd (.var .kf))) (.rd (.var .Kc)))]

/-- utilities/mechanisms/yao/lib/src/rxn_rates.c:1856-1867 -/
def rate154 : List CStmt := [
  .set (.var .kf) (.exp (.sub (.add (.num 1046310334047155 14) (.mul (.num 165 2) (.rd (.var .logT)))) (.div (.neg (.num 48912941704310606 14)) (.rd (.var .T))))),
  .set (.arr .fwd 154) (.mul (.mul (.rd (.arr .C 25)) (.rd (.arr .C 2))) (.rd (.var .kf))),
  .ite (.rd (.var .T)) (.num 1000 0) (.var .Kc) (.sub (.add (.add (.neg (.num 1396176921 8)) (.mul (.num 38660774200000003 16) (.rd (.var .logT)))) (.mul (.rd (.var .T)) (.add (.neg (.num 125381877 10)) (.mul (.rd (.var .T)) (.add (.num 87273945566666673 22) (.mul (.rd (.var .T)) (.add (.neg (.num 42008236383333329 25)) (.mul (.num 90588916700000007 29) (.rd (.var .T)))))))))) (.div (.neg (.num 1351589374 5)) (.rd (.var .T)))) (.sub (.add (.add (.num 36364637559999998 15) (.mul (.neg (.num 45748469800000002 16)) (.rd (.var .logT)))) (.mul (.rd (.var .T)) (.add (.num 37659307868499999 19) (.mul (.rd (.var .T)) (.add (.neg (.num 92642871148333352 23)) (.mul (.rd (.var .T)) (.add (.num 13584618732500002 26) (.mul (.neg (.num 83279372004999989 31)) (.rd (.var .T)))))))))) (.div (.neg (.num 11424570649999998 12)) (.rd (.var .T)))),
  .set (.var .Kc) (.mul (.num 1 0) (.exp (.rd (.var .Kc)))),
  .set (.arr .rev 154) (.div (.mul (.mul (.rd (.arr .C 21)) (.rd (.arr .C 13))) (.rd (.var .kf))) (.rd (.var .Kc)))]

/-- utilities/mechanisms/yao/lib/src/rxn_rates.c:1868-1879 -/
def rate155 : List CStmt := [
  .set (.var .kf) (.exp (.sub (.add (.num 19008467408854486 15) (.mul (.num 7 1) (.rd (.var .logT)))) (.div (.num 29589310413718763 13) (.rd (.var .T))))),
  .set (.arr .fwd 155) (.mul (.mul (.rd (.arr .C 25)) (.rd (.arr .C 2))) (.rd (.var .kf))),
  .ite (.rd (.var .T)) (.num 1000 0) (.var .Kc) (.sub (.add (.add (.neg (.num 25414074299999982 16)) (.mul (.num 82691501000000001 17) (.rd (.var .logT)))) (.mul (.rd (.var .T)) (.add (.neg (.num 52874477500000107 20)) (.mul (.rd (.var .T)) (.add (.num 13158081583333334 22) (.mul (.rd (.var .T)) (.add (.neg (.num 13614087658333331 25)) (.mul (.num 43190695399999995 29) (.rd (.var .T)))))))))) (.div (.neg (.num 75699180799999995 13)) (.rd (.var .T)))) (.sub (.add (.add (.num 29237633100000004 16) (.mul (.num 63838779999999762 18) (.rd (.var .logT)))) (.mul (.rd (.var .T)) (.add (.num 27943479684999951 20) (.mul (.rd (.var .T)) (.add (.neg (.num 17154923615000006 23)) (.mul (.rd (.var .T)) (.add (.num 35618128941666656 27) (.mul (.neg (.num 27631071334999993 31)) (.rd (.var .T)))))))))) (.div (.neg (.num 70927020599999996 13)) (.rd (.var .T)))),
  .set (.var .Kc) (.mul (.num 1 0) (.exp (.rd (.var .Kc)))),
  .set (.arr .rev 155) (.div (.mul (.mul (.rd (.arr .C 24)) (.rd (.arr .C 3))) (.rd (.var .kf))) (.rd (.var .Kc)))]

/-- utilities/mechanisms/yao/lib/src/rxn_rates.c:1880-1891 -/
def rate156 : List CStmt := [
  .set (.var .kf) (.exp (.sub (.add (.num 80391573904732372 16) (.mul (.num 2 0) (.rd (.var .logT)))) (.div (.neg (.num 14995943032803046 14)) (.rd (.var .T))))),
  .set (.arr .fwd 156) (.mul (.mul (.rd (.arr .C 25)) (.rd (.arr .C 3))) (.rd (.var .kf))),
  .ite (.rd (.var .T)) (.num 1000 0) (.var .Kc) (.sub (.add (.add (.num 9260633020000002 16) (.mul (.neg (.num 56788549999999383 18)) (.rd (.var .logT)))) (.mul (.rd (.var .T)) (.add (.num 38828144999997986 21) (.mul (.rd (.var .T)) (.add (.num 13338368666666665 22) (.mul (.rd (.var .T)) (.add (.neg (.num 13629890991666666 25)) (.mul (.num 41990146900000004 29) (.rd (.var .T)))))))))) (.div (.neg (.num 1550446182 5)) (.rd (.var .T)))) (.sub (.add (.add (.num 13976350399999986 16) (.mul (.neg (.num 62205669999999547 18)) (.rd (.var .logT)))) (.mul (.rd (.var .T)) (.add (.num 26840227999999958 20) (.mul (.rd (.var .T)) (.add (.neg (.num 10554232666666676 23)) (.mul (.rd (.var .T)) (.add (.num 21609503799999992 27) (.mul (.neg (.num 17274894519999995 31)) (.rd (.var .T)))))))))) (.div (.neg (.num 15317135539999999 12)) (.rd (.var .T)))),
  .set (.var .Kc) (.mul (.num 1 0) (.exp (.rd (.var .Kc)))),
  .set (.arr .rev 156) (.div (.mul (.mul (.rd (.arr .C 6)) (.rd (.arr .C 24))) (.rd (.var .kf))) (.rd (.var .Kc)))]

/-- utilities/mechanisms/yao/lib/src/rxn_rates.c:1892-1903 -/
def rate157 : List CStmt := [
  .set (.var .kf) (.exp (.sub (.add (.num 22617630984737906 16) (.mul (.num 26 1) (.rd (.var .logT)))) (.div (.num 69997841471909524 13) (.rd (.var .T))))),
  .set (.arr .fwd 157) (.mul (.mul (.rd (.arr .C 25)) (.rd (.arr .C 4))) (.rd (.var .kf))),
  .ite (.rd (.var .T)) (.num 1000 0) (.var .Kc) (.sub (.add (.add (.num 90207111000000006 17) (.mul (.neg (.num 15580881999999985 17)) (.rd (.var .logT)))) (.mul (.rd (.var .T)) (.add (.num 1547469546499999 18) (.mul (.rd (.var .T)) (.add (.num 59759116666666738 23) (.mul (.rd (.var .T)) (.add (.neg (.num 11639272416666658 25)) (.mul (.num 40103586949999999 29) (.rd (.var .T)))))))))) (.div (.num 17341286000000116 14) (.rd (.var .T)))) (.sub (.add (.add (.num 12850318200000022 16) (.mul (.neg (.num 83677349999999429 18)) (.rd (.var .logT)))) (.mul (.rd (.var .T)) (.add (.num 10424439050000002 19) (.mul (.rd (.var .T)) (.add (.neg (.num 33266638333333328 23)) (.mul (.rd (.var .T)) (.add (.num 53651459666666647 27) (.mul (.neg (.num 35350911999999998 31)) (.rd (.var .T)))))))))) (.div (.num 43237488699999972 14) (.rd (.var .T)))),
  .set (.var .Kc) (.mul (.num 1 0) (.exp (.rd (.var .Kc)))),
  .set (.arr .rev 157) (.div (.mul (.mul (.rd (.arr .C 24)) (.rd (.arr .C 7))) (.rd (.var .kf))) (.rd (.var .Kc)))]

/-- utilities/mechanisms/yao/lib/src/rxn_rates.c:1904-1915 -/
def rate158 : List CStmt := [
  .set (.var .kf) (.exp (.sub (.add (.neg (.num 61192979186178666 16)) (.mul (.num 35 1) (.rd (.var .logT)))) (.div (.num 28557710305757478 13) (.rd (.var .T))))),
  .set (.arr .fwd 158) (.mul (.mul (.rd (.arr .C 25)) (.rd (.arr .C 11))) (.rd (.var .kf))),
  .ite (.rd (.var .T)) (.num 1000 0) (.var .Kc) (.sub (.add (.add (.neg (.num 65641563199999986 16)) (.mul (.num 134616223 8) (.rd (.var .logT)))) (.mul (.rd (.var .T)) (.add (.neg (.num 83966447750000017 19)) (.mul (.rd (.var .T)) (.add (.num 85766845566666665 22) (.mul (.rd (.var .T)) (.add (.neg (.num 48557969458333337 25)) (.mul (.num 11406981629999997 28) (.rd (.var .T)))))))))) (.div (.neg (.num 85208434000000016 13)) (.rd (.var .T)))) (.sub (.add (.add (.num 14469881735000001 15) (.mul (.neg (.num 24423355249999998 16)) (.rd (.var .logT)))) (.mul (.rd (.var .T)) (.add (.num 27837186649999996 19) (.mul (.rd (.var .T)) (.add (.neg (.num 57899646833333349 23)) (.mul (.rd (.var .T)) (.add (.num 84509883833333303 27) (.mul (.neg (.num 53900818799999991 31)) (.rd (.var .T)))))))))) (.div (.neg (.num 78379095899999993 13)) (.rd (.var .T)))),
  .set (.var .Kc) (.mul (.num 1 0) (.exp (.rd (.var .Kc)))),
  .set (.arr .rev 158) (.div (.mul (.mul (.rd (.arr .C 24)) (.rd (.arr .C 12))) (.rd (.var .kf))) (.rd (.var .Kc)))]

/-- utilities/mechanisms/yao/lib/src/rxn_rates.c:1916-1927 -/
def rate159 : List CStmt := [
  .set (.var .kf) (.exp (.sub (.add (.num 18497641785088494 15) (.mul (.num 454 3) (.rd (.var .logT)))) (.div (.num 29287378674803267 13) (.rd (.var .T))))),
  .set (.arr .fwd 159) (.mul (.mul (.rd (.arr .C 1)) (.rd (.arr .C 27))) (.rd (.var .kf))),
  .ite (.rd (.var .T)) (.num 1000 0) (.var .Kc) (.sub (.add (.add (.neg (.num 15968728277 9)) (.mul (.num 440903752 8) (.rd (.var .logT)))) (.mul (.rd (.var .T)) (.add (.neg (.num 18522750895352668 18)) (.mul (.rd (.var .T)) (.add (.num 1336170071699932 20) (.mul (.rd (.var .T)) (.add (.neg (.num 64741297835250675 25)) (.mul (.num 13989035825463868 28) (.rd (.var .T)))))))))) (.div (.neg (.num 72085846099999999 13)) (.rd (.var .T)))) (.sub (.add (.add (.num 28912098804000003 15) (.mul (.neg (.num 35029012699999997 16)) (.rd (.var .logT)))) (.mul (.rd (.var .T)) (.add (.num 12440571915421483 19) (.mul (.rd (.var .T)) (.add (.neg (.num 28530319935936591 23)) (.mul (.rd (.var .T)) (.add (.num 5301384272792937 26) (.mul (.neg (.num 43655045799098675 31)) (.rd (.var .T)))))))))) (.div (.neg (.num 57378016099999986 13)) (.rd (.var .T)))),
  .set (.var .Kc) (.mul (.num 1 0) (.exp (.rd (.var .Kc)))),
  .set (.arr .rev 159) (.div (.mul (.mul (.rd (.arr .C 20)) (.rd (.arr .C 13))) (.rd (.var .kf))) (.rd (.var .Kc)))]

/-- utilities/mechanisms/yao/lib/src/rxn_rates.c:1928-1939 -/
def rate160 : List CStmt := [
  .set (.var .kf) (.exp (.sub (.num 24124463218608568 15) (.div (.num 17813972596014357 13) (.rd (.var .T))))),
  .set (.arr .fwd 160) (.mul (.mul (.rd (.arr .C 27)) (.rd (.arr .C 2))) (.rd (.var .kf))),
  .ite (.rd (.var .T)) (.num 1000 0) (.var .Kc) (.sub (.add (.add (.neg (.num 16699182519999997 15)) (.mul (.num 54776886299999994 16) (.rd (.var .logT)))) (.mul (.rd (.var .T)) (.add (.neg (.num 12636373305 12)) (.mul (.rd (.var .T)) (.add (.num 60189281633333327 22) (.mul (.rd (.var .T)) (.add (.neg (.num 24787934838333333 25)) (.mul (.num 52061612904999991 29) (.rd (.var .T)))))))))) (.div (.num 41107741200000019 13) (.rd (.var .T)))) (.sub (.add (.add (.num 21166083100000002 15) (.mul (.neg (.num 78396910999999969 17)) (.rd (.var .logT)))) (.mul (.rd (.var .T)) (.add (.neg (.num 17895103881500002 19)) (.mul (.rd (.var .T)) (.add (.num 25045593701666666 23) (.mul (.rd (.var .T)) (.add (.neg (.num 11416613724999999 27)) (.mul (.neg (.num 87194651849999956 32)) (.rd (.var .T)))))))))) (.div (.num 57463341399999954 13) (.rd (.var .T)))),
  .set (.var .Kc) (.mul (.num 12186597134166982 15) (.exp (.rd (.var .Kc)))),
  .set (.arr .rev 160) (.div (.mul (.mul (.mul (.rd (.arr .C 19)) (.rd (.arr .C 16))) (.rd (.arr .C 3))) (.rd (.var .kf))) (.rd (.var .Kc)))]

/-- utilities/mechanisms/yao/lib/src/rxn_rates.c:1940-1951 -/
def rate161 : List CStmt := [
  .set (.var .kf) (.exp (.sub (.add (.num 15048070819142122 15) (.mul (.num 118 2) (.rd (.var .logT)))) (.div (.neg (.num 2249391454920457 13)) (.rd (.var .T))))),
  .set (.arr .fwd 161) (.mul (.mul (.rd (.arr .C 27)) (.rd (.arr .C 3))) (.rd (.var .kf))),
  .ite (.rd (.var .T)) (.num 1000 0) (.var .Kc) (.sub (.add (.add (.neg (.num 13231711787999998 15)) (.mul (.num 45939850699999996 16) (.rd (.var .logT)))) (.mul (.rd (.var .T)) (.add (.neg (.num 12068800385 12)) (.mul (.rd (.var .T)) (.add (.num 60369568716666665 22) (.mul (.rd (.var .T)) (.add (.neg (.num 24803738171666672 25)) (.mul (.num 50861064405000005 29) (.rd (.var .T)))))))))) (.div (.neg (.num 382376962 5)) (.rd (.var .T)))) (.sub (.add (.add (.num 19639954830000001 15) (.mul (.neg (.num 91001355999999989 17)) (.rd (.var .logT)))) (.mul (.rd (.var .T)) (.add (.neg (.num 18005429050000001 19)) (.mul (.rd (.var .T)) (.add (.num 31646284650000018 23) (.mul (.rd (.var .T)) (.add (.neg (.num 25425238866666664 27)) (.mul (.num 16367116300000003 32) (.rd (.var .T)))))))))) (.div (.neg (.num 24780993400000011 13)) (.rd (.var .T)))),
  .set (.var .Kc) (.mul (.num 12186597134166982 15) (.exp (.rd (.var .Kc)))),
  .set (.arr .rev 161) (.div (.mul (.mul (.mul (.rd (.arr .C 19)) (.rd (.arr .C 6))) (.rd (.arr .C 16))) (.rd (.var .kf))) (.rd (.var .Kc)))]

/-- utilities/mechanisms/yao/lib/src/rxn_rates.c:1952-1963 -/
def rate162 : List CStmt := [
  .set (.var .kf) (.exp (.sub (.sub (.num 4966261977252514 14) (.mul (.num 292 2) (.rd (.var .logT)))) (.div (.num 62927606585638287 13) (.rd (.var .T))))),
  .set (.arr .fwd 162) (.mul (.mul (.rd (.arr .C 1)) (.rd (.arr .C 26))) (.rd (.var .kf))),
  .ite (.rd (.var .T)) (.num 1000 0) (.var .Kc) (.sub (.add (.add (.neg (.num 18808516356999998 15)) (.mul (.num 443093878 8) (.rd (.var .logT)))) (.mul (.rd (.var .T)) (.add (.neg (.num 14092305085352667 18)) (.mul (.rd (.var .T)) (.add (.num 88483746103326551 22) (.mul (.rd (.var .T)) (.add (.neg (.num 39323919043584007 25)) (.mul (.num 81113685204638669 29) (.rd (.var .T)))))))))) (.div (.neg (.num 64993805999999986 13)) (.rd (.var .T)))) (.sub (.add (.add (.num 43873859773999996 15) (.mul (.neg (.num 59693737699999998 16)) (.rd (.var .logT)))) (.mul (.rd (.var .T)) (.add (.num 43028437965421489 19) (.mul (.rd (.var .T)) (.add (.neg (.num 9495310626926992 22)) (.mul (.rd (.var .T)) (.add (.num 13241483489459598 26) (.mul (.neg (.num 7874714844909866 30)) (.rd (.var .T)))))))))) (.div (.neg (.num 38167791999999999 13)) (.rd (.var .T)))),
  .set (.var .Kc) (.mul (.num 1 0) (.exp (.rd (.var .Kc)))),
  .set (.arr .rev 162) (.div (.mul (.mul (.rd (.arr .C 21)) (.rd (.arr .C 11))) (.rd (.var .kf))) (.rd (.var .Kc)))]

/-- utilities/mechanisms/yao/lib/src/rxn_rates.c:1964-1975 -/
def rate163 : List CStmt := [
  .set (.var .kf) (.num 1800000000 0),
  .set (.arr .fwd 163) (.mul (.mul (.rd (.arr .C 1)) (.rd (.arr .C 26))) (.rd (.var .kf))),
  .ite (.rd (.var .T)) (.num 1000 0) (.var .Kc) (.sub (.add (.add (.neg (.num 41495217289999982 16)) (.mul (.num 28852082000000001 17) (.rd (.var .logT)))) (.mul (.rd (.var .T)) (.add (.num 14483638746473331 19) (.mul (.rd (.var .T)) (.add (.neg (.num 28909347663340133 22)) (.mul (.rd (.var .T)) (.add (.num 1921935116474932 24) (.mul (.neg (.num 47949961545361347 29)) (.rd (.var .T)))))))))) (.div (.neg (.num 35629115073000001 12)) (.rd (.var .T)))) (.sub (.add (.add (.neg (.num 41618168599999805 17)) (.mul (.neg (.num 14021170999999999 17)) (.rd (.var .logT)))) (.mul (.rd (.var .T)) (.add (.neg (.num 58627372500785237 20)) (.mul (.rd (.var .T)) (.add (.num 13693026030730089 23) (.mul (.rd (.var .T)) (.add (.neg (.num 18103975772070643 27)) (.mul (.num 10613108050901326 31) (.rd (.var .T)))))))))) (.div (.neg (.num 35323612721999998 12)) (.rd (.var .T)))),
  .set (.var .Kc) (.mul (.num 1 0) (.exp (.rd (.var .Kc)))),
  .set (.arr .rev 163) (.div (.mul (.mul (.rd (.arr .C 25)) (.rd (.arr .C 5))) (.rd (.var .kf))) (.rd (.var .Kc)))]

/-- utilities/mechanisms/yao/lib/src/rxn_rates.c:1976-1987 -/
def rate164 : List CStmt := [
  .set (.var .kf) (.num 96000000000 0),
  .set (.arr .fwd 164) (.mul (.mul (.rd (.arr .C 26)) (.rd (.arr .C 2))) (.rd (.var .kf))),
  .ite (.rd (.var .T)) (.num 1000 0) (.var .Kc) (.sub (.add (.add (.neg (.num 22760749749999999 15)) (.mul (.num 48828044300000002 16) (.rd (.var .logT)))) (.mul (.rd (.var .T)) (.add (.neg (.num 18412288385000003 18)) (.mul (.rd (.var .T)) (.add (.num 13006494323333335 21) (.mul (.rd (.var .T)) (.add (.neg (.num 60098323716666661 25)) (.mul (.num 12371742595000002 28) (.rd (.var .T)))))))))) (.div (.neg (.num 40901935400000002 12)) (.rd (.var .T)))) (.sub (.add (.add (.num 44413537840000004 15) (.mul (.neg (.num 65638221800000007 16)) (.rd (.var .logT)))) (.mul (.rd (.var .T)) (.add (.num 53258810668499988 19) (.mul (.rd (.var .T)) (.add (.neg (.num 11957632448166665 22)) (.mul (.rd (.var .T)) (.add (.num 16747693915833335 26) (.mul (.neg (.num 100196378955 25)) (.rd (.var .T)))))))))) (.div (.neg (.num 38332114999999998 12)) (.rd (.var .T)))),
  .set (.var .Kc) (.mul (.num 1 0) (.exp (.rd (.var .Kc)))),
  .set (.arr .rev 164) (.div (.mul (.mul (.rd (.arr .C 14)) (.rd (.arr .C 21))) (.rd (.var .kf))) (.rd (.var .Kc)))]

/-- utilities/mechanisms/yao/lib/src/rxn_rates.c:1988-1999 -/
def rate165 : List CStmt := [
  .set (.var .kf) (.num 24000000000 0),
  .set (.arr .fwd 165) (.mul (.mul (.rd (.arr .C 26)) (.rd (.arr .C 3))) (.rd (.var .kf))),
  .ite (.rd (.var .T)) (.num 1000 0) (.var .Kc) (.sub (.add (.add (.neg (.num 56668178979999988 16)) (.mul (.num 51752465000000036 17) (.rd (.var .logT)))) (.mul (.rd (.var .T)) (.add (.neg (.num 19473888550000005 19)) (.mul (.rd (.var .T)) (.add (.num 35421626666666666 23) (.mul (.rd (.var .T)) (.add (.num 26804815083333323 26) (.mul (.neg (.num 12521351600000003 29)) (.rd (.var .T)))))))))) (.div (.neg (.num 42912784819999993 12)) (.rd (.var .T)))) (.sub (.add (.add (.num 22753036399999984 16) (.mul (.neg (.num 80822727000000016 17)) (.rd (.var .logT)))) (.mul (.rd (.var .T)) (.add (.neg (.num 13657199999996417 22)) (.mul (.rd (.var .T)) (.add (.num 69522506666666692 24) (.mul (.rd (.var .T)) (.add (.neg (.num 137704312 19)) (.mul (.num 96763684800000041 32) (.rd (.var .T)))))))))) (.div (.neg (.num 4262294874 5)) (.rd (.var .T)))),
  .set (.var .Kc) (.mul (.num 1 0) (.exp (.rd (.var .Kc)))),
  .set (.arr .rev 165) (.div (.mul (.mul (.rd (.arr .C 25)) (.rd (.arr .C 6))) (.rd (.var .kf))) (.rd (.var .Kc)))]

/-- utilities/mechanisms/yao/lib/src/rxn_rates.c:2000-2011 -/
def rate166 : List CStmt := [
  .set (.var .kf) (.num 90000000 0),
  .set (.arr .fwd 166) (.mul (.mul (.rd (.arr .C 26)) (.rd (.arr .C 8))) (.rd (.var .kf))),
  .ite (.rd (.var .T)) (.num 1000 0) (.var .Kc) (.sub (.add (.add (.neg (.num 58952386299999979 16)) (.mul (.num 96353134999999979 17) (.rd (.var .logT)))) (.mul (.rd (.var .T)) (.add (.neg (.num 34180896749999995 19)) (.mul (.rd (.var .T)) (.add (.num 22405882483333336 22) (.mul (.rd (.var .T)) (.add (.neg (.num 97409019250000008 26)) (.mul (.num 19173240850000004 29) (.rd (.var .T)))))))))) (.div (.neg (.num 78787684000000008 13)) (.rd (.var .T)))) (.sub (.add (.add (.num 77663570000000171 17) (.mul (.neg (.num 24281784000000073 17)) (.rd (.var .logT)))) (.mul (.rd (.var .T)) (.add (.neg (.num 18320620500000102 20)) (.mul (.rd (.var .T)) (.add (.num 74405553166666628 24) (.mul (.rd (.var .T)) (.add (.neg (.num 11075458750000003 27)) (.mul (.num 6040802450000003 31) (.rd (.var .T)))))))))) (.div (.neg (.num 76994794669999992 13)) (.rd (.var .T)))),
  .set (.var .Kc) (.mul (.num 1 0) (.exp (.rd (.var .Kc)))),
  .set (.arr .rev 166) (.div (.mul (.mul (.rd (.arr .C 25)) (.rd (.arr .C 4))) (.rd (.var .kf))) (.rd (.var .Kc)))]

/-- utilities/mechanisms/yao/lib/src/rxn_rates.c:2012-2023 -/
def rate167 : List CStmt := [
  .set (.var .kf) (.num 24000000000 0),
  .set (.arr .fwd 167) (.mul (.mul (.rd (.arr .C 26)) (.rd (.arr .C 4))) (.rd (.var .kf))),
  .ite (.rd (.var .T)) (.num 1000 0) (.var .Kc) (.sub (.add (.add (.neg (.num 28107686399999999 15)) (.mul (.num 68745791299999981 16) (.rd (.var .logT)))) (.mul (.rd (.var .T)) (.add (.neg (.num 19290112245000005 18)) (.mul (.rd (.var .T)) (.add (.num 11675231285000001 21) (.mul (.rd (.var .T)) (.add (.neg (.num 49806834774999992 25)) (.mul (.num 98131337249999979 29) (.rd (.var .T)))))))))) (.div (.neg (.num 86929461200000005 13)) (.rd (.var .T)))) (.sub (.add (.add (.num 4969747632 8) (.mul (.neg (.num 61468834399999999 16)) (.rd (.var .logT)))) (.mul (.rd (.var .T)) (.add (.num 46912361849999994 19) (.mul (.rd (.var .T)) (.add (.neg (.num 11263426030000002 22)) (.mul (.rd (.var .T)) (.add (.num 15966508228333334 26) (.mul (.neg (.num 9485276313000001 30)) (.rd (.var .T)))))))))) (.div (.neg (.num 55075348729999996 13)) (.rd (.var .T)))),
  .set (.var .Kc) (.mul (.num 12186597134166982 15) (.exp (.rd (.var .Kc)))),
  .set (.arr .rev 167) (.div (.mul (.mul (.mul (.rd (.arr .C 14)) (.rd (.arr .C 21))) (.rd (.arr .C 3))) (.rd (.var .kf))) (.rd (.var .Kc)))]

/-- utilities/mechanisms/yao/lib/src/rxn_rates.c:2024-2035 -/
def rate168 : List CStmt := [
  .set (.var .kf) (.num 11000000000 0),
  .set (.arr .fwd 168) (.mul (.mul (.rd (.arr .C 26)) (.rd (.arr .C 11))) (.rd (.var .kf))),
  .ite (.rd (.var .T)) (.num 1000 0) (.var .Kc) (.sub (.add (.add (.neg (.num 13157037519999998 15)) (.mul (.num 19204754299999998 16) (.rd (.var .logT)))) (.mul (.rd (.var .T)) (.add (.neg (.num 10382861775 12)) (.mul (.rd (.var .T)) (.add (.num 75970639566666681 22) (.mul (.rd (.var .T)) (.add (.neg (.num 32247596958333339 25)) (.mul (.num 59558317799999989 29) (.rd (.var .T)))))))))) (.div (.neg (.num 35929166400000002 12)) (.rd (.var .T)))) (.sub (.add (.add (.num 15347550335000001 15) (.mul (.neg (.num 31883571250000005 16)) (.rd (.var .logT)))) (.mul (.rd (.var .T)) (.add (.num 25139506650000004 19) (.mul (.rd (.var .T)) (.add (.neg (.num 40393163500000005 23)) (.mul (.rd (.var .T)) (.add (.num 49129948833333329 27) (.mul (.neg (.num 26949555799999999 31)) (.rd (.var .T)))))))))) (.div (.neg (.num 3514372279 5)) (.rd (.var .T)))),
  .set (.var .Kc) (.mul (.num 1 0) (.exp (.rd (.var .Kc)))),
  .set (.arr .rev 168) (.div (.mul (.mul (.rd (.arr .C 25)) (.rd (.arr .C 12))) (.rd (.var .kf))) (.rd (.var .Kc)))]

/-- utilities/mechanisms/yao/lib/src/rxn_rates.c:2036-2047 -/
def rate169 : List CStmt := [
  .set (.var .kf) (.num 36000000000 0),
  .set (.arr .fwd 169) (.mul (.mul (.rd (.arr .C 1)) (.rd (.arr .C 28))) (.rd (.var .kf))),
  .ite (.rd (.var .T)) (.num 1000 0) (.var .Kc) (.sub (.add (.add (.num 13463017299999791 17) (.mul (.neg (.num 106335632 8)) (.rd (.var .logT)))) (.mul (.rd (.var .T)) (.add (.neg (.num 44127385003526649 19)) (.mul (.rd (.var .T)) (.add (.num 46641017836659866 22) (.mul (.rd (.var .T)) (.add (.neg (.num 22325154418584011 25)) (.mul (.num 44002777504638656 29) (.rd (.var .T)))))))))) (.div (.neg (.num 49917388299999999 12)) (.rd (.var .T)))) (.sub (.add (.add (.num 32339091323999995 15) (.mul (.neg (.num 64598994100000002 16)) (.rd (.var .logT)))) (.mul (.rd (.var .T)) (.add (.num 58579745115421508 19) (.mul (.rd (.var .T)) (.add (.neg (.num 11047750026926988 22)) (.mul (.rd (.var .T)) (.add (.num 13568112539459603 26) (.mul (.neg (.num 74762140249098688 31)) (.rd (.var .T)))))))))) (.div (.neg (.num 48568391000000003 12)) (.rd (.var .T)))),
  .set (.var .Kc) (.mul (.num 82057360967184814 18) (.exp (.rd (.var .Kc)))),
  .set (.arr .rev 169) (.div (.mul (.rd (.arr .C 29)) (.rd (.var .kf))) (.rd (.var .Kc)))]

/-- utilities/mechanisms/yao/lib/src/rxn_rates.c:2048-2059 -/
def rate170 : List CStmt := [
  .set (.var .kf) (.exp (.sub (.sub (.num 42139678854452768 15) (.mul (.num 2 0) (.rd (.var .logT)))) (.div (.num 55354152134507885 13) (.rd (.var .T))))),
  .set (.arr .fwd 170) (.mul (.mul (.rd (.arr .C 1)) (.rd (.arr .C 28))) (.rd (.var .kf))),
  .ite (.rd (.var .T)) (.num 1000 0) (.var .Kc) (.sub (.add (.add (.neg (.num 60056963969999977 16)) (.mul (.num 179227958 8) (.rd (.var .logT)))) (.mul (.rd (.var .T)) (.add (.neg (.num 89270421253526654 19)) (.mul (.rd (.var .T)) (.add (.num 68542274269993207 22) (.mul (.rd (.var .T)) (.add (.neg (.num 35301688793584011 25)) (.mul (.num 8040395420463865 28) (.rd (.var .T)))))))))) (.div (.neg (.num 12436360099999998 12)) (.rd (.var .T)))) (.sub (.add (.add (.num 72999907939999993 16) (.mul (.neg (.num 72697809000000024 17)) (.rd (.var .logT)))) (.mul (.rd (.var .T)) (.add (.neg (.num 53496330345785027 20)) (.mul (.rd (.var .T)) (.add (.num 98206717307301098 24) (.mul (.rd (.var .T)) (.add (.num 19143373945960026 28) (.mul (.neg (.num 16496578449098676 31)) (.rd (.var .T)))))))))) (.div (.neg (.num 12170634600000005 12)) (.rd (.var .T)))),
  .set (.var .Kc) (.mul (.num 1 0) (.exp (.rd (.var .Kc)))),
  .set (.arr .rev 170) (.div (.mul (.mul (.rd (.arr .C 11)) (.rd (.arr .C 24))) (.rd (.var .kf))) (.rd (.var .Kc)))]

/-- utilities/mechanisms/yao/lib/src/rxn_rates.c:2060-2071 -/
def rate171 : List CStmt := [
  .set (.var .kf) (.num 24000000000 0),
  .set (.arr .fwd 171) (.mul (.mul (.rd (.arr .C 4)) (.rd (.arr .C 28))) (.rd (.var .kf))),
  .ite (.rd (.var .T)) (.num 1000 0) (.var .Kc) (.sub (.add (.add (.neg (.num 15304866439999998 15)) (.mul (.num 42359199299999997 16) (.rd (.var .logT)))) (.mul (.rd (.var .T)) (.add (.neg (.num 14124849284999999 18)) (.mul (.rd (.var .T)) (.add (.num 96810841016666651 22) (.mul (.rd (.var .T)) (.add (.neg (.num 45784604524999996 25)) (.mul (.num 97421606250000001 29) (.rd (.var .T)))))))))) (.div (.neg (.num 14629925620000002 12)) (.rd (.var .T)))) (.sub (.add (.add (.num 1312360734 8) (.mul (.neg (.num 9044877600000012 16)) (.rd (.var .logT)))) (.mul (.rd (.var .T)) (.add (.neg (.num 14657091499999976 20)) (.mul (.rd (.var .T)) (.add (.neg (.num 78604822999999789 24)) (.mul (.rd (.var .T)) (.add (.num 29164584783333309 27) (.mul (.neg (.num 32602193130000002 31)) (.rd (.var .T)))))))))) (.div (.neg (.num 13861390273000001 12)) (.rd (.var .T)))),
  .set (.var .Kc) (.mul (.num 12186597134166982 15) (.exp (.rd (.var .Kc)))),
  .set (.arr .rev 171) (.div (.mul (.mul (.mul (.rd (.arr .C 14)) (.rd (.arr .C 24))) (.rd (.arr .C 3))) (.rd (.var .kf))) (.rd (.var .Kc)))]

/-- utilities/mechanisms/yao/lib/src/rxn_rates.c:2072-2083 -/
def rate172 : List CStmt := [
  .set (.var .kf) (.num 60000000000 0),
  .set (.arr .fwd 172) (.mul (.mul (.rd (.arr .C 13)) (.rd (.arr .C 28))) (.rd (.var .kf))),
  .ite (.rd (.var .T)) (.num 1000 0) (.var .Kc) (.sub (.add (.add (.neg (.num 205636346 8)) (.mul (.neg (.num 20500869000000033 17)) (.rd (.var .logT)))) (.mul (.rd (.var .T)) (.add (.neg (.num 30959526799999998 19)) (.mul (.rd (.var .T)) (.add (.num 2536913405 15) (.mul (.rd (.var .T)) (.add (.neg (.num 10473975096666667 25)) (.mul (.num 17792211754999996 29) (.rd (.var .T)))))))))) (.div (.neg (.num 42627379360000006 12)) (.rd (.var .T)))) (.sub (.add (.add (.num 27469739969999999 15) (.mul (.neg (.num 50168881700000005 16)) (.rd (.var .logT)))) (.mul (.rd (.var .T)) (.add (.num 4410760585000003 18) (.mul (.rd (.var .T)) (.add (.neg (.num 85716994016666648 23)) (.mul (.rd (.var .T)) (.add (.num 10575539416666665 26) (.mul (.neg (.num 58269090250000024 31)) (.rd (.var .T)))))))))) (.div (.neg (.num 41258521650000002 12)) (.rd (.var .T)))),
  .set (.var .Kc) (.mul (.num 1 0) (.exp (.rd (.var .Kc)))),
  .set (.arr .rev 172) (.div (.mul (.mul (.rd (.arr .C 29)) (.rd (.arr .C 16))) (.rd (.var .kf))) (.rd (.var .Kc)))]

/-- utilities/mechanisms/yao/lib/src/rxn_rates.c:2084-2095 -/
def rate173 : List CStmt := [
  .set (.var .kf) (.exp (.sub (.num 23311029872174121 15) (.div (.num 16408480351362714 13) (.rd (.var .T))))),
  .set (.arr .fwd 173) (.mul (.mul (.rd (.arr .C 1)) (.rd (.arr .C 29))) (.rd (.var .kf))),
  .ite (.rd (.var .T)) (.num 1000 0) (.var .Kc) (.sub (.add (.add (.num 40259156529999984 16) (.mul (.neg (.num 14724338000000001 16)) (.rd (.var .logT)))) (.mul (.rd (.var .T)) (.add (.num 37220584996473342 19) (.mul (.rd (.var .T)) (.add (.neg (.num 20587625996673468 22)) (.mul (.rd (.var .T)) (.add (.num 76886174980826523 26) (.mul (.neg (.num 12121247495361327 29)) (.rd (.var .T)))))))))) (.div (.neg (.num 16361155499999999 12)) (.rd (.var .T)))) (.sub (.add (.add (.neg (.num 37116920475999997 15)) (.mul (.num 51286553899999996 16) (.rd (.var .logT)))) (.mul (.rd (.var .T)) (.add (.neg (.num 53297179884578515 19)) (.mul (.rd (.var .T)) (.add (.num 1381385080640634 21) (.mul (.rd (.var .T)) (.add (.neg (.num 22039123627207065 26)) (.mul (.num 15422779275090133 30) (.rd (.var .T)))))))))) (.div (.neg (.num 18369530999999999 12)) (.rd (.var .T)))),
  .set (.var .Kc) (.mul (.num 82057360967184814 18) (.exp (.rd (.var .Kc)))),
  .set (.arr .rev 173) (.div (.mul (.rd (.arr .C 30)) (.rd (.var .kf))) (.rd (.var .Kc)))]

/-- utilities/mechanisms/yao/lib/src/rxn_rates.c:2096-2107 -/
def rate174 : List CStmt := [
  .set (.var .kf) (.exp (.sub (.sub (.num 44219120396132602 15) (.mul (.num 239 2) (.rd (.var .logT)))) (.div (.num 56259947351254386 13) (.rd (.var .T))))),
  .set (.arr .fwd 174) (.mul (.mul (.rd (.arr .C 1)) (.rd (.arr .C 29))) (.rd (.var .kf))),
  .ite (.rd (.var .T)) (.num 1000 0) (.var .Kc) (.sub (.add (.add (.neg (.num 16395775106999999 15)) (.mul (.num 45845291599999998 16) (.rd (.var .logT)))) (.mul (.rd (.var .T)) (.add (.neg (.num 21305245695352668 18)) (.mul (.rd (.var .T)) (.add (.num 16954464200332657 21) (.mul (.rd (.var .T)) (.add (.neg (.num 87013873251917349 25)) (.mul (.num 1946457235046387 27) (.rd (.var .T)))))))))) (.div (.neg (.num 57518570699999964 13)) (.rd (.var .T)))) (.sub (.add (.add (.num 92341020440000019 16) (.mul (.neg (.num 56281653000000009 17)) (.rd (.var .logT)))) (.mul (.rd (.var .T)) (.add (.neg (.num 11539098384578533 19)) (.mul (.rd (.var .T)) (.add (.num 19839185897396717 23) (.mul (.rd (.var .T)) (.add (.neg (.num 70466729387373265 28)) (.mul (.neg (.num 10868593749098661 31)) (.rd (.var .T)))))))))) (.div (.neg (.num 55365306599999994 13)) (.rd (.var .T)))),
  .set (.var .Kc) (.mul (.num 1 0) (.exp (.rd (.var .Kc)))),
  .set (.arr .rev 174) (.div (.mul (.mul (.rd (.arr .C 21)) (.rd (.arr .C 20))) (.rd (.var .kf))) (.rd (.var .Kc)))]

/-- utilities/mechanisms/yao/lib/src/rxn_rates.c:2108-2119 -/
def rate175 : List CStmt := [
  .set (.var .kf) (.exp (.sub (.sub (.num 4491226757669255 14) (.mul (.num 239 2) (.rd (.var .logT)))) (.div (.num 56259947351254386 13) (.rd (.var .T))))),
  .set (.arr .fwd 175) (.mul (.mul (.rd (.arr .C 1)) (.rd (.arr .C 29))) (.rd (.var .kf))),
  .ite (.rd (.var .T)) (.num 1000 0) (.var .Kc) (.sub (.add (.add (.neg (.num 43516412169999974 16)) (.mul (.num 14857593999999998 16) (.rd (.var .logT)))) (.mul (.rd (.var .T)) (.add (.neg (.num 39586241253526649 19)) (.mul (.rd (.var .T)) (.add (.num 85508131033265349 23) (.mul (.rd (.var .T)) (.add (.num 91216145641598623 27) (.mul (.neg (.num 70409482953613311 30)) (.rd (.var .T)))))))))) (.div (.neg (.num 61634346999999962 13)) (.rd (.var .T)))) (.sub (.add (.add (.neg (.num 24394186906000002 15)) (.mul (.num 44643906099999997 16) (.rd (.var .logT)))) (.mul (.rd (.var .T)) (.add (.neg (.num 61011333034578508 19)) (.mul (.rd (.var .T)) (.add (.num 13243590839739675 22) (.mul (.rd (.var .T)) (.add (.neg (.num 16600661260540399 26)) (.mul (.num 84616485050901337 31) (.rd (.var .T)))))))))) (.div (.neg (.num 74819227999999994 13)) (.rd (.var .T)))),
  .set (.var .Kc) (.mul (.num 1 0) (.exp (.rd (.var .Kc)))),
  .set (.arr .rev 175) (.div (.mul (.mul (.rd (.arr .C 25)) (.rd (.arr .C 11))) (.rd (.var .kf))) (.rd (.var .Kc)))]

/-- utilities/mechanisms/yao/lib/src/rxn_rates.c:2120-2131 -/
def rate176 : List CStmt := [
  .set (.var .kf) (.exp (.sub (.add (.num 64769723628896827 16) (.mul (.num 254 2) (.rd (.var .logT)))) (.div (.num 33997513801885029 13) (.rd (.var .T))))),
  .set (.arr .fwd 176) (.mul (.mul (.rd (.arr .C 1)) (.rd (.arr .C 29))) (.rd (.var .kf))),
  .ite (.rd (.var .T)) (.num 1000 0) (.var .Kc) (.sub (.add (.add (.num 40974146509999976 16) (.mul (.neg (.num 59231255999999988 17)) (.rd (.var .logT)))) (.mul (.rd (.var .T)) (.add (.num 84029988746473321 19) (.mul (.rd (.var .T)) (.add (.neg (.num 79104602830006793 22)) (.mul (.rd (.var .T)) (.add (.num 39122828914749324 25) (.mul (.neg (.num 80883365545361327 29)) (.rd (.var .T)))))))))) (.div (.neg (.num 19478666729999991 13)) (.rd (.var .T)))) (.sub (.add (.add (.neg (.num 32988027985999999 15)) (.mul (.num 57971785900000006 16) (.rd (.var .logT)))) (.mul (.rd (.var .T)) (.add (.neg (.num 58826757250078528 19)) (.mul (.rd (.var .T)) (.add (.num 11880177936406338 22) (.mul (.rd (.var .T)) (.add (.neg (.num 15064499077207067 26)) (.mul (.num 84774908550901339 31) (.rd (.var .T)))))))))) (.div (.neg (.num 33290877219999957 13)) (.rd (.var .T)))),
  .set (.var .Kc) (.mul (.num 1 0) (.exp (.rd (.var .Kc)))),
  .set (.arr .rev 176) (.div (.mul (.mul (.rd (.arr .C 5)) (.rd (.arr .C 28))) (.rd (.var .kf))) (.rd (.var .Kc)))]

/-- utilities/mechanisms/yao/lib/src/rxn_rates.c:2132-2143 -/
def rate177 : List CStmt := [
  .set (.var .kf) (.exp (.sub (.add (.num 12706847933442663 15) (.mul (.num 145 2) (.rd (.var .logT)))) (.div (.neg (.num 20229426507338337 14)) (.rd (.var .T))))),
  .set (.arr .fwd 177) (.mul (.mul (.rd (.arr .C 29)) (.rd (.arr .C 2))) (.rd (.var .kf))),
  .ite (.rd (.var .T)) (.num 1000 0) (.var .Kc) (.sub (.add (.add (.num 49510593000000069 17) (.mul (.num 92089804000000042 17) (.rd (.var .logT)))) (.mul (.rd (.var .T)) (.add (.neg (.num 24045067399999995 19)) (.mul (.rd (.var .T)) (.add (.num 73410125666666659 23) (.mul (.rd (.var .T)) (.add (.neg (.num 17721558833333367 26)) (.mul (.num 24342832000000071 30) (.rd (.var .T)))))))))) (.div (.neg (.num 13179947840000001 12)) (.rd (.var .T)))) (.sub (.add (.add (.neg (.num 31903409119999999 15)) (.mul (.num 58589173999999993 16) (.rd (.var .logT)))) (.mul (.rd (.var .T)) (.add (.neg (.num 66380463131500006 19)) (.mul (.rd (.var .T)) (.add (.num 13474614351833333 22) (.mul (.rd (.var .T)) (.add (.neg (.num 16257526017500001 26)) (.mul (.num 80084261495000008 31) (.rd (.var .T)))))))))) (.div (.neg (.num 15089714249999997 12)) (.rd (.var .T)))),
  .set (.var .Kc) (.mul (.num 1 0) (.exp (.rd (.var .Kc)))),
  .set (.arr .rev 177) (.div (.mul (.mul (.rd (.arr .C 26)) (.rd (.arr .C 13))) (.rd (.var .kf))) (.rd (.var .Kc)))]

/-- utilities/mechanisms/yao/lib/src/rxn_rates.c:2144-2155 -/
def rate178 : List CStmt := [
  .set (.var .kf) (.exp (.sub (.num 23431316038048621 15) (.div (.num 28985446935887767 13) (.rd (.var .T))))),
  .set (.arr .fwd 178) (.mul (.mul (.rd (.arr .C 29)) (.rd (.arr .C 2))) (.rd (.var .kf))),
  .ite (.rd (.var .T)) (.num 1000 0) (.var .Kc) (.sub (.add (.add (.neg (.num 88735224999999973 17)) (.mul (.num 52039483000000031 17) (.rd (.var .logT)))) (.mul (.rd (.var .T)) (.add (.num 44396732249999977 19) (.mul (.rd (.var .T)) (.add (.neg (.num 46833379583333333 22)) (.mul (.rd (.var .T)) (.add (.num 22599762591666666 25) (.mul (.neg (.num 44254207099999991 29)) (.rd (.var .T)))))))))) (.div (.neg (.num 12969926799999994 13)) (.rd (.var .T)))) (.sub (.add (.add (.neg (.num 28770414389999999 15)) (.mul (.num 5255207480000001 15) (.rd (.var .logT)))) (.mul (.rd (.var .T)) (.add (.neg (.num 5286735203150001 18)) (.mul (.rd (.var .T)) (.add (.num 10546031305166665 22) (.mul (.rd (.var .T)) (.add (.neg (.num 13230282105833334 26)) (.mul (.num 73481992165000016 31) (.rd (.var .T)))))))))) (.div (.neg (.num 24039902599999987 13)) (.rd (.var .T)))),
  .set (.var .Kc) (.mul (.num 1 0) (.exp (.rd (.var .Kc)))),
  .set (.arr .rev 178) (.div (.mul (.mul (.rd (.arr .C 28)) (.rd (.arr .C 3))) (.rd (.var .kf))) (.rd (.var .Kc)))]

/-- utilities/mechanisms/yao/lib/src/rxn_rates.c:2156-2167 -/
def rate179 : List CStmt := [
  .set (.var .kf) (.exp (.sub (.num 23981362374967894 15) (.div (.num 22493914549204569 13) (.rd (.var .T))))),
  .set (.arr .fwd 179) (.mul (.mul (.rd (.arr .C 29)) (.rd (.arr .C 2))) (.rd (.var .kf))),
  .ite (.rd (.var .T)) (.num 1000 0) (.var .Kc) (.sub (.add (.add (.neg (.num 88735224999999973 17)) (.mul (.num 52039483000000031 17) (.rd (.var .logT)))) (.mul (.rd (.var .T)) (.add (.num 44396732249999977 19) (.mul (.rd (.var .T)) (.add (.neg (.num 46833379583333333 22)) (.mul (.rd (.var .T)) (.add (.num 22599762591666666 25) (.mul (.neg (.num 44254207099999991 29)) (.rd (.var .T)))))))))) (.div (.neg (.num 12969926799999994 13)) (.rd (.var .T)))) (.sub (.add (.add (.neg (.num 28770414389999999 15)) (.mul (.num 5255207480000001 15) (.rd (.var .logT)))) (.mul (.rd (.var .T)) (.add (.neg (.num 5286735203150001 18)) (.mul (.rd (.var .T)) (.add (.num 10546031305166665 22) (.mul (.rd (.var .T)) (.add (.neg (.num 13230282105833334 26)) (.mul (.num 73481992165000016 31) (.rd (.var .T)))))))))) (.div (.neg (.num 24039902599999987 13)) (.rd (.var .T)))),
  .set (.var .Kc) (.mul (.num 1 0) (.exp (.rd (.var .Kc)))),
  .set (.arr .rev 179) (.div (.mul (.mul (.rd (.arr .C 28)) (.rd (.arr .C 3))) (.rd (.var .kf))) (.rd (.var .Kc)))]

/-- utilities/mechanisms/yao/lib/src/rxn_rates.c:2168-2179 -/
def rate180 : List CStmt := [
  .set (.var .kf) (.exp (.sub (.add (.neg (.num 35667494393873245 17)) (.mul (.num 266 2) (.rd (.var .logT)))) (.div (.num 26519671068077872 14) (.rd (.var .T))))),
  .set (.arr .fwd 180) (.mul (.mul (.rd (.arr .C 29)) (.rd (.arr .C 3))) (.rd (.var .kf))),
  .ite (.rd (.var .T)) (.num 1000 0) (.var .Kc) (.sub (.add (.add (.num 25801184819999987 16) (.mul (.neg (.num 36330872999999908 17)) (.rd (.var .logT)))) (.mul (.rd (.var .T)) (.add (.num 50072461449999998 19) (.mul (.rd (.var .T)) (.add (.neg (.num 46653092499999995 22)) (.mul (.rd (.var .T)) (.add (.num 22583959258333331 25) (.mul (.neg (.num 45454755599999993 29)) (.rd (.var .T)))))))))) (.div (.neg (.num 92315364199999967 13)) (.rd (.var .T)))) (.sub (.add (.add (.neg (.num 3029654266 8)) (.mul (.num 51291630300000008 16) (.rd (.var .logT)))) (.mul (.rd (.var .T)) (.add (.neg (.num 52977677200000016 19)) (.mul (.rd (.var .T)) (.add (.num 11206100399999997 22) (.mul (.rd (.var .T)) (.add (.neg (.num 14631144620000002 26)) (.mul (.num 83838168980000013 31) (.rd (.var .T)))))))))) (.div (.neg (.num 10628423739999998 12)) (.rd (.var .T)))),
  .set (.var .Kc) (.mul (.num 1 0) (.exp (.rd (.var .Kc)))),
  .set (.arr .rev 180) (.div (.mul (.mul (.rd (.arr .C 6)) (.rd (.arr .C 28))) (.rd (.var .kf))) (.rd (.var .Kc)))]

/-- utilities/mechanisms/yao/lib/src/rxn_rates.c:2180-2191 -/
def rate181 : List CStmt := [
  .set (.var .kf) (.exp (.sub (.num 23718998110500401 15) (.div (.num 25628972438277153 12) (.rd (.var .T))))),
  .set (.arr .fwd 181) (.mul (.mul (.rd (.arr .C 29)) (.rd (.arr .C 8))) (.rd (.var .kf))),
  .ite (.rd (.var .T)) (.num 1000 0) (.var .Kc) (.sub (.add (.add (.num 23516977499999996 16) (.mul (.num 82697970000000343 18) (.rd (.var .logT)))) (.mul (.rd (.var .T)) (.add (.num 35365453250000012 19) (.mul (.rd (.var .T)) (.add (.neg (.num 27789372683333336 22)) (.mul (.rd (.var .T)) (.add (.num 10162575824999999 25) (.mul (.neg (.num 13760163149999986 29)) (.rd (.var .T)))))))))) (.div (.num 2580248 2) (.rd (.var .T)))) (.sub (.add (.add (.neg (.num 31795210600000004 15)) (.mul (.num 56945724600000016 16) (.rd (.var .logT)))) (.mul (.rd (.var .T)) (.add (.neg (.num 54796082050000017 19)) (.mul (.rd (.var .T)) (.add (.num 11254930864999997 22) (.mul (.rd (.var .T)) (.add (.neg (.num 14361647375000003 26)) (.mul (.num 80202602950000014 31) (.rd (.var .T)))))))))) (.div (.num 24295045533 6) (.rd (.var .T)))),
  .set (.var .Kc) (.mul (.num 1 0) (.exp (.rd (.var .Kc)))),
  .set (.arr .rev 181) (.div (.mul (.mul (.rd (.arr .C 4)) (.rd (.arr .C 28))) (.rd (.var .kf))) (.rd (.var .Kc)))]

/-- utilities/mechanisms/yao/lib/src/rxn_rates.c:2192-2203 -/
def rate182 : List CStmt := [
  .set (.var .kf) (.exp (.sub (.num 2072326583694641 14) (.div (.num 72161685600803921 13) (.rd (.var .T))))),
  .set (.arr .fwd 182) (.mul (.mul (.rd (.arr .C 29)) (.rd (.arr .C 4))) (.rd (.var .kf))),
  .ite (.rd (.var .T)) (.num 1000 0) (.var .Kc) (.sub (.add (.add (.num 25561262900000004 16) (.mul (.neg (.num 46232899999999955 17)) (.rd (.var .logT)))) (.mul (.rd (.var .T)) (.add (.num 65158875464999978 19) (.mul (.rd (.var .T)) (.add (.neg (.num 54015549499999995 22)) (.mul (.rd (.var .T)) (.add (.num 24574577833333335 25) (.mul (.neg (.num 47341315549999993 29)) (.rd (.var .T)))))))))) (.div (.num 64463382600000023 13) (.rd (.var .T)))) (.sub (.add (.add (.neg (.num 30409145879999997 15)) (.mul (.num 51076913499999996 16) (.rd (.var .logT)))) (.mul (.rd (.var .T)) (.add (.neg (.num 45237260950000014 19)) (.mul (.rd (.var .T)) (.add (.num 89348598333333306 23) (.mul (.rd (.var .T)) (.add (.neg (.num 11426949033333335 26)) (.mul (.num 65762151500000019 31) (.rd (.var .T)))))))))) (.div (.num 51210866870000009 13) (.rd (.var .T)))),
  .set (.var .Kc) (.mul (.num 1 0) (.exp (.rd (.var .Kc)))),
  .set (.arr .rev 182) (.div (.mul (.mul (.rd (.arr .C 7)) (.rd (.arr .C 28))) (.rd (.var .kf))) (.rd (.var .Kc)))]

/-- utilities/mechanisms/yao/lib/src/rxn_rates.c:2204-2215 -/
def rate183 : List CStmt := [
  .set (.var .kf) (.exp (.sub (.add (.neg (.num 7706262975199909 15)) (.mul (.num 365 2) (.rd (.var .logT)))) (.div (.num 35995295474375903 13) (.rd (.var .T))))),
  .set (.arr .fwd 183) (.mul (.mul (.rd (.arr .C 11)) (.rd (.arr .C 29))) (.rd (.var .kf))),
  .ite (.rd (.var .T)) (.num 1000 0) (.var .Kc) (.sub (.add (.add (.neg (.num 49101011399999983 16)) (.mul (.num 10396420500000001 16) (.rd (.var .logT)))) (.mul (.rd (.var .T)) (.add (.neg (.num 34282267750000012 19)) (.mul (.rd (.var .T)) (.add (.num 25775384400000004 22) (.mul (.rd (.var .T)) (.add (.neg (.num 12344119208333335 25)) (.mul (.num 26624913799999999 29) (.rd (.var .T)))))))))) (.div (.neg (.num 22479180000000001 13)) (.rd (.var .T)))) (.sub (.add (.add (.neg (.num 17224295965 9)) (.mul (.num 27490331750000001 16) (.rd (.var .logT)))) (.mul (.rd (.var .T)) (.add (.neg (.num 2782451335 12)) (.mul (.rd (.var .T)) (.add (.num 64715589833333312 23) (.mul (.rd (.var .T)) (.add (.neg (.num 83411066166666664 27)) (.mul (.num 47212244700000014 31) (.rd (.var .T)))))))))) (.div (.neg (.num 31491977899999974 13)) (.rd (.var .T)))),
  .set (.var .Kc) (.mul (.num 1 0) (.exp (.rd (.var .Kc)))),
  .set (.arr .rev 183) (.div (.mul (.mul (.rd (.arr .C 12)) (.rd (.arr .C 28))) (.rd (.var .kf))) (.rd (.var .Kc)))]

/-- utilities/mechanisms/yao/lib/src/rxn_rates.c:2216-2227 -/
def rate184 : List CStmt := [
  .set (.var .kf) (.exp (.sub (.sub (.num 4966261977252514 14) (.mul (.num 292 2) (.rd (.var .logT)))) (.div (.num 62927606585638287 13) (.rd (.var .T))))),
  .set (.arr .fwd 184) (.mul (.mul (.rd (.arr .C 1)) (.rd (.arr .C 30))) (.rd (.var .kf))),
  .ite (.rd (.var .T)) (.num 1000 0) (.var .Kc) (.sub (.add (.add (.neg (.num 17212393827 9)) (.mul (.num 49042271599999996 16) (.rd (.var .logT)))) (.mul (.rd (.var .T)) (.add (.neg (.num 23335337420352667 18)) (.mul (.rd (.var .T)) (.add (.num 17782435383665989 21) (.mul (.rd (.var .T)) (.add (.neg (.num 8699731183525069 24)) (.mul (.num 1870792865046387 27) (.rd (.var .T)))))))))) (.div (.neg (.num 71125108999999984 13)) (.rd (.var .T)))) (.sub (.add (.add (.num 52536225183999996 15) (.mul (.neg (.num 72729266699999995 16)) (.rd (.var .logT)))) (.mul (.rd (.var .T)) (.add (.num 55517367115421497 19) (.mul (.rd (.var .T)) (.add (.neg (.num 13948744793593658 22)) (.mul (.rd (.var .T)) (.add (.num 23667353539459602 26) (.mul (.neg (.num 17706414424909867 30)) (.rd (.var .T)))))))))) (.div (.neg (.num 47230256999999983 13)) (.rd (.var .T)))),
  .set (.var .Kc) (.mul (.num 1 0) (.exp (.rd (.var .Kc)))),
  .set (.arr .rev 184) (.div (.mul (.mul (.rd (.arr .C 21)) (.rd (.arr .C 21))) (.rd (.var .kf))) (.rd (.var .Kc)))]

/-- utilities/mechanisms/yao/lib/src/rxn_rates.c:2228-2239 -/
def rate185 : List CStmt := [
  .set (.var .kf) (.num 1800000000 0),
  .set (.arr .fwd 185) (.mul (.mul (.rd (.arr .C 1)) (.rd (.arr .C 30))) (.rd (.var .kf))),
  .ite (.rd (.var .T)) (.num 1000 0) (.var .Kc) (.sub (.add (.add (.num 20612917099999706 17) (.mul (.neg (.num 18323507999999977 17)) (.rd (.var .logT)))) (.mul (.rd (.var .T)) (.add (.num 26820187464733289 20) (.mul (.rd (.var .T)) (.add (.neg (.num 11875958996673465 22)) (.mul (.rd (.var .T)) (.add (.num 91090569980826552 26) (.mul (.neg (.num 24759340545361349 29)) (.rd (.var .T)))))))))) (.div (.neg (.num 35504099473000002 12)) (.rd (.var .T)))) (.sub (.add (.add (.num 36467983813999993 15) (.mul (.neg (.num 57913762099999992 16)) (.rd (.var .logT)))) (.mul (.rd (.var .T)) (.add (.num 53050167749921495 19) (.mul (.rd (.var .T)) (.add (.neg (.num 12981422896926988 22)) (.mul (.rd (.var .T)) (.add (.num 20542737089459604 26) (.mul (.neg (.num 14421502444909868 30)) (.rd (.var .T)))))))))) (.div (.neg (.num 33527947721999997 12)) (.rd (.var .T)))),
  .set (.var .Kc) (.mul (.num 1 0) (.exp (.rd (.var .Kc)))),
  .set (.arr .rev 185) (.div (.mul (.mul (.rd (.arr .C 5)) (.rd (.arr .C 29))) (.rd (.var .kf))) (.rd (.var .Kc)))]

/-- utilities/mechanisms/yao/lib/src/rxn_rates.c:2240-2251 -/
def rate186 : List CStmt := [
  .set (.var .kf) (.num 96000000000 0),
  .set (.arr .fwd 186) (.mul (.mul (.rd (.arr .C 30)) (.rd (.arr .C 2))) (.rd (.var .kf))),
  .ite (.rd (.var .T)) (.num 1000 0) (.var .Kc) (.sub (.add (.add (.neg (.num 39482237099999993 16)) (.mul (.num 14658691500000001 16) (.rd (.var .logT)))) (.mul (.rd (.var .T)) (.add (.neg (.num 94587694249999993 19)) (.mul (.rd (.var .T)) (.add (.num 67165398899999996 22) (.mul (.rd (.var .T)) (.add (.neg (.num 29972537383333331 25)) (.mul (.num 58753413449999988 29) (.rd (.var .T)))))))))) (.div (.neg (.num 40440973899999997 12)) (.rd (.var .T)))) (.sub (.add (.add (.num 13029656659999997 15) (.mul (.neg (.num 17812223 7)) (.rd (.var .logT)))) (.mul (.rd (.var .T)) (.add (.num 8131944668500012 19) (.mul (.rd (.var .T)) (.add (.neg (.num 35694564814999981 23)) (.mul (.rd (.var .T)) (.add (.num 9258683832500001 26) (.mul (.neg (.num 91660877955000008 31)) (.rd (.var .T)))))))))) (.div (.neg (.num 402015936 4)) (.rd (.var .T)))),
  .set (.var .Kc) (.mul (.num 1 0) (.exp (.rd (.var .Kc)))),
  .set (.arr .rev 186) (.div (.mul (.mul (.rd (.arr .C 14)) (.rd (.arr .C 26))) (.rd (.var .kf))) (.rd (.var .Kc)))]

/-- utilities/mechanisms/yao/lib/src/rxn_rates.c:2252-2263 -/
def rate187 : List CStmt := [
  .set (.var .kf) (.num 24000000000 0),
  .set (.arr .fwd 187) (.mul (.mul (.rd (.arr .C 30)) (.rd (.arr .C 3))) (.rd (.var .kf))),
  .ite (.rd (.var .T)) (.num 1000 0) (.var .Kc) (.sub (.add (.add (.neg (.num 1311166998 9)) (.mul (.num 4576875000000058 17) (.rd (.var .logT)))) (.mul (.rd (.var .T)) (.add (.neg (.num 31275508550000007 19)) (.mul (.rd (.var .T)) (.add (.num 20575551333333331 22) (.mul (.rd (.var .T)) (.add (.neg (.num 74298126583333349 26)) (.mul (.num 10669269399999987 29) (.rd (.var .T)))))))))) (.div (.neg (.num 42787769219999995 12)) (.rd (.var .T)))) (.sub (.add (.add (.num 39159469139999992 15) (.mul (.neg (.num 64593917699999999 16)) (.rd (.var .logT)))) (.mul (.rd (.var .T)) (.add (.num 58899247800000025 19) (.mul (.rd (.var .T)) (.add (.neg (.num 13655500433333333 22)) (.mul (.rd (.var .T)) (.add (.num 20976091546666671 26) (.mul (.neg (.num 14515176402000001 30)) (.rd (.var .T)))))))))) (.div (.neg (.num 40827283739999999 12)) (.rd (.var .T)))),
  .set (.var .Kc) (.mul (.num 1 0) (.exp (.rd (.var .Kc)))),
  .set (.arr .rev 187) (.div (.mul (.mul (.rd (.arr .C 6)) (.rd (.arr .C 29))) (.rd (.var .kf))) (.rd (.var .Kc)))]

/-- utilities/mechanisms/yao/lib/src/rxn_rates.c:2264-2275 -/
def rate188 : List CStmt := [
  .set (.var .kf) (.num 270000000 0),
  .set (.arr .fwd 188) (.mul (.mul (.rd (.arr .C 30)) (.rd (.arr .C 8))) (.rd (.var .kf))),
  .ite (.rd (.var .T)) (.num 1000 0) (.var .Kc) (.sub (.add (.add (.neg (.num 15395877300000009 16)) (.mul (.num 49177545 8) (.rd (.var .logT)))) (.mul (.rd (.var .T)) (.add (.neg (.num 45982516749999997 19)) (.mul (.rd (.var .T)) (.add (.num 39439271149999998 22) (.mul (.rd (.var .T)) (.add (.neg (.num 19851196091666664 25)) (.mul (.num 42363861849999992 29) (.rd (.var .T)))))))))) (.div (.neg (.num 77537528000000002 13)) (.rd (.var .T)))) (.sub (.add (.add (.num 37660801199999995 15) (.mul (.neg (.num 58939823399999991 16)) (.rd (.var .logT)))) (.mul (.rd (.var .T)) (.add (.num 57080842950000005 19) (.mul (.rd (.var .T)) (.add (.neg (.num 13606669968333331 22)) (.mul (.rd (.var .T)) (.add (.num 21245588791666671 26) (.mul (.neg (.num 14878733005000002 30)) (.rd (.var .T)))))))))) (.div (.neg (.num 59038144670000001 13)) (.rd (.var .T)))),
  .set (.var .Kc) (.mul (.num 1 0) (.exp (.rd (.var .Kc)))),
  .set (.arr .rev 188) (.div (.mul (.mul (.rd (.arr .C 29)) (.rd (.arr .C 4))) (.rd (.var .kf))) (.rd (.var .Kc)))]

/-- utilities/mechanisms/yao/lib/src/rxn_rates.c:2276-2287 -/
def rate189 : List CStmt := [
  .set (.var .kf) (.num 24000000000 0),
  .set (.arr .fwd 189) (.mul (.mul (.rd (.arr .C 30)) (.rd (.arr .C 4))) (.rd (.var .kf))),
  .ite (.rd (.var .T)) (.num 1000 0) (.var .Kc) (.sub (.add (.add (.neg (.num 92951603599999988 16)) (.mul (.num 34576438500000002 16) (.rd (.var .logT)))) (.mul (.rd (.var .T)) (.add (.neg (.num 10336593284999999 18)) (.mul (.rd (.var .T)) (.add (.num 53852768516666665 22) (.mul (.rd (.var .T)) (.add (.neg (.num 19681048441666666 25)) (.mul (.num 33167324749999987 29) (.rd (.var .T)))))))))) (.div (.neg (.num 82319846200000011 13)) (.rd (.var .T)))) (.sub (.add (.add (.num 18313595139999997 15) (.mul (.neg (.num 13642835600000005 16)) (.rd (.var .logT)))) (.mul (.rd (.var .T)) (.add (.num 17854958500000185 20) (.mul (.rd (.var .T)) (.add (.neg (.num 28752500633333311 23)) (.mul (.rd (.var .T)) (.add (.num 84774981450000013 27) (.mul (.neg (.num 86317262130000004 31)) (.rd (.var .T)))))))))) (.div (.neg (.num 7377013473 6)) (.rd (.var .T)))),
  .set (.var .Kc) (.mul (.num 12186597134166982 15) (.exp (.rd (.var .Kc)))),
  .set (.arr .rev 189) (.div (.mul (.mul (.mul (.rd (.arr .C 14)) (.rd (.arr .C 26))) (.rd (.arr .C 3))) (.rd (.var .kf))) (.rd (.var .Kc)))]

/-- utilities/mechanisms/yao/lib/src/rxn_rates.c:2288-2299 -/
def rate190 : List CStmt := [
  .set (.var .kf) (.num 11000000000 0),
  .set (.arr .fwd 190) (.mul (.mul (.rd (.arr .C 30)) (.rd (.arr .C 11))) (.rd (.var .kf))),
  .ite (.rd (.var .T)) (.num 1000 0) (.var .Kc) (.sub (.add (.add (.neg (.num 88013866199999988 16)) (.mul (.num 144871953 8) (.rd (.var .logT)))) (.mul (.rd (.var .T)) (.add (.neg (.num 11563023775 12)) (.mul (.rd (.var .T)) (.add (.num 93004028233333334 22) (.mul (.rd (.var .T)) (.add (.neg (.num 42357891125000007 25)) (.mul (.num 82748938799999987 29) (.rd (.var .T)))))))))) (.div (.neg (.num 35804150800000003 12)) (.rd (.var .T)))) (.sub (.add (.add (.num 52231715834999996 15) (.mul (.neg (.num 88395216249999997 16)) (.rd (.var .logT)))) (.mul (.rd (.var .T)) (.add (.num 84052411650000023 19) (.mul (.rd (.var .T)) (.add (.neg (.num 18390041849999995 22)) (.mul (.rd (.var .T)) (.add (.num 27266129550000002 26) (.mul (.neg (.num 18177768830000004 30)) (.rd (.var .T)))))))))) (.div (.neg (.num 33348057789999999 12)) (.rd (.var .T)))),
  .set (.var .Kc) (.mul (.num 1 0) (.exp (.rd (.var .Kc)))),
  .set (.arr .rev 190) (.div (.mul (.mul (.rd (.arr .C 29)) (.rd (.arr .C 12))) (.rd (.var .kf))) (.rd (.var .Kc)))]

/-- utilities/mechanisms/yao/lib/src/rxn_rates.c:2300-2301 -/
def rate191 : List CStmt := [
  .set (.arr .fwd 191) (.mul (.rd (.arr .C 31)) (.exp (.sub (.num 3084989694079675 14) (.div (.num 15106208503854987 12) (.rd (.var .T))))))]

/-- utilities/mechanisms/yao/lib/src/rxn_rates.c:2302-2303 -/
def rate192 : List CStmt := [
  .set (.arr .fwd 192) (.mul (.rd (.arr .C 31)) (.exp (.sub (.num 3084989694079675 14) (.div (.num 15106208503854987 12) (.rd (.var .T))))))]

/-- utilities/mechanisms/yao/lib/src/rxn_rates.c:2304-2327 -/
def rate193 : List CStmt := [
  .set (.var .kf) (.exp (.sub (.num 23311029872174121 15) (.div (.num 16408480351362714 13) (.rd (.var .T))))),
  .set (.arr .fwd 193) (.mul (.mul (.rd (.arr .C 1)) (.rd (.arr .C 32))) (.rd (.var .kf))),
  .ite (.rd (.var .T)) (.num 1000 0) (.var .Kc) (.sub (.add (.add (.num 2946682853 9) (.mul (.neg (.num 15 1)) (.rd (.var .logT)))) (.mul (.rd (.var .T)) (.add (.neg (.num 35266640949999999 29)) (.mul (.rd (.var .T)) (.add (.num 33265327333333333 32) (.mul (.rd (.var .T)) (.add (.neg (.num 19173469333333331 35)) (.mul (.num 46386616600000003 39) (.rd (.var .T)))))))))) (.div (.neg (.num 25473659899999999 12)) (.rd (.var .T)))) (.sub (.add (.add (.num 29466829240000001 16) (.mul (.neg (.num 15000000099999999 16)) (.rd (.var .logT)))) (.mul (.rd (.var .T)) (.add (.num 11542148649999999 27) (.mul (.rd (.var .T)) (.add (.neg (.num 26926991333333336 31)) (.mul (.rd (.var .T)) (.add (.num 39459602916666671 35) (.mul (.neg (.num 24909867850000001 39)) (.rd (.var .T)))))))))) (.div (.neg (.num 25473659899999999 12)) (.rd (.var .T)))),
  .ite (.rd (.var .T)) (.num 1392 0) (.var .Kc) (.add (.rd (.var .Kc)) (.sub (.add (.add (.neg (.num 33336213809999997 15)) (.mul (.num 20622348100000001 16) (.rd (.var .logT)))) (.mul (.rd (.var .T)) (.add (.neg (.num 287109147 10)) (.mul (.rd (.var .T)) (.add (.num 62414481666666671 22) (.mul (.rd (.var .T)) (.add (.neg (.num 10613749083333332 25)) (.mul (.num 89804894499999993 30) (.rd (.var .T)))))))))) (.div (.num 446546666 5) (.rd (.var .T))))) (.add (.rd (.var .Kc)) (.sub (.add (.add (.num 66953547499999999 15) (.mul (.neg (.num 135851539 7)) (.rd (.var .logT)))) (.mul (.rd (.var .T)) (.add (.neg (.num 1120362355 11)) (.mul (.rd (.var .T)) (.add (.num 12722467083333334 22) (.mul (.rd (.var .T)) (.add (.neg (.num 98490805000000006 27)) (.mul (.num 3421925695 24) (.rd (.var .T)))))))))) (.div (.num 100898205 4) (.rd (.var .T))))),
  .ite (.rd (.var .T)) (.num 1390 0) (.var .Kc) (.add (.rd (.var .Kc)) (.sub (.add (.add (.num 28671428191900002 15) (.mul (.neg (.num 9475615919 10)) (.rd (.var .logT)))) (.mul (.rd (.var .T)) (.add (.num 28039847900000001 18) (.mul (.rd (.var .T)) (.add (.neg (.num 55257633833333341 22)) (.mul (.rd (.var .T)) (.add (.num 81461148416666665 26) (.mul (.neg (.num 57004829999999998 30)) (.rd (.var .T)))))))))) (.div (.num 47161145999999999 13) (.rd (.var .T))))) (.add (.rd (.var .Kc)) (.sub (.add (.add (.neg (.num 69780673899999996 15)) (.mul (.num 142977446 7) (.rd (.var .logT)))) (.mul (.rd (.var .T)) (.add (.num 119867655 10) (.mul (.rd (.var .T)) (.add (.neg (.num 13639882466666667 22)) (.mul (.rd (.var .T)) (.add (.num 10573589666666666 26) (.mul (.neg (.num 36770452750000001 31)) (.rd (.var .T)))))))))) (.div (.neg (.num 98071230700000001 14)) (.rd (.var .T))))),
  .set (.var .Kc) (.mul (.num 82057360967184814 18) (.exp (.rd (.var .Kc)))),
  .set (.arr .rev 191) (.div (.mul (.rd (.arr .C 33)) (.rd (.var .kf))) (.rd (.var .Kc)))]

/-- utilities/mechanisms/yao/lib/src/rxn_rates.c:2328-2345 -/
def rate194 : List CStmt := [
  .set (.var .kf) (.exp (.sub (.sub (.num 43525973215572655 15) (.mul (.num 239 2) (.rd (.var .logT)))) (.div (.num 56259947351254386 13) (.rd (.var .T))))),
  .set (.arr .fwd 194) (.mul (.mul (.rd (.arr .C 1)) (.rd (.arr .C 32))) (.rd (.var .kf))),
  .ite (.rd (.var .T)) (.num 1000 0) (.var .Kc) (.sub (.add (.add (.num 23171729032999998 15) (.mul (.num 15083187799999997 16) (.rd (.var .logT)))) (.mul (.rd (.var .T)) (.add (.num 92192252646473346 19) (.mul (.rd (.var .T)) (.add (.num 99088801336659864 22) (.mul (.rd (.var .T)) (.add (.neg (.num 73961672751917343 25)) (.mul (.num 18180229000463866 28) (.rd (.var .T)))))))))) (.div (.neg (.num 10071537969999999 12)) (.rd (.var .T)))) (.sub (.add (.add (.neg (.num 12009103835999998 15)) (.mul (.num 624585905 8) (.rd (.var .logT)))) (.mul (.rd (.var .T)) (.add (.num 1533845006154215 17) (.mul (.rd (.var .T)) (.add (.neg (.num 19971338276926992 22)) (.mul (.rd (.var .T)) (.add (.num 18592606289459605 26) (.mul (.neg (.num 82284390249098673 31)) (.rd (.var .T)))))))))) (.div (.neg (.num 12557550159999999 12)) (.rd (.var .T)))),
  .ite (.rd (.var .T)) (.num 1392 0) (.var .Kc) (.add (.rd (.var .Kc)) (.sub (.add (.add (.neg (.num 33336213809999997 15)) (.mul (.num 20622348100000001 16) (.rd (.var .logT)))) (.mul (.rd (.var .T)) (.add (.neg (.num 287109147 10)) (.mul (.rd (.var .T)) (.add (.num 62414481666666671 22) (.mul (.rd (.var .T)) (.add (.neg (.num 10613749083333332 25)) (.mul (.num 89804894499999993 30) (.rd (.var .T)))))))))) (.div (.num 446546666 5) (.rd (.var .T))))) (.add (.rd (.var .Kc)) (.sub (.add (.add (.num 66953547499999999 15) (.mul (.neg (.num 135851539 7)) (.rd (.var .logT)))) (.mul (.rd (.var .T)) (.add (.neg (.num 1120362355 11)) (.mul (.rd (.var .T)) (.add (.num 12722467083333334 22) (.mul (.rd (.var .T)) (.add (.neg (.num 98490805000000006 27)) (.mul (.num 3421925695 24) (.rd (.var .T)))))))))) (.div (.num 100898205 4) (.rd (.var .T))))),
  .set (.var .Kc) (.mul (.num 1 0) (.exp (.rd (.var .Kc)))),
  .set (.arr .rev 192) (.div (.mul (.mul (.rd (.arr .C 26)) (.rd (.arr .C 20))) (.rd (.var .kf))) (.rd (.var .Kc)))]

/-- utilities/mechanisms/yao/lib/src/rxn_rates.c:2346-2363 -/
def rate195 : List CStmt := [
  .set (.var .kf) (.exp (.sub (.sub (.num 44219120396132602 15) (.mul (.num 239 2) (.rd (.var .logT)))) (.div (.num 56259947351254386 13) (.rd (.var .T))))),
  .set (.arr .fwd 195) (.mul (.mul (.rd (.arr .C 1)) (.rd (.arr .C 32))) (.rd (.var .kf))),
  .ite (.rd (.var .T)) (.num 1000 0) (.var .Kc) (.sub (.add (.add (.num 17999459413 9) (.mul (.num 22997726799999993 16) (.rd (.var .logT)))) (.mul (.rd (.var .T)) (.add (.num 83692955396473343 19) (.mul (.rd (.var .T)) (.add (.num 90335124503326545 22) (.mul (.rd (.var .T)) (.add (.neg (.num 63834817168584013 25)) (.mul (.num 15104523200463867 28) (.rd (.var .T)))))))))) (.div (.neg (.num 11557207399999999 12)) (.rd (.var .T)))) (.sub (.add (.add (.neg (.num 55911461960000013 16)) (.mul (.num 51869134099999998 16) (.rd (.var .logT)))) (.mul (.rd (.var .T)) (.add (.num 16152806111542149 18) (.mul (.rd (.var .T)) (.add (.neg (.num 21553276160260324 22)) (.mul (.rd (.var .T)) (.add (.num 20611492456126267 26) (.mul (.neg (.num 93651808249098658 31)) (.rd (.var .T)))))))))) (.div (.neg (.num 13539710199999998 12)) (.rd (.var .T)))),
  .ite (.rd (.var .T)) (.num 1392 0) (.var .Kc) (.add (.rd (.var .Kc)) (.sub (.add (.add (.neg (.num 33336213809999997 15)) (.mul (.num 20622348100000001 16) (.rd (.var .logT)))) (.mul (.rd (.var .T)) (.add (.neg (.num 287109147 10)) (.mul (.rd (.var .T)) (.add (.num 62414481666666671 22) (.mul (.rd (.var .T)) (.add (.neg (.num 10613749083333332 25)) (.mul (.num 89804894499999993 30) (.rd (.var .T)))))))))) (.div (.num 446546666 5) (.rd (.var .T))))) (.add (.rd (.var .Kc)) (.sub (.add (.add (.num 66953547499999999 15) (.mul (.neg (.num 135851539 7)) (.rd (.var .logT)))) (.mul (.rd (.var .T)) (.add (.neg (.num 1120362355 11)) (.mul (.rd (.var .T)) (.add (.num 12722467083333334 22) (.mul (.rd (.var .T)) (.add (.neg (.num 98490805000000006 27)) (.mul (.num 3421925695 24) (.rd (.var .T)))))))))) (.div (.num 100898205 4) (.rd (.var .T))))),
  .set (.var .Kc) (.mul (.num 1 0) (.exp (.rd (.var .Kc)))),
  .set (.arr .rev 193) (.div (.mul (.mul (.rd (.arr .C 25)) (.rd (.arr .C 21))) (.rd (.var .kf))) (.rd (.var .Kc)))]

/-- utilities/mechanisms/yao/lib/src/rxn_rates.c:2364-2381 -/
def rate196 : List CStmt := [
  .set (.var .kf) (.exp (.sub (.num 19519293032620475 15) (.div (.num 3673502823471887 12) (.rd (.var .T))))),
  .set (.arr .fwd 196) (.mul (.mul (.rd (.arr .C 26)) (.rd (.arr .C 20))) (.rd (.var .kf))),
  .ite (.rd (.var .T)) (.num 1000 0) (.var .Kc) (.sub (.add (.add (.neg (.num 2022504618 8)) (.mul (.neg (.num 30083187799999997 16)) (.rd (.var .logT)))) (.mul (.rd (.var .T)) (.add (.neg (.num 92192252650000004 19)) (.mul (.rd (.var .T)) (.add (.neg (.num 99088801333333328 22)) (.mul (.rd (.var .T)) (.add (.num 73961672749999997 25) (.mul (.neg (.num 18180229 19)) (.rd (.var .T)))))))))) (.div (.neg (.num 15402121929999999 12)) (.rd (.var .T)))) (.sub (.add (.add (.num 14955786759999999 15) (.mul (.neg (.num 77458590599999999 16)) (.rd (.var .logT)))) (.mul (.rd (.var .T)) (.add (.neg (.num 15338450050000001 18)) (.mul (.rd (.var .T)) (.add (.num 19971338250000001 22) (.mul (.rd (.var .T)) (.add (.neg (.num 18592606250000004 26)) (.mul (.num 82284390000000002 31) (.rd (.var .T)))))))))) (.div (.neg (.num 1291610974 5)) (.rd (.var .T)))),
  .ite (.rd (.var .T)) (.num 1390 0) (.var .Kc) (.add (.rd (.var .Kc)) (.sub (.add (.add (.num 28671428191900002 15) (.mul (.neg (.num 9475615919 10)) (.rd (.var .logT)))) (.mul (.rd (.var .T)) (.add (.num 28039847900000001 18) (.mul (.rd (.var .T)) (.add (.neg (.num 55257633833333341 22)) (.mul (.rd (.var .T)) (.add (.num 81461148416666665 26) (.mul (.neg (.num 57004829999999998 30)) (.rd (.var .T)))))))))) (.div (.num 47161145999999999 13) (.rd (.var .T))))) (.add (.rd (.var .Kc)) (.sub (.add (.add (.neg (.num 69780673899999996 15)) (.mul (.num 142977446 7) (.rd (.var .logT)))) (.mul (.rd (.var .T)) (.add (.num 119867655 10) (.mul (.rd (.var .T)) (.add (.neg (.num 13639882466666667 22)) (.mul (.rd (.var .T)) (.add (.num 10573589666666666 26) (.mul (.neg (.num 36770452750000001 31)) (.rd (.var .T)))))))))) (.div (.neg (.num 98071230700000001 14)) (.rd (.var .T))))),
  .set (.var .Kc) (.mul (.num 82057360967184814 18) (.exp (.rd (.var .Kc)))),
  .set (.arr .rev 194) (.div (.mul (.rd (.arr .C 33)) (.rd (.var .kf))) (.rd (.var .Kc)))]

/-- utilities/mechanisms/yao/lib/src/rxn_rates.c:2382-2405 -/
def rate197 : List CStmt := [
  .set (.var .kf) (.exp (.sub (.num 23311029872174121 15) (.div (.num 16408480351362714 13) (.rd (.var .T))))),
  .set (.arr .fwd 197) (.mul (.mul (.rd (.arr .C 1)) (.rd (.arr .C 34))) (.rd (.var .kf))),
  .ite (.rd (.var .T)) (.num 1000 0) (.var .Kc) (.sub (.add (.add (.num 2946682853 9) (.mul (.neg (.num 15 1)) (.rd (.var .logT)))) (.mul (.rd (.var .T)) (.add (.neg (.num 35266640949999999 29)) (.mul (.rd (.var .T)) (.add (.num 33265327333333333 32) (.mul (.rd (.var .T)) (.add (.neg (.num 19173469333333331 35)) (.mul (.num 46386616600000003 39) (.rd (.var .T)))))))))) (.div (.neg (.num 25473659899999999 12)) (.rd (.var .T)))) (.sub (.add (.add (.num 29466829240000001 16) (.mul (.neg (.num 15000000099999999 16)) (.rd (.var .logT)))) (.mul (.rd (.var .T)) (.add (.num 11542148649999999 27) (.mul (.rd (.var .T)) (.add (.neg (.num 26926991333333336 31)) (.mul (.rd (.var .T)) (.add (.num 39459602916666671 35) (.mul (.neg (.num 24909867850000001 39)) (.rd (.var .T)))))))))) (.div (.neg (.num 25473659899999999 12)) (.rd (.var .T)))),
  .ite (.rd (.var .T)) (.num 1392 0) (.var .Kc) (.add (.rd (.var .Kc)) (.sub (.add (.add (.neg (.num 36664821150000002 15)) (.mul (.num 23527520500000003 16) (.rd (.var .logT)))) (.mul (.rd (.var .T)) (.add (.neg (.num 34932771299999998 18)) (.mul (.rd (.var .T)) (.add (.num 76568003666666674 22) (.mul (.rd (.var .T)) (.add (.neg (.num 13080611916666668 25)) (.mul (.num 11064808750000001 29) (.rd (.var .T)))))))))) (.div (.num 73436861699999999 13) (.rd (.var .T))))) (.add (.rd (.var .Kc)) (.sub (.add (.add (.num 86215638000000013 15) (.mul (.neg (.num 168337529 7)) (.rd (.var .logT)))) (.mul (.rd (.var .T)) (.add (.neg (.num 133688829 10)) (.mul (.rd (.var .T)) (.add (.num 15167279550000001 22) (.mul (.rd (.var .T)) (.add (.neg (.num 11734980666666667 26)) (.mul (.num 40756212200000003 31) (.rd (.var .T)))))))))) (.div (.num 14206286 3) (.rd (.var .T))))),
  .ite (.rd (.var .T)) (.num 1390 0) (.var .Kc) (.add (.rd (.var .Kc)) (.sub (.add (.add (.num 31812380765 9) (.mul (.neg (.num 12048714650000001 16)) (.rd (.var .logT)))) (.mul (.rd (.var .T)) (.add (.num 34190063600000001 18) (.mul (.rd (.var .T)) (.add (.neg (.num 69074651999999995 22)) (.mul (.rd (.var .T)) (.add (.num 105129835 17) (.mul (.neg (.num 76560028999999992 30)) (.rd (.var .T)))))))))) (.div (.num 183280393 5) (.rd (.var .T))))) (.add (.rd (.var .Kc)) (.sub (.add (.add (.neg (.num 88987641300000007 15)) (.mul (.num 17538547000000001 15) (.rd (.var .logT)))) (.mul (.rd (.var .T)) (.add (.num 14155398099999999 18) (.mul (.rd (.var .T)) (.add (.neg (.num 16088454099999999 22)) (.mul (.rd (.var .T)) (.add (.num 1246229875 19) (.mul (.neg (.num 43316803200000002 31)) (.rd (.var .T)))))))))) (.div (.neg (.num 50929904100000003 13)) (.rd (.var .T))))),
  .set (.var .Kc) (.mul (.num 82057360967184814 18) (.exp (.rd (.var .Kc)))),
  .set (.arr .rev 195) (.div (.mul (.rd (.arr .C 35)) (.rd (.var .kf))) (.rd (.var .Kc)))]

/-- utilities/mechanisms/yao/lib/src/rxn_rates.c:2406-2423 -/
def rate198 : List CStmt := [
  .set (.var .kf) (.exp (.sub (.sub (.num 43525973215572655 15) (.mul (.num 239 2) (.rd (.var .logT)))) (.div (.num 56259947351254386 13) (.rd (.var .T))))),
  .set (.arr .fwd 198) (.mul (.mul (.rd (.arr .C 1)) (.rd (.arr .C 34))) (.rd (.var .kf))),
  .ite (.rd (.var .T)) (.num 1000 0) (.var .Kc) (.sub (.add (.add (.num 24045376132999998 15) (.mul (.num 16679056799999996 16) (.rd (.var .logT)))) (.mul (.rd (.var .T)) (.add (.num 15363487264647334 18) (.mul (.rd (.var .T)) (.add (.num 83054963836659869 22) (.mul (.rd (.var .T)) (.add (.neg (.num 70489518585250676 25)) (.mul (.num 17837190400463867 28) (.rd (.var .T)))))))))) (.div (.neg (.num 1306177997 5)) (.rd (.var .T)))) (.sub (.add (.add (.neg (.num 15358045435999994 15)) (.mul (.num 72183506499999988 16) (.rd (.var .logT)))) (.mul (.rd (.var .T)) (.add (.num 19168243061542148 18) (.mul (.rd (.var .T)) (.add (.neg (.num 23842776110260323 22)) (.mul (.rd (.var .T)) (.add (.num 17804171622792935 26) (.mul (.neg (.num 3543046274909868 30)) (.rd (.var .T)))))))))) (.div (.neg (.num 1556936796 5)) (.rd (.var .T)))),
  .ite (.rd (.var .T)) (.num 1392 0) (.var .Kc) (.add (.rd (.var .Kc)) (.sub (.add (.add (.neg (.num 36664821150000002 15)) (.mul (.num 23527520500000003 16) (.rd (.var .logT)))) (.mul (.rd (.var .T)) (.add (.neg (.num 34932771299999998 18)) (.mul (.rd (.var .T)) (.add (.num 76568003666666674 22) (.mul (.rd (.var .T)) (.add (.neg (.num 13080611916666668 25)) (.mul (.num 11064808750000001 29) (.rd (.var .T)))))))))) (.div (.num 73436861699999999 13) (.rd (.var .T))))) (.add (.rd (.var .Kc)) (.sub (.add (.add (.num 86215638000000013 15) (.mul (.neg (.num 168337529 7)) (.rd (.var .logT)))) (.mul (.rd (.var .T)) (.add (.neg (.num 133688829 10)) (.mul (.rd (.var .T)) (.add (.num 15167279550000001 22) (.mul (.rd (.var .T)) (.add (.neg (.num 11734980666666667 26)) (.mul (.num 40756212200000003 31) (.rd (.var .T)))))))))) (.div (.num 14206286 3) (.rd (.var .T))))),
  .set (.var .Kc) (.mul (.num 1 0) (.exp (.rd (.var .Kc)))),
  .set (.arr .rev 196) (.div (.mul (.mul (.rd (.arr .C 30)) (.rd (.arr .C 20))) (.rd (.var .kf))) (.rd (.var .Kc)))]

/-- utilities/mechanisms/yao/lib/src/rxn_rates.c:2424-2441 -/
def rate199 : List CStmt := [
  .set (.var .kf) (.exp (.sub (.sub (.num 44219120396132602 15) (.mul (.num 239 2) (.rd (.var .logT)))) (.div (.num 56259947351254386 13) (.rd (.var .T))))),
  .set (.arr .fwd 199) (.mul (.mul (.rd (.arr .C 1)) (.rd (.arr .C 34))) (.rd (.var .kf))),
  .ite (.rd (.var .T)) (.num 1000 0) (.var .Kc) (.sub (.add (.add (.num 37685632552999998 15) (.mul (.neg (.num 95757570000000003 17)) (.rd (.var .logT)))) (.mul (.rd (.var .T)) (.add (.num 23467076499647337 18) (.mul (.rd (.var .T)) (.add (.num 11401742669993201 22) (.mul (.rd (.var .T)) (.add (.neg (.num 30236876668584016 25)) (.mul (.num 82650833504638664 29) (.rd (.var .T)))))))))) (.div (.neg (.num 140864879 4)) (.rd (.var .T)))) (.sub (.add (.add (.neg (.num 40323968976000003 15)) (.mul (.num 1094200489 8) (.rd (.var .logT)))) (.mul (.rd (.var .T)) (.add (.num 15469912511542151 18) (.mul (.rd (.var .T)) (.add (.neg (.num 17036538026926989 22)) (.mul (.rd (.var .T)) (.add (.num 1233404770612627 25) (.mul (.neg (.num 38262379749098679 31)) (.rd (.var .T)))))))))) (.div (.neg (.num 18421006600000001 12)) (.rd (.var .T)))),
  .ite (.rd (.var .T)) (.num 1392 0) (.var .Kc) (.add (.rd (.var .Kc)) (.sub (.add (.add (.neg (.num 36664821150000002 15)) (.mul (.num 23527520500000003 16) (.rd (.var .logT)))) (.mul (.rd (.var .T)) (.add (.neg (.num 34932771299999998 18)) (.mul (.rd (.var .T)) (.add (.num 76568003666666674 22) (.mul (.rd (.var .T)) (.add (.neg (.num 13080611916666668 25)) (.mul (.num 11064808750000001 29) (.rd (.var .T)))))))))) (.div (.num 73436861699999999 13) (.rd (.var .T))))) (.add (.rd (.var .Kc)) (.sub (.add (.add (.num 86215638000000013 15) (.mul (.neg (.num 168337529 7)) (.rd (.var .logT)))) (.mul (.rd (.var .T)) (.add (.neg (.num 133688829 10)) (.mul (.rd (.var .T)) (.add (.num 15167279550000001 22) (.mul (.rd (.var .T)) (.add (.neg (.num 11734980666666667 26)) (.mul (.num 40756212200000003 31) (.rd (.var .T)))))))))) (.div (.num 14206286 3) (.rd (.var .T))))),
  .set (.var .Kc) (.mul (.num 1 0) (.exp (.rd (.var .Kc)))),
  .set (.arr .rev 197) (.div (.mul (.mul (.rd (.arr .C 25)) (.rd (.arr .C 26))) (.rd (.var .kf))) (.rd (.var .Kc)))]

/-- utilities/mechanisms/yao/lib/src/rxn_rates.c:2442-2459 -/
def rate200 : List CStmt := [
  .set (.var .kf) (.exp (.sub (.num 19519293032620475 15) (.div (.num 3673502823471887 12) (.rd (.var .T))))),
  .set (.arr .fwd 200) (.mul (.mul (.rd (.arr .C 30)) (.rd (.arr .C 20))) (.rd (.var .kf))),
  .ite (.rd (.var .T)) (.num 1000 0) (.var .Kc) (.sub (.add (.add (.neg (.num 21098693279999999 15)) (.mul (.neg (.num 31679056799999996 16)) (.rd (.var .logT)))) (.mul (.rd (.var .T)) (.add (.neg (.num 15363487265 12)) (.mul (.rd (.var .T)) (.add (.neg (.num 83054963833333333 22)) (.mul (.rd (.var .T)) (.add (.num 7048951858333333 24) (.mul (.neg (.num 17837190400000002 28)) (.rd (.var .T)))))))))) (.div (.neg (.num 12411879929999999 12)) (.rd (.var .T)))) (.sub (.add (.add (.num 18304728359999995 15) (.mul (.neg (.num 87183506599999987 16)) (.rd (.var .logT)))) (.mul (.rd (.var .T)) (.add (.neg (.num 19168243049999999 18)) (.mul (.rd (.var .T)) (.add (.num 23842776083333332 22) (.mul (.rd (.var .T)) (.add (.neg (.num 17804171583333334 26)) (.mul (.num 35430462500000001 31) (.rd (.var .T)))))))))) (.div (.neg (.num 99042919399999992 13)) (.rd (.var .T)))),
  .ite (.rd (.var .T)) (.num 1390 0) (.var .Kc) (.add (.rd (.var .Kc)) (.sub (.add (.add (.num 31812380765 9) (.mul (.neg (.num 12048714650000001 16)) (.rd (.var .logT)))) (.mul (.rd (.var .T)) (.add (.num 34190063600000001 18) (.mul (.rd (.var .T)) (.add (.neg (.num 69074651999999995 22)) (.mul (.rd (.var .T)) (.add (.num 105129835 17) (.mul (.neg (.num 76560028999999992 30)) (.rd (.var .T)))))))))) (.div (.num 183280393 5) (.rd (.var .T))))) (.add (.rd (.var .Kc)) (.sub (.add (.add (.neg (.num 88987641300000007 15)) (.mul (.num 17538547000000001 15) (.rd (.var .logT)))) (.mul (.rd (.var .T)) (.add (.num 14155398099999999 18) (.mul (.rd (.var .T)) (.add (.neg (.num 16088454099999999 22)) (.mul (.rd (.var .T)) (.add (.num 1246229875 19) (.mul (.neg (.num 43316803200000002 31)) (.rd (.var .T)))))))))) (.div (.neg (.num 50929904100000003 13)) (.rd (.var .T))))),
  .set (.var .Kc) (.mul (.num 82057360967184814 18) (.exp (.rd (.var .Kc)))),
  .set (.arr .rev 198) (.div (.mul (.rd (.arr .C 35)) (.rd (.var .kf))) (.rd (.var .Kc)))]

/-- utilities/mechanisms/yao/lib/src/rxn_rates.c:2460-2483 -/
def rate201 : List CStmt := [
  .set (.var .kf) (.exp (.sub (.num 23311029872174121 15) (.div (.num 16408480351362714 13) (.rd (.var .T))))),
  .set (.arr .fwd 201) (.mul (.mul (.rd (.arr .C 1)) (.rd (.arr .C 36))) (.rd (.var .kf))),
  .ite (.rd (.var .T)) (.num 1000 0) (.var .Kc) (.sub (.add (.add (.num 2946682853 9) (.mul (.neg (.num 15 1)) (.rd (.var .logT)))) (.mul (.rd (.var .T)) (.add (.neg (.num 35266640949999999 29)) (.mul (.rd (.var .T)) (.add (.num 33265327333333333 32) (.mul (.rd (.var .T)) (.add (.neg (.num 19173469333333331 35)) (.mul (.num 46386616600000003 39) (.rd (.var .T)))))))))) (.div (.neg (.num 25473659899999999 12)) (.rd (.var .T)))) (.sub (.add (.add (.num 29466829240000001 16) (.mul (.neg (.num 15000000099999999 16)) (.rd (.var .logT)))) (.mul (.rd (.var .T)) (.add (.num 11542148649999999 27) (.mul (.rd (.var .T)) (.add (.neg (.num 26926991333333336 31)) (.mul (.rd (.var .T)) (.add (.num 39459602916666671 35) (.mul (.neg (.num 24909867850000001 39)) (.rd (.var .T)))))))))) (.div (.neg (.num 25473659899999999 12)) (.rd (.var .T)))),
  .ite (.rd (.var .T)) (.num 1392 0) (.var .Kc) (.add (.rd (.var .Kc)) (.sub (.add (.add (.neg (.num 40184008689999999 15)) (.mul (.num 267720549 8) (.rd (.var .logT)))) (.mul (.rd (.var .T)) (.add (.neg (.num 4123058005 11)) (.mul (.rd (.var .T)) (.add (.num 91084017999999997 22) (.mul (.rd (.var .T)) (.add (.neg (.num 15655191916666667 25)) (.mul (.num 13286899149999999 29) (.rd (.var .T)))))))))) (.div (.num 102168601 4) (.rd (.var .T))))) (.add (.rd (.var .Kc)) (.sub (.add (.add (.num 1055289147 7) (.mul (.neg (.num 200898039 7)) (.rd (.var .logT)))) (.mul (.rd (.var .T)) (.add (.neg (.num 155303939 10)) (.mul (.rd (.var .T)) (.add (.num 17607465499999998 22) (.mul (.rd (.var .T)) (.add (.neg (.num 13617148333333333 26)) (.mul (.num 47279910950000003 31) (.rd (.var .T)))))))))) (.div (.num 183260065 4) (.rd (.var .T))))),
  .ite (.rd (.var .T)) (.num 1390 0) (.var .Kc) (.add (.rd (.var .Kc)) (.sub (.add (.add (.num 35155971505999993 15) (.mul (.neg (.num 14995704060000001 16)) (.rd (.var .logT)))) (.mul (.rd (.var .T)) (.add (.num 40441323350000002 18) (.mul (.rd (.var .T)) (.add (.neg (.num 8342212566666667 21)) (.mul (.rd (.var .T)) (.add (.num 13045775666666668 25) (.mul (.neg (.num 98308113500000002 30)) (.rd (.var .T)))))))))) (.div (.neg (.num 10459022299999999 13)) (.rd (.var .T))))) (.add (.rd (.var .Kc)) (.sub (.add (.add (.neg (.num 108289502 6)) (.mul (.num 20794070900000001 15) (.rd (.var .logT)))) (.mul (.rd (.var .T)) (.add (.num 16314012150000001 18) (.mul (.rd (.var .T)) (.add (.neg (.num 18523040666666668 22)) (.mul (.rd (.var .T)) (.add (.num 14338929 17) (.mul (.neg (.num 49818349949999998 31)) (.rd (.var .T)))))))))) (.div (.neg (.num 92093822099999998 13)) (.rd (.var .T))))),
  .set (.var .Kc) (.mul (.num 82057360967184814 18) (.exp (.rd (.var .Kc)))),
  .set (.arr .rev 199) (.div (.mul (.rd (.arr .C 37)) (.rd (.var .kf))) (.rd (.var .Kc)))]

/-- utilities/mechanisms/yao/lib/src/rxn_rates.c:2484-2507 -/
def rate202 : List CStmt := [
  .set (.var .kf) (.exp (.sub (.sub (.num 43525973215572655 15) (.mul (.num 239 2) (.rd (.var .logT)))) (.div (.num 56259947351254386 13) (.rd (.var .T))))),
  .set (.arr .fwd 202) (.mul (.mul (.rd (.arr .C 1)) (.rd (.arr .C 36))) (.rd (.var .kf))),
  .ite (.rd (.var .T)) (.num 1000 0) (.var .Kc) (.sub (.add (.add (.num 30848123329999999 16) (.mul (.num 14592014799999999 16) (.rd (.var .logT)))) (.mul (.rd (.var .T)) (.add (.neg (.num 37852612353526664 19)) (.mul (.rd (.var .T)) (.add (.num 95165048669993201 22) (.mul (.rd (.var .T)) (.add (.neg (.num 57632396085250677 25)) (.mul (.num 13494218650463866 28) (.rd (.var .T)))))))))) (.div (.neg (.num 20383883969999999 12)) (.rd (.var .T)))) (.sub (.add (.add (.num 11215941064000003 15) (.mul (.neg (.num 46388885000000002 17)) (.rd (.var .logT)))) (.mul (.rd (.var .T)) (.add (.num 73227075615421482 19) (.mul (.rd (.var .T)) (.add (.neg (.num 11184631943593659 22)) (.mul (.rd (.var .T)) (.add (.num 1226857695612627 25) (.mul (.neg (.num 62853030749098679 31)) (.rd (.var .T)))))))))) (.div (.neg (.num 2053377376 5)) (.rd (.var .T)))),
  .ite (.rd (.var .T)) (.num 1392 0) (.var .Kc) (.add (.rd (.var .Kc)) (.sub (.add (.add (.neg (.num 40184008689999999 15)) (.mul (.num 267720549 8) (.rd (.var .logT)))) (.mul (.rd (.var .T)) (.add (.neg (.num 4123058005 11)) (.mul (.rd (.var .T)) (.add (.num 91084017999999997 22) (.mul (.rd (.var .T)) (.add (.neg (.num 15655191916666667 25)) (.mul (.num 13286899149999999 29) (.rd (.var .T)))))))))) (.div (.num 102168601 4) (.rd (.var .T))))) (.add (.rd (.var .Kc)) (.sub (.add (.add (.num 1055289147 7) (.mul (.neg (.num 200898039 7)) (.rd (.var .logT)))) (.mul (.rd (.var .T)) (.add (.neg (.num 155303939 10)) (.mul (.rd (.var .T)) (.add (.num 17607465499999998 22) (.mul (.rd (.var .T)) (.add (.neg (.num 13617148333333333 26)) (.mul (.num 47279910950000003 31) (.rd (.var .T)))))))))) (.div (.num 183260065 4) (.rd (.var .T))))),
  .ite (.rd (.var .T)) (.num 1390 0) (.var .Kc) (.add (.rd (.var .Kc)) (.sub (.add (.add (.num 28671428191900002 15) (.mul (.neg (.num 9475615919 10)) (.rd (.var .logT)))) (.mul (.rd (.var .T)) (.add (.num 28039847900000001 18) (.mul (.rd (.var .T)) (.add (.neg (.num 55257633833333341 22)) (.mul (.rd (.var .T)) (.add (.num 81461148416666665 26) (.mul (.neg (.num 57004829999999998 30)) (.rd (.var .T)))))))))) (.div (.num 47161145999999999 13) (.rd (.var .T))))) (.add (.rd (.var .Kc)) (.sub (.add (.add (.neg (.num 69780673899999996 15)) (.mul (.num 142977446 7) (.rd (.var .logT)))) (.mul (.rd (.var .T)) (.add (.num 119867655 10) (.mul (.rd (.var .T)) (.add (.neg (.num 13639882466666667 22)) (.mul (.rd (.var .T)) (.add (.num 10573589666666666 26) (.mul (.neg (.num 36770452750000001 31)) (.rd (.var .T)))))))))) (.div (.neg (.num 98071230700000001 14)) (.rd (.var .T))))),
  .set (.var .Kc) (.mul (.num 1 0) (.exp (.rd (.var .Kc)))),
  .set (.arr .rev 200) (.div (.mul (.mul (.rd (.arr .C 33)) (.rd (.arr .C 20))) (.rd (.var .kf))) (.rd (.var .Kc)))]

/-- utilities/mechanisms/yao/lib/src/rxn_rates.c:2508-2525 -/
def rate203 : List CStmt := [
  .set (.var .kf) (.exp (.sub (.sub (.num 44219120396132602 15) (.mul (.num 239 2) (.rd (.var .logT)))) (.div (.num 56259947351254386 13) (.rd (.var .T))))),
  .set (.arr .fwd 203) (.mul (.mul (.rd (.arr .C 1)) (.rd (.arr .C 36))) (.rd (.var .kf))),
  .ite (.rd (.var .T)) (.num 1000 0) (.var .Kc) (.sub (.add (.add (.num 38559279652999997 15) (.mul (.neg (.num 79798880000000016 17)) (.rd (.var .logT)))) (.mul (.rd (.var .T)) (.add (.num 29611338499647335 18) (.mul (.rd (.var .T)) (.add (.neg (.num 46320948300068007 23)) (.mul (.rd (.var .T)) (.add (.neg (.num 26764722501917349 25)) (.mul (.num 79220447504638659 29) (.rd (.var .T)))))))))) (.div (.neg (.num 17076729899999998 12)) (.rd (.var .T)))) (.sub (.add (.add (.neg (.num 43672910575999992 15)) (.mul (.num 11914496489999998 15) (.rd (.var .logT)))) (.mul (.rd (.var .T)) (.add (.num 19299705511542149 18) (.mul (.rd (.var .T)) (.add (.neg (.num 20907975860260322 22)) (.mul (.rd (.var .T)) (.add (.num 11545613039459604 26) (.mul (.num 85915477509013228 32) (.rd (.var .T)))))))))) (.div (.neg (.num 21432824399999998 12)) (.rd (.var .T)))),
  .ite (.rd (.var .T)) (.num 1392 0) (.var .Kc) (.add (.rd (.var .Kc)) (.sub (.add (.add (.neg (.num 40184008689999999 15)) (.mul (.num 267720549 8) (.rd (.var .logT)))) (.mul (.rd (.var .T)) (.add (.neg (.num 4123058005 11)) (.mul (.rd (.var .T)) (.add (.num 91084017999999997 22) (.mul (.rd (.var .T)) (.add (.neg (.num 15655191916666667 25)) (.mul (.num 13286899149999999 29) (.rd (.var .T)))))))))) (.div (.num 102168601 4) (.rd (.var .T))))) (.add (.rd (.var .Kc)) (.sub (.add (.add (.num 1055289147 7) (.mul (.neg (.num 200898039 7)) (.rd (.var .logT)))) (.mul (.rd (.var .T)) (.add (.neg (.num 155303939 10)) (.mul (.rd (.var .T)) (.add (.num 17607465499999998 22) (.mul (.rd (.var .T)) (.add (.neg (.num 13617148333333333 26)) (.mul (.num 47279910950000003 31) (.rd (.var .T)))))))))) (.div (.num 183260065 4) (.rd (.var .T))))),
  .set (.var .Kc) (.mul (.num 1 0) (.exp (.rd (.var .Kc)))),
  .set (.arr .rev 201) (.div (.mul (.mul (.rd (.arr .C 25)) (.rd (.arr .C 30))) (.rd (.var .kf))) (.rd (.var .Kc)))]

/-- utilities/mechanisms/yao/lib/src/rxn_rates.c:2526-2543 -/
def rate204 : List CStmt := [
  .set (.var .kf) (.exp (.sub (.num 19519293032620475 15) (.div (.num 3673502823471887 12) (.rd (.var .T))))),
  .set (.arr .fwd 204) (.mul (.mul (.rd (.arr .C 33)) (.rd (.arr .C 20))) (.rd (.var .kf))),
  .ite (.rd (.var .T)) (.num 1000 0) (.var .Kc) (.sub (.add (.add (.neg (.num 13812947999999992 17)) (.mul (.neg (.num 29592014799999999 16)) (.rd (.var .logT)))) (.mul (.rd (.var .T)) (.add (.num 37852612350000002 19) (.mul (.rd (.var .T)) (.add (.neg (.num 95165048666666665 22)) (.mul (.rd (.var .T)) (.add (.num 5763239608333333 24) (.mul (.neg (.num 13494218650000001 28)) (.rd (.var .T)))))))))) (.div (.neg (.num 50897759299999998 13)) (.rd (.var .T)))) (.sub (.add (.add (.neg (.num 82692581400000016 16)) (.mul (.neg (.num 10361111599999999 16)) (.rd (.var .logT)))) (.mul (.rd (.var .T)) (.add (.neg (.num 73227075499999999 19)) (.mul (.rd (.var .T)) (.add (.num 11184631916666668 22) (.mul (.rd (.var .T)) (.add (.neg (.num 12268576916666668 26)) (.mul (.num 628530305 23) (.rd (.var .T)))))))))) (.div (.neg (.num 49398861399999996 13)) (.rd (.var .T)))),
  .ite (.rd (.var .T)) (.num 1390 0) (.var .Kc) (.add (.rd (.var .Kc)) (.sub (.add (.add (.num 64845433140999909 16) (.mul (.neg (.num 55200881410000013 17)) (.rd (.var .logT)))) (.mul (.rd (.var .T)) (.add (.num 12401475450000001 18) (.mul (.rd (.var .T)) (.add (.neg (.num 28164491833333329 22)) (.mul (.rd (.var .T)) (.add (.num 48996608250000019 26) (.mul (.neg (.num 41303283500000003 30)) (.rd (.var .T)))))))))) (.div (.neg (.num 57620168299999996 13)) (.rd (.var .T))))) (.add (.rd (.var .Kc)) (.sub (.add (.add (.neg (.num 38508828100000002 15)) (.mul (.num 64963263000000016 16) (.rd (.var .logT)))) (.mul (.rd (.var .T)) (.add (.num 43272466500000016 19) (.mul (.rd (.var .T)) (.add (.neg (.num 48831582000000005 23)) (.mul (.rd (.var .T)) (.add (.num 37653393333333335 27) (.mul (.neg (.num 13047897199999997 31)) (.rd (.var .T)))))))))) (.div (.neg (.num 8228669903 6)) (.rd (.var .T))))),
  .set (.var .Kc) (.mul (.num 82057360967184814 18) (.exp (.rd (.var .Kc)))),
  .set (.arr .rev 202) (.div (.mul (.rd (.arr .C 37)) (.rd (.var .kf))) (.rd (.var .Kc)))]

/-- utilities/mechanisms/yao/lib/src/rxn_rates.c:2544-2567 -/
def rate205 : List CStmt := [
  .set (.var .kf) (.exp (.sub (.num 23311029872174121 15) (.div (.num 16408480351362714 13) (.rd (.var .T))))),
  .set (.arr .fwd 205) (.mul (.mul (.rd (.arr .C 1)) (.rd (.arr .C 38))) (.rd (.var .kf))),
  .ite (.rd (.var .T)) (.num 1000 0) (.var .Kc) (.sub (.add (.add (.num 2946682853 9) (.mul (.neg (.num 15 1)) (.rd (.var .logT)))) (.mul (.rd (.var .T)) (.add (.neg (.num 35266640949999999 29)) (.mul (.rd (.var .T)) (.add (.num 33265327333333333 32) (.mul (.rd (.var .T)) (.add (.neg (.num 19173469333333331 35)) (.mul (.num 46386616600000003 39) (.rd (.var .T)))))))))) (.div (.neg (.num 25473659899999999 12)) (.rd (.var .T)))) (.sub (.add (.add (.num 29466829240000001 16) (.mul (.neg (.num 15000000099999999 16)) (.rd (.var .logT)))) (.mul (.rd (.var .T)) (.add (.num 11542148649999999 27) (.mul (.rd (.var .T)) (.add (.neg (.num 26926991333333336 31)) (.mul (.rd (.var .T)) (.add (.num 39459602916666671 35) (.mul (.neg (.num 24909867850000001 39)) (.rd (.var .T)))))))))) (.div (.neg (.num 25473659899999999 12)) (.rd (.var .T)))),
  .ite (.rd (.var .T)) (.num 1392 0) (.var .Kc) (.add (.rd (.var .Kc)) (.sub (.add (.add (.neg (.num 43080167249999995 15)) (.mul (.num 28922691499999997 16) (.rd (.var .logT)))) (.mul (.rd (.var .T)) (.add (.neg (.num 47303317849999998 18)) (.mul (.rd (.var .T)) (.add (.num 10456425350000001 21) (.mul (.rd (.var .T)) (.add (.neg (.num 17929859083333332 25)) (.mul (.num 15135934150000002 29) (.rd (.var .T)))))))))) (.div (.num 13107455900000001 12) (.rd (.var .T))))) (.add (.rd (.var .Kc)) (.sub (.add (.add (.num 1248917285 7) (.mul (.neg (.num 233540125 7)) (.rd (.var .logT)))) (.mul (.rd (.var .T)) (.add (.neg (.num 17683323099999999 18)) (.mul (.rd (.var .T)) (.add (.num 20034731333333335 22) (.mul (.rd (.var .T)) (.add (.neg (.num 15487921083333335 26)) (.mul (.num 53761130999999999 31) (.rd (.var .T)))))))))) (.div (.num 224485674 4) (.rd (.var .T))))),
  .ite (.rd (.var .T)) (.num 1390 0) (.var .Kc) (.add (.rd (.var .Kc)) (.sub (.add (.add (.num 38385822537999999 15) (.mul (.neg (.num 1772759438 9)) (.rd (.var .logT)))) (.mul (.rd (.var .T)) (.add (.num 46627485250000003 18) (.mul (.rd (.var .T)) (.add (.neg (.num 97407874166666667 22)) (.mul (.rd (.var .T)) (.add (.num 15464184499999998 25) (.mul (.neg (.num 11856374150000001 29)) (.rd (.var .T)))))))))) (.div (.neg (.num 39268951099999999 13)) (.rd (.var .T))))) (.add (.rd (.var .Kc)) (.sub (.add (.add (.neg (.num 12760841959999999 14)) (.mul (.num 24051035599999999 15) (.rd (.var .logT)))) (.mul (.rd (.var .T)) (.add (.num 18474008100000001 18) (.mul (.rd (.var .T)) (.add (.neg (.num 20960877333333333 22)) (.mul (.rd (.var .T)) (.add (.num 16219034083333331 26) (.mul (.neg (.num 56334449000000002 31)) (.rd (.var .T)))))))))) (.div (.neg (.num 133300535 4)) (.rd (.var .T))))),
  .set (.var .Kc) (.mul (.num 82057360967184814 18) (.exp (.rd (.var .Kc)))),
  .set (.arr .rev 203) (.div (.mul (.rd (.arr .C 39)) (.rd (.var .kf))) (.rd (.var .Kc)))]

/-- utilities/mechanisms/yao/lib/src/rxn_rates.c:2568-2591 -/
def rate206 : List CStmt := [
  .set (.var .kf) (.exp (.sub (.sub (.num 43525973215572655 15) (.mul (.num 239 2) (.rd (.var .logT)))) (.div (.num 56259947351254386 13) (.rd (.var .T))))),
  .set (.arr .fwd 206) (.mul (.mul (.rd (.arr .C 1)) (.rd (.arr .C 38))) (.rd (.var .kf))),
  .ite (.rd (.var .T)) (.num 1000 0) (.var .Kc) (.sub (.add (.add (.num 30848123329999999 16) (.mul (.num 14592014799999999 16) (.rd (.var .logT)))) (.mul (.rd (.var .T)) (.add (.neg (.num 37852612353526664 19)) (.mul (.rd (.var .T)) (.add (.num 95165048669993201 22) (.mul (.rd (.var .T)) (.add (.neg (.num 57632396085250677 25)) (.mul (.num 13494218650463866 28) (.rd (.var .T)))))))))) (.div (.neg (.num 20383883969999999 12)) (.rd (.var .T)))) (.sub (.add (.add (.num 11215941064000003 15) (.mul (.neg (.num 46388885000000002 17)) (.rd (.var .logT)))) (.mul (.rd (.var .T)) (.add (.num 73227075615421482 19) (.mul (.rd (.var .T)) (.add (.neg (.num 11184631943593659 22)) (.mul (.rd (.var .T)) (.add (.num 1226857695612627 25) (.mul (.neg (.num 62853030749098679 31)) (.rd (.var .T)))))))))) (.div (.neg (.num 2053377376 5)) (.rd (.var .T)))),
  .ite (.rd (.var .T)) (.num 1392 0) (.var .Kc) (.add (.rd (.var .Kc)) (.sub (.add (.add (.neg (.num 43080167249999995 15)) (.mul (.num 28922691499999997 16) (.rd (.var .logT)))) (.mul (.rd (.var .T)) (.add (.neg (.num 47303317849999998 18)) (.mul (.rd (.var .T)) (.add (.num 10456425350000001 21) (.mul (.rd (.var .T)) (.add (.neg (.num 17929859083333332 25)) (.mul (.num 15135934150000002 29) (.rd (.var .T)))))))))) (.div (.num 13107455900000001 12) (.rd (.var .T))))) (.add (.rd (.var .Kc)) (.sub (.add (.add (.num 1248917285 7) (.mul (.neg (.num 233540125 7)) (.rd (.var .logT)))) (.mul (.rd (.var .T)) (.add (.neg (.num 17683323099999999 18)) (.mul (.rd (.var .T)) (.add (.num 20034731333333335 22) (.mul (.rd (.var .T)) (.add (.neg (.num 15487921083333335 26)) (.mul (.num 53761130999999999 31) (.rd (.var .T)))))))))) (.div (.num 224485674 4) (.rd (.var .T))))),
  .ite (.rd (.var .T)) (.num 1390 0) (.var .Kc) (.add (.rd (.var .Kc)) (.sub (.add (.add (.num 31812380765 9) (.mul (.neg (.num 12048714650000001 16)) (.rd (.var .logT)))) (.mul (.rd (.var .T)) (.add (.num 34190063600000001 18) (.mul (.rd (.var .T)) (.add (.neg (.num 69074651999999995 22)) (.mul (.rd (.var .T)) (.add (.num 105129835 17) (.mul (.neg (.num 76560028999999992 30)) (.rd (.var .T)))))))))) (.div (.num 183280393 5) (.rd (.var .T))))) (.add (.rd (.var .Kc)) (.sub (.add (.add (.neg (.num 88987641300000007 15)) (.mul (.num 17538547000000001 15) (.rd (.var .logT)))) (.mul (.rd (.var .T)) (.add (.num 14155398099999999 18) (.mul (.rd (.var .T)) (.add (.neg (.num 16088454099999999 22)) (.mul (.rd (.var .T)) (.add (.num 1246229875 19) (.mul (.neg (.num 43316803200000002 31)) (.rd (.var .T)))))))))) (.div (.neg (.num 50929904100000003 13)) (.rd (.var .T))))),
  .set (.var .Kc) (.mul (.num 1 0) (.exp (.rd (.var .Kc)))),
  .set (.arr .rev 204) (.div (.mul (.mul (.rd (.arr .C 20)) (.rd (.arr .C 35))) (.rd (.var .kf))) (.rd (.var .Kc)))]

/-- utilities/mechanisms/yao/lib/src/rxn_rates.c:2592-2615 -/
def rate207 : List CStmt := [
  .set (.var .kf) (.exp (.sub (.sub (.num 44219120396132602 15) (.mul (.num 239 2) (.rd (.var .logT)))) (.div (.num 56259947351254386 13) (.rd (.var .T))))),
  .set (.arr .fwd 207) (.mul (.mul (.rd (.arr .C 1)) (.rd (.arr .C 38))) (.rd (.var .kf))),
  .ite (.rd (.var .T)) (.num 1000 0) (.var .Kc) (.sub (.add (.add (.num 17598715853000002 15) (.mul (.neg (.num 10066930000000001 16)) (.rd (.var .logT)))) (.mul (.rd (.var .T)) (.add (.num 10462589999647335 18) (.mul (.rd (.var .T)) (.add (.num 74779900033265328 23) (.mul (.rd (.var .T)) (.add (.neg (.num 13907600001917347 25)) (.mul (.num 35790730004638663 29) (.rd (.var .T)))))))))) (.div (.neg (.num 24398833899999998 12)) (.rd (.var .T)))) (.sub (.add (.add (.neg (.num 17098924075999999 15)) (.mul (.num 42322569899999998 16) (.rd (.var .logT)))) (.mul (.rd (.var .T)) (.add (.num 74541700115421487 19) (.mul (.rd (.var .T)) (.add (.neg (.num 82498316935936567 23)) (.mul (.rd (.var .T)) (.add (.num 60100183727929369 27) (.mul (.neg (.num 18831020249098677 31)) (.rd (.var .T)))))))))) (.div (.neg (.num 26397230199999998 12)) (.rd (.var .T)))),
  .ite (.rd (.var .T)) (.num 1392 0) (.var .Kc) (.add (.rd (.var .Kc)) (.sub (.add (.add (.neg (.num 43080167249999995 15)) (.mul (.num 28922691499999997 16) (.rd (.var .logT)))) (.mul (.rd (.var .T)) (.add (.neg (.num 47303317849999998 18)) (.mul (.rd (.var .T)) (.add (.num 10456425350000001 21) (.mul (.rd (.var .T)) (.add (.neg (.num 17929859083333332 25)) (.mul (.num 15135934150000002 29) (.rd (.var .T)))))))))) (.div (.num 13107455900000001 12) (.rd (.var .T))))) (.add (.rd (.var .Kc)) (.sub (.add (.add (.num 1248917285 7) (.mul (.neg (.num 233540125 7)) (.rd (.var .logT)))) (.mul (.rd (.var .T)) (.add (.neg (.num 17683323099999999 18)) (.mul (.rd (.var .T)) (.add (.num 20034731333333335 22) (.mul (.rd (.var .T)) (.add (.neg (.num 15487921083333335 26)) (.mul (.num 53761130999999999 31) (.rd (.var .T)))))))))) (.div (.num 224485674 4) (.rd (.var .T))))),
  .ite (.rd (.var .T)) (.num 1390 0) (.var .Kc) (.add (.rd (.var .Kc)) (.sub (.add (.add (.num 28671428191900002 15) (.mul (.neg (.num 9475615919 10)) (.rd (.var .logT)))) (.mul (.rd (.var .T)) (.add (.num 28039847900000001 18) (.mul (.rd (.var .T)) (.add (.neg (.num 55257633833333341 22)) (.mul (.rd (.var .T)) (.add (.num 81461148416666665 26) (.mul (.neg (.num 57004829999999998 30)) (.rd (.var .T)))))))))) (.div (.num 47161145999999999 13) (.rd (.var .T))))) (.add (.rd (.var .Kc)) (.sub (.add (.add (.neg (.num 69780673899999996 15)) (.mul (.num 142977446 7) (.rd (.var .logT)))) (.mul (.rd (.var .T)) (.add (.num 119867655 10) (.mul (.rd (.var .T)) (.add (.neg (.num 13639882466666667 22)) (.mul (.rd (.var .T)) (.add (.num 10573589666666666 26) (.mul (.neg (.num 36770452750000001 31)) (.rd (.var .T)))))))))) (.div (.neg (.num 98071230700000001 14)) (.rd (.var .T))))),
  .set (.var .Kc) (.mul (.num 1 0) (.exp (.rd (.var .Kc)))),
  .set (.arr .rev 205) (.div (.mul (.mul (.rd (.arr .C 25)) (.rd (.arr .C 33))) (.rd (.var .kf))) (.rd (.var .Kc)))]

/-- utilities/mechanisms/yao/lib/src/rxn_rates.c:2616-2633 -/
def rate208 : List CStmt := [
  .set (.var .kf) (.exp (.sub (.num 19519293032620475 15) (.div (.num 3673502823471887 12) (.rd (.var .T))))),
  .set (.arr .fwd 208) (.mul (.mul (.rd (.arr .C 20)) (.rd (.arr .C 35))) (.rd (.var .kf))),
  .ite (.rd (.var .T)) (.num 1000 0) (.var .Kc) (.sub (.add (.add (.neg (.num 13812947999999992 17)) (.mul (.neg (.num 29592014799999999 16)) (.rd (.var .logT)))) (.mul (.rd (.var .T)) (.add (.num 37852612350000002 19) (.mul (.rd (.var .T)) (.add (.neg (.num 95165048666666665 22)) (.mul (.rd (.var .T)) (.add (.num 5763239608333333 24) (.mul (.neg (.num 13494218650000001 28)) (.rd (.var .T)))))))))) (.div (.neg (.num 50897759299999998 13)) (.rd (.var .T)))) (.sub (.add (.add (.neg (.num 82692581400000016 16)) (.mul (.neg (.num 10361111599999999 16)) (.rd (.var .logT)))) (.mul (.rd (.var .T)) (.add (.neg (.num 73227075499999999 19)) (.mul (.rd (.var .T)) (.add (.num 11184631916666668 22) (.mul (.rd (.var .T)) (.add (.neg (.num 12268576916666668 26)) (.mul (.num 628530305 23) (.rd (.var .T)))))))))) (.div (.neg (.num 49398861399999996 13)) (.rd (.var .T)))),
  .ite (.rd (.var .T)) (.num 1390 0) (.var .Kc) (.add (.rd (.var .Kc)) (.sub (.add (.add (.num 6573441772999999 15) (.mul (.neg (.num 56788797299999993 17)) (.rd (.var .logT)))) (.mul (.rd (.var .T)) (.add (.num 12437421650000002 18) (.mul (.rd (.var .T)) (.add (.neg (.num 28333222166666672 22)) (.mul (.rd (.var .T)) (.add (.num 49512009999999987 26) (.mul (.neg (.num 4200371250000002 29)) (.rd (.var .T)))))))))) (.div (.neg (.num 57596990399999995 13)) (.rd (.var .T))))) (.add (.rd (.var .Kc)) (.sub (.add (.add (.neg (.num 38620778299999984 15)) (.mul (.num 65124885999999975 16) (.rd (.var .logT)))) (.mul (.rd (.var .T)) (.add (.num 43186100000000022 19) (.mul (.rd (.var .T)) (.add (.neg (.num 48724232333333338 23)) (.mul (.rd (.var .T)) (.add (.num 3756735333333331 26) (.mul (.neg (.num 130176458 23)) (.rd (.var .T)))))))))) (.div (.neg (.num 82370630899999996 13)) (.rd (.var .T))))),
  .set (.var .Kc) (.mul (.num 82057360967184814 18) (.exp (.rd (.var .Kc)))),
  .set (.arr .rev 206) (.div (.mul (.rd (.arr .C 39)) (.rd (.var .kf))) (.rd (.var .Kc)))]

/-- utilities/mechanisms/yao/lib/src/rxn_rates.c:2634-2657 -/
def rate209 : List CStmt := [
  .set (.var .kf) (.exp (.sub (.num 23311029872174121 15) (.div (.num 16408480351362714 13) (.rd (.var .T))))),
  .set (.arr .fwd 209) (.mul (.mul (.rd (.arr .C 1)) (.rd (.arr .C 40))) (.rd (.var .kf))),
  .ite (.rd (.var .T)) (.num 1000 0) (.var .Kc) (.sub (.add (.add (.num 2946682853 9) (.mul (.neg (.num 15 1)) (.rd (.var .logT)))) (.mul (.rd (.var .T)) (.add (.neg (.num 35266640949999999 29)) (.mul (.rd (.var .T)) (.add (.num 33265327333333333 32) (.mul (.rd (.var .T)) (.add (.neg (.num 19173469333333331 35)) (.mul (.num 46386616600000003 39) (.rd (.var .T)))))))))) (.div (.neg (.num 25473659899999999 12)) (.rd (.var .T)))) (.sub (.add (.add (.num 29466829240000001 16) (.mul (.neg (.num 15000000099999999 16)) (.rd (.var .logT)))) (.mul (.rd (.var .T)) (.add (.num 11542148649999999 27) (.mul (.rd (.var .T)) (.add (.neg (.num 26926991333333336 31)) (.mul (.rd (.var .T)) (.add (.num 39459602916666671 35) (.mul (.neg (.num 24909867850000001 39)) (.rd (.var .T)))))))))) (.div (.neg (.num 25473659899999999 12)) (.rd (.var .T)))),
  .ite (.rd (.var .T)) (.num 1392 0) (.var .Kc) (.add (.rd (.var .Kc)) (.sub (.add (.add (.neg (.num 46285595430000001 15)) (.mul (.num 31610826300000001 16) (.rd (.var .logT)))) (.mul (.rd (.var .T)) (.add (.neg (.num 53479148499999997 18)) (.mul (.rd (.var .T)) (.add (.num 11849554066666667 21) (.mul (.rd (.var .T)) (.add (.neg (.num 20330923083333334 25)) (.mul (.num 1713857735 22) (.rd (.var .T)))))))))) (.div (.num 15989084699999999 12) (.rd (.var .T))))) (.add (.rd (.var .Kc)) (.sub (.add (.add (.num 1442328406 7) (.mul (.neg (.num 266142176 7)) (.rd (.var .logT)))) (.mul (.rd (.var .T)) (.add (.neg (.num 19841264349999999 18)) (.mul (.rd (.var .T)) (.add (.num 22469907666666666 22) (.mul (.rd (.var .T)) (.add (.neg (.num 17365871000000002 26)) (.mul (.num 60269646999999996 31) (.rd (.var .T)))))))))) (.div (.num 265709061 4) (.rd (.var .T))))),
  .ite (.rd (.var .T)) (.num 1390 0) (.var .Kc) (.add (.rd (.var .Kc)) (.sub (.add (.add (.num 43395772119999997 15) (.mul (.neg (.num 20438729200000001 16)) (.rd (.var .logT)))) (.mul (.rd (.var .T)) (.add (.num 52808641500000003 18) (.mul (.rd (.var .T)) (.add (.neg (.num 11136666183333334 21)) (.mul (.rd (.var .T)) (.add (.num 17873847166666667 25) (.mul (.neg (.num 1387021375 22)) (.rd (.var .T)))))))))) (.div (.neg (.num 68081851200000001 13)) (.rd (.var .T))))) (.add (.rd (.var .Kc)) (.sub (.add (.add (.neg (.num 14514764840000001 14)) (.mul (.num 273097514 7) (.rd (.var .logT)))) (.mul (.rd (.var .T)) (.add (.num 20632867199999998 18) (.mul (.rd (.var .T)) (.add (.neg (.num 23397214833333332 22)) (.mul (.rd (.var .T)) (.add (.num 18097905916666667 26) (.mul (.neg (.num 62846153499999992 31)) (.rd (.var .T)))))))))) (.div (.neg (.num 17451602999999999 12)) (.rd (.var .T))))),
  .set (.var .Kc) (.mul (.num 82057360967184814 18) (.exp (.rd (.var .Kc)))),
  .set (.arr .rev 207) (.div (.mul (.rd (.arr .C 41)) (.rd (.var .kf))) (.rd (.var .Kc)))]

/-- utilities/mechanisms/yao/lib/src/rxn_rates.c:2658-2681 -/
def rate210 : List CStmt := [
  .set (.var .kf) (.exp (.sub (.sub (.num 43525973215572655 15) (.mul (.num 239 2) (.rd (.var .logT)))) (.div (.num 56259947351254386 13) (.rd (.var .T))))),
  .set (.arr .fwd 210) (.mul (.mul (.rd (.arr .C 1)) (.rd (.arr .C 40))) (.rd (.var .kf))),
  .ite (.rd (.var .T)) (.num 1000 0) (.var .Kc) (.sub (.add (.add (.num 30848123329999999 16) (.mul (.num 14592014799999999 16) (.rd (.var .logT)))) (.mul (.rd (.var .T)) (.add (.neg (.num 37852612353526664 19)) (.mul (.rd (.var .T)) (.add (.num 95165048669993201 22) (.mul (.rd (.var .T)) (.add (.neg (.num 57632396085250677 25)) (.mul (.num 13494218650463866 28) (.rd (.var .T)))))))))) (.div (.neg (.num 20383883969999999 12)) (.rd (.var .T)))) (.sub (.add (.add (.num 11215941064000003 15) (.mul (.neg (.num 46388885000000002 17)) (.rd (.var .logT)))) (.mul (.rd (.var .T)) (.add (.num 73227075615421482 19) (.mul (.rd (.var .T)) (.add (.neg (.num 11184631943593659 22)) (.mul (.rd (.var .T)) (.add (.num 1226857695612627 25) (.mul (.neg (.num 62853030749098679 31)) (.rd (.var .T)))))))))) (.div (.neg (.num 2053377376 5)) (.rd (.var .T)))),
  .ite (.rd (.var .T)) (.num 1392 0) (.var .Kc) (.add (.rd (.var .Kc)) (.sub (.add (.add (.neg (.num 46285595430000001 15)) (.mul (.num 31610826300000001 16) (.rd (.var .logT)))) (.mul (.rd (.var .T)) (.add (.neg (.num 53479148499999997 18)) (.mul (.rd (.var .T)) (.add (.num 11849554066666667 21) (.mul (.rd (.var .T)) (.add (.neg (.num 20330923083333334 25)) (.mul (.num 1713857735 22) (.rd (.var .T)))))))))) (.div (.num 15989084699999999 12) (.rd (.var .T))))) (.add (.rd (.var .Kc)) (.sub (.add (.add (.num 1442328406 7) (.mul (.neg (.num 266142176 7)) (.rd (.var .logT)))) (.mul (.rd (.var .T)) (.add (.neg (.num 19841264349999999 18)) (.mul (.rd (.var .T)) (.add (.num 22469907666666666 22) (.mul (.rd (.var .T)) (.add (.neg (.num 17365871000000002 26)) (.mul (.num 60269646999999996 31) (.rd (.var .T)))))))))) (.div (.num 265709061 4) (.rd (.var .T))))),
  .ite (.rd (.var .T)) (.num 1390 0) (.var .Kc) (.add (.rd (.var .Kc)) (.sub (.add (.add (.num 35155971505999993 15) (.mul (.neg (.num 14995704060000001 16)) (.rd (.var .logT)))) (.mul (.rd (.var .T)) (.add (.num 40441323350000002 18) (.mul (.rd (.var .T)) (.add (.neg (.num 8342212566666667 21)) (.mul (.rd (.var .T)) (.add (.num 13045775666666668 25) (.mul (.neg (.num 98308113500000002 30)) (.rd (.var .T)))))))))) (.div (.neg (.num 10459022299999999 13)) (.rd (.var .T))))) (.add (.rd (.var .Kc)) (.sub (.add (.add (.neg (.num 108289502 6)) (.mul (.num 20794070900000001 15) (.rd (.var .logT)))) (.mul (.rd (.var .T)) (.add (.num 16314012150000001 18) (.mul (.rd (.var .T)) (.add (.neg (.num 18523040666666668 22)) (.mul (.rd (.var .T)) (.add (.num 14338929 17) (.mul (.neg (.num 49818349949999998 31)) (.rd (.var .T)))))))))) (.div (.neg (.num 92093822099999998 13)) (.rd (.var .T))))),
  .set (.var .Kc) (.mul (.num 1 0) (.exp (.rd (.var .Kc)))),
  .set (.arr .rev 208) (.div (.mul (.mul (.rd (.arr .C 20)) (.rd (.arr .C 37))) (.rd (.var .kf))) (.rd (.var .Kc)))]

/-- utilities/mechanisms/yao/lib/src/rxn_rates.c:2682-2705 -/
def rate211 : List CStmt := [
  .set (.var .kf) (.exp (.sub (.sub (.num 44219120396132602 15) (.mul (.num 239 2) (.rd (.var .logT)))) (.div (.num 56259947351254386 13) (.rd (.var .T))))),
  .set (.arr .fwd 211) (.mul (.mul (.rd (.arr .C 1)) (.rd (.arr .C 40))) (.rd (.var .kf))),
  .ite (.rd (.var .T)) (.num 1000 0) (.var .Kc) (.sub (.add (.add (.num 17598715853000002 15) (.mul (.neg (.num 10066930000000001 16)) (.rd (.var .logT)))) (.mul (.rd (.var .T)) (.add (.num 10462589999647335 18) (.mul (.rd (.var .T)) (.add (.num 74779900033265328 23) (.mul (.rd (.var .T)) (.add (.neg (.num 13907600001917347 25)) (.mul (.num 35790730004638663 29) (.rd (.var .T)))))))))) (.div (.neg (.num 24398833899999998 12)) (.rd (.var .T)))) (.sub (.add (.add (.neg (.num 17098924075999999 15)) (.mul (.num 42322569899999998 16) (.rd (.var .logT)))) (.mul (.rd (.var .T)) (.add (.num 74541700115421487 19) (.mul (.rd (.var .T)) (.add (.neg (.num 82498316935936567 23)) (.mul (.rd (.var .T)) (.add (.num 60100183727929369 27) (.mul (.neg (.num 18831020249098677 31)) (.rd (.var .T)))))))))) (.div (.neg (.num 26397230199999998 12)) (.rd (.var .T)))),
  .ite (.rd (.var .T)) (.num 1392 0) (.var .Kc) (.add (.rd (.var .Kc)) (.sub (.add (.add (.neg (.num 46285595430000001 15)) (.mul (.num 31610826300000001 16) (.rd (.var .logT)))) (.mul (.rd (.var .T)) (.add (.neg (.num 53479148499999997 18)) (.mul (.rd (.var .T)) (.add (.num 11849554066666667 21) (.mul (.rd (.var .T)) (.add (.neg (.num 20330923083333334 25)) (.mul (.num 1713857735 22) (.rd (.var .T)))))))))) (.div (.num 15989084699999999 12) (.rd (.var .T))))) (.add (.rd (.var .Kc)) (.sub (.add (.add (.num 1442328406 7) (.mul (.neg (.num 266142176 7)) (.rd (.var .logT)))) (.mul (.rd (.var .T)) (.add (.neg (.num 19841264349999999 18)) (.mul (.rd (.var .T)) (.add (.num 22469907666666666 22) (.mul (.rd (.var .T)) (.add (.neg (.num 17365871000000002 26)) (.mul (.num 60269646999999996 31) (.rd (.var .T)))))))))) (.div (.num 265709061 4) (.rd (.var .T))))),
  .ite (.rd (.var .T)) (.num 1390 0) (.var .Kc) (.add (.rd (.var .Kc)) (.sub (.add (.add (.num 31812380765 9) (.mul (.neg (.num 12048714650000001 16)) (.rd (.var .logT)))) (.mul (.rd (.var .T)) (.add (.num 34190063600000001 18) (.mul (.rd (.var .T)) (.add (.neg (.num 69074651999999995 22)) (.mul (.rd (.var .T)) (.add (.num 105129835 17) (.mul (.neg (.num 76560028999999992 30)) (.rd (.var .T)))))))))) (.div (.num 183280393 5) (.rd (.var .T))))) (.add (.rd (.var .Kc)) (.sub (.add (.add (.neg (.num 88987641300000007 15)) (.mul (.num 17538547000000001 15) (.rd (.var .logT)))) (.mul (.rd (.var .T)) (.add (.num 14155398099999999 18) (.mul (.rd (.var .T)) (.add (.neg (.num 16088454099999999 22)) (.mul (.rd (.var .T)) (.add (.num 1246229875 19) (.mul (.neg (.num 43316803200000002 31)) (.rd (.var .T)))))))))) (.div (.neg (.num 50929904100000003 13)) (.rd (.var .T))))),
  .set (.var .Kc) (.mul (.num 1 0) (.exp (.rd (.var .Kc)))),
  .set (.arr .rev 209) (.div (.mul (.mul (.rd (.arr .C 25)) (.rd (.arr .C 35))) (.rd (.var .kf))) (.rd (.var .Kc)))]

/-- utilities/mechanisms/yao/lib/src/rxn_rates.c:2706-2723 -/
def rate212 : List CStmt := [
  .set (.var .kf) (.exp (.sub (.num 19519293032620475 15) (.div (.num 3673502823471887 12) (.rd (.var .T))))),
  .set (.arr .fwd 212) (.mul (.mul (.rd (.arr .C 20)) (.rd (.arr .C 37))) (.rd (.var .kf))),
  .ite (.rd (.var .T)) (.num 1000 0) (.var .Kc) (.sub (.add (.add (.neg (.num 13812947999999992 17)) (.mul (.neg (.num 29592014799999999 16)) (.rd (.var .logT)))) (.mul (.rd (.var .T)) (.add (.num 37852612350000002 19) (.mul (.rd (.var .T)) (.add (.neg (.num 95165048666666665 22)) (.mul (.rd (.var .T)) (.add (.num 5763239608333333 24) (.mul (.neg (.num 13494218650000001 28)) (.rd (.var .T)))))))))) (.div (.neg (.num 50897759299999998 13)) (.rd (.var .T)))) (.sub (.add (.add (.neg (.num 82692581400000016 16)) (.mul (.neg (.num 10361111599999999 16)) (.rd (.var .logT)))) (.mul (.rd (.var .T)) (.add (.neg (.num 73227075499999999 19)) (.mul (.rd (.var .T)) (.add (.num 11184631916666668 22) (.mul (.rd (.var .T)) (.add (.neg (.num 12268576916666668 26)) (.mul (.num 628530305 23) (.rd (.var .T)))))))))) (.div (.neg (.num 49398861399999996 13)) (.rd (.var .T)))),
  .ite (.rd (.var .T)) (.num 1390 0) (.var .Kc) (.add (.rd (.var .Kc)) (.sub (.add (.add (.num 82398006140000035 16) (.mul (.neg (.num 54430251399999996 17)) (.rd (.var .logT)))) (.mul (.rd (.var .T)) (.add (.num 12367318150000001 18) (.mul (.rd (.var .T)) (.add (.neg (.num 2794453616666667 21)) (.mul (.rd (.var .T)) (.add (.num 48280714999999983 26) (.mul (.neg (.num 40394024 21)) (.rd (.var .T)))))))))) (.div (.neg (.num 57622828900000004 13)) (.rd (.var .T))))) (.add (.rd (.var .Kc)) (.sub (.add (.add (.neg (.num 3685814640000001 14)) (.mul (.num 65156804999999984 16) (.rd (.var .logT)))) (.mul (.rd (.var .T)) (.add (.num 43188550499999971 19) (.mul (.rd (.var .T)) (.add (.neg (.num 48741741666666644 23)) (.mul (.rd (.var .T)) (.add (.num 37589769166666669 27) (.mul (.neg (.num 13027803549999994 31)) (.rd (.var .T)))))))))) (.div (.neg (.num 82422207899999994 13)) (.rd (.var .T))))),
  .set (.var .Kc) (.mul (.num 82057360967184814 18) (.exp (.rd (.var .Kc)))),
  .set (.arr .rev 210) (.div (.mul (.rd (.arr .C 41)) (.rd (.var .kf))) (.rd (.var .Kc)))]

/-- utilities/mechanisms/yao/lib/src/rxn_rates.c:2724-2747 -/
def rate213 : List CStmt := [
  .set (.var .kf) (.exp (.sub (.num 23311029872174121 15) (.div (.num 16408480351362714 13) (.rd (.var .T))))),
  .set (.arr .fwd 213) (.mul (.mul (.rd (.arr .C 42)) (.rd (.arr .C 1))) (.rd (.var .kf))),
  .ite (.rd (.var .T)) (.num 1392 0) (.var .Kc) (.sub (.add (.add (.neg (.num 49486155179999997 15)) (.mul (.num 34290168799999998 16) (.rd (.var .logT)))) (.mul (.rd (.var .T)) (.add (.neg (.num 59652798999999999 18)) (.mul (.rd (.var .T)) (.add (.num 13241483750000001 21) (.mul (.rd (.var .T)) (.add (.neg (.num 22728049666666667 25)) (.mul (.num 1913591865 22) (.rd (.var .T)))))))))) (.div (.num 18870836500000001 12) (.rd (.var .T)))) (.sub (.add (.add (.num 1635805623 7) (.mul (.neg (.num 29875390299999999 15)) (.rd (.var .logT)))) (.mul (.rd (.var .T)) (.add (.neg (.num 21998576299999999 18)) (.mul (.rd (.var .T)) (.add (.num 24904255000000001 22) (.mul (.rd (.var .T)) (.add (.neg (.num 19243139833333331 26)) (.mul (.num 66775738500000002 31) (.rd (.var .T)))))))))) (.div (.num 306937307 4) (.rd (.var .T)))),
  .ite (.rd (.var .T)) (.num 1000 0) (.var .Kc) (.add (.rd (.var .Kc)) (.sub (.add (.add (.num 2946682853 9) (.mul (.neg (.num 15 1)) (.rd (.var .logT)))) (.mul (.rd (.var .T)) (.add (.neg (.num 35266640949999999 29)) (.mul (.rd (.var .T)) (.add (.num 33265327333333333 32) (.mul (.rd (.var .T)) (.add (.neg (.num 19173469333333331 35)) (.mul (.num 46386616600000003 39) (.rd (.var .T)))))))))) (.div (.neg (.num 25473659899999999 12)) (.rd (.var .T))))) (.add (.rd (.var .Kc)) (.sub (.add (.add (.num 29466829240000001 16) (.mul (.neg (.num 15000000099999999 16)) (.rd (.var .logT)))) (.mul (.rd (.var .T)) (.add (.num 11542148649999999 27) (.mul (.rd (.var .T)) (.add (.neg (.num 26926991333333336 31)) (.mul (.rd (.var .T)) (.add (.num 39459602916666671 35) (.mul (.neg (.num 24909867850000001 39)) (.rd (.var .T)))))))))) (.div (.neg (.num 25473659899999999 12)) (.rd (.var .T))))),
  .ite (.rd (.var .T)) (.num 1390 0) (.var .Kc) (.add (.rd (.var .Kc)) (.sub (.add (.add (.num 44814628679999998 15) (.mul (.neg (.num 23135834800000001 16)) (.rd (.var .logT)))) (.mul (.rd (.var .T)) (.add (.num 58986406499999998 18) (.mul (.rd (.var .T)) (.add (.neg (.num 12530717983333334 21)) (.mul (.rd (.var .T)) (.add (.num 20277592166666667 25) (.mul (.neg (.num 15876142600000001 29)) (.rd (.var .T)))))))))) (.div (.neg (.num 96896754999999994 13)) (.rd (.var .T))))) (.add (.rd (.var .Kc)) (.sub (.add (.add (.neg (.num 16627870200000001 14)) (.mul (.num 30569716 6) (.rd (.var .logT)))) (.mul (.rd (.var .T)) (.add (.num 22790920150000001 18) (.mul (.rd (.var .T)) (.add (.neg (.num 25832494166666668 22)) (.mul (.rd (.var .T)) (.add (.num 19975911083333332 26) (.mul (.neg (.num 693547795 23)) (.rd (.var .T)))))))))) (.div (.neg (.num 21573783200000002 12)) (.rd (.var .T))))),
  .set (.var .Kc) (.mul (.num 82057360967184814 18) (.exp (.rd (.var .Kc)))),
  .set (.arr .rev 211) (.div (.mul (.rd (.arr .C 43)) (.rd (.var .kf))) (.rd (.var .Kc)))]

/-- utilities/mechanisms/yao/lib/src/rxn_rates.c:2748-2771 -/
def rate214 : List CStmt := [
  .set (.var .kf) (.exp (.sub (.sub (.num 43525973215572655 15) (.mul (.num 239 2) (.rd (.var .logT)))) (.div (.num 56259947351254386 13) (.rd (.var .T))))),
  .set (.arr .fwd 214) (.mul (.mul (.rd (.arr .C 42)) (.rd (.arr .C 1))) (.rd (.var .kf))),
  .ite (.rd (.var .T)) (.num 1000 0) (.var .Kc) (.sub (.add (.add (.num 30848123329999999 16) (.mul (.num 14592014799999999 16) (.rd (.var .logT)))) (.mul (.rd (.var .T)) (.add (.neg (.num 37852612353526664 19)) (.mul (.rd (.var .T)) (.add (.num 95165048669993201 22) (.mul (.rd (.var .T)) (.add (.neg (.num 57632396085250677 25)) (.mul (.num 13494218650463866 28) (.rd (.var .T)))))))))) (.div (.neg (.num 20383883969999999 12)) (.rd (.var .T)))) (.sub (.add (.add (.num 11215941064000003 15) (.mul (.neg (.num 46388885000000002 17)) (.rd (.var .logT)))) (.mul (.rd (.var .T)) (.add (.num 73227075615421482 19) (.mul (.rd (.var .T)) (.add (.neg (.num 11184631943593659 22)) (.mul (.rd (.var .T)) (.add (.num 1226857695612627 25) (.mul (.neg (.num 62853030749098679 31)) (.rd (.var .T)))))))))) (.div (.neg (.num 2053377376 5)) (.rd (.var .T)))),
  .ite (.rd (.var .T)) (.num 1392 0) (.var .Kc) (.add (.rd (.var .Kc)) (.sub (.add (.add (.neg (.num 49486155179999997 15)) (.mul (.num 34290168799999998 16) (.rd (.var .logT)))) (.mul (.rd (.var .T)) (.add (.neg (.num 59652798999999999 18)) (.mul (.rd (.var .T)) (.add (.num 13241483750000001 21) (.mul (.rd (.var .T)) (.add (.neg (.num 22728049666666667 25)) (.mul (.num 1913591865 22) (.rd (.var .T)))))))))) (.div (.num 18870836500000001 12) (.rd (.var .T))))) (.add (.rd (.var .Kc)) (.sub (.add (.add (.num 1635805623 7) (.mul (.neg (.num 29875390299999999 15)) (.rd (.var .logT)))) (.mul (.rd (.var .T)) (.add (.neg (.num 21998576299999999 18)) (.mul (.rd (.var .T)) (.add (.num 24904255000000001 22) (.mul (.rd (.var .T)) (.add (.neg (.num 19243139833333331 26)) (.mul (.num 66775738500000002 31) (.rd (.var .T)))))))))) (.div (.num 306937307 4) (.rd (.var .T))))),
  .ite (.rd (.var .T)) (.num 1390 0) (.var .Kc) (.add (.rd (.var .Kc)) (.sub (.add (.add (.num 38385822537999999 15) (.mul (.neg (.num 1772759438 9)) (.rd (.var .logT)))) (.mul (.rd (.var .T)) (.add (.num 46627485250000003 18) (.mul (.rd (.var .T)) (.add (.neg (.num 97407874166666667 22)) (.mul (.rd (.var .T)) (.add (.num 15464184499999998 25) (.mul (.neg (.num 11856374150000001 29)) (.rd (.var .T)))))))))) (.div (.neg (.num 39268951099999999 13)) (.rd (.var .T))))) (.add (.rd (.var .Kc)) (.sub (.add (.add (.neg (.num 12760841959999999 14)) (.mul (.num 24051035599999999 15) (.rd (.var .logT)))) (.mul (.rd (.var .T)) (.add (.num 18474008100000001 18) (.mul (.rd (.var .T)) (.add (.neg (.num 20960877333333333 22)) (.mul (.rd (.var .T)) (.add (.num 16219034083333331 26) (.mul (.neg (.num 56334449000000002 31)) (.rd (.var .T)))))))))) (.div (.neg (.num 133300535 4)) (.rd (.var .T))))),
  .set (.var .Kc) (.mul (.num 1 0) (.exp (.rd (.var .Kc)))),
  .set (.arr .rev 212) (.div (.mul (.mul (.rd (.arr .C 39)) (.rd (.arr .C 20))) (.rd (.var .kf))) (.rd (.var .Kc)))]

/-- utilities/mechanisms/yao/lib/src/rxn_rates.c:2772-2795 -/
def rate215 : List CStmt := [
  .set (.var .kf) (.exp (.sub (.sub (.num 44219120396132602 15) (.mul (.num 239 2) (.rd (.var .logT)))) (.div (.num 56259947351254386 13) (.rd (.var .T))))),
  .set (.arr .fwd 215) (.mul (.mul (.rd (.arr .C 42)) (.rd (.arr .C 1))) (.rd (.var .kf))),
  .ite (.rd (.var .T)) (.num 1000 0) (.var .Kc) (.sub (.add (.add (.num 17598715853000002 15) (.mul (.neg (.num 10066930000000001 16)) (.rd (.var .logT)))) (.mul (.rd (.var .T)) (.add (.num 10462589999647335 18) (.mul (.rd (.var .T)) (.add (.num 74779900033265328 23) (.mul (.rd (.var .T)) (.add (.neg (.num 13907600001917347 25)) (.mul (.num 35790730004638663 29) (.rd (.var .T)))))))))) (.div (.neg (.num 24398833899999998 12)) (.rd (.var .T)))) (.sub (.add (.add (.neg (.num 17098924075999999 15)) (.mul (.num 42322569899999998 16) (.rd (.var .logT)))) (.mul (.rd (.var .T)) (.add (.num 74541700115421487 19) (.mul (.rd (.var .T)) (.add (.neg (.num 82498316935936567 23)) (.mul (.rd (.var .T)) (.add (.num 60100183727929369 27) (.mul (.neg (.num 18831020249098677 31)) (.rd (.var .T)))))))))) (.div (.neg (.num 26397230199999998 12)) (.rd (.var .T)))),
  .ite (.rd (.var .T)) (.num 1392 0) (.var .Kc) (.add (.rd (.var .Kc)) (.sub (.add (.add (.neg (.num 49486155179999997 15)) (.mul (.num 34290168799999998 16) (.rd (.var .logT)))) (.mul (.rd (.var .T)) (.add (.neg (.num 59652798999999999 18)) (.mul (.rd (.var .T)) (.add (.num 13241483750000001 21) (.mul (.rd (.var .T)) (.add (.neg (.num 22728049666666667 25)) (.mul (.num 1913591865 22) (.rd (.var .T)))))))))) (.div (.num 18870836500000001 12) (.rd (.var .T))))) (.add (.rd (.var .Kc)) (.sub (.add (.add (.num 1635805623 7) (.mul (.neg (.num 29875390299999999 15)) (.rd (.var .logT)))) (.mul (.rd (.var .T)) (.add (.neg (.num 21998576299999999 18)) (.mul (.rd (.var .T)) (.add (.num 24904255000000001 22) (.mul (.rd (.var .T)) (.add (.neg (.num 19243139833333331 26)) (.mul (.num 66775738500000002 31) (.rd (.var .T)))))))))) (.div (.num 306937307 4) (.rd (.var .T))))),
  .ite (.rd (.var .T)) (.num 1390 0) (.var .Kc) (.add (.rd (.var .Kc)) (.sub (.add (.add (.num 35155971505999993 15) (.mul (.neg (.num 14995704060000001 16)) (.rd (.var .logT)))) (.mul (.rd (.var .T)) (.add (.num 40441323350000002 18) (.mul (.rd (.var .T)) (.add (.neg (.num 8342212566666667 21)) (.mul (.rd (.var .T)) (.add (.num 13045775666666668 25) (.mul (.neg (.num 98308113500000002 30)) (.rd (.var .T)))))))))) (.div (.neg (.num 10459022299999999 13)) (.rd (.var .T))))) (.add (.rd (.var .Kc)) (.sub (.add (.add (.neg (.num 108289502 6)) (.mul (.num 20794070900000001 15) (.rd (.var .logT)))) (.mul (.rd (.var .T)) (.add (.num 16314012150000001 18) (.mul (.rd (.var .T)) (.add (.neg (.num 18523040666666668 22)) (.mul (.rd (.var .T)) (.add (.num 14338929 17) (.mul (.neg (.num 49818349949999998 31)) (.rd (.var .T)))))))))) (.div (.neg (.num 92093822099999998 13)) (.rd (.var .T))))),
  .set (.var .Kc) (.mul (.num 1 0) (.exp (.rd (.var .Kc)))),
  .set (.arr .rev 213) (.div (.mul (.mul (.rd (.arr .C 25)) (.rd (.arr .C 37))) (.rd (.var .kf))) (.rd (.var .Kc)))]

/-- utilities/mechanisms/yao/lib/src/rxn_rates.c:2796-2813 -/
def rate216 : List CStmt := [
  .set (.var .kf) (.exp (.sub (.num 19519293032620475 15) (.div (.num 3673502823471887 12) (.rd (.var .T))))),
  .set (.arr .fwd 216) (.mul (.mul (.rd (.arr .C 39)) (.rd (.arr .C 20))) (.rd (.var .kf))),
  .ite (.rd (.var .T)) (.num 1000 0) (.var .Kc) (.sub (.add (.add (.neg (.num 13812947999999992 17)) (.mul (.neg (.num 29592014799999999 16)) (.rd (.var .logT)))) (.mul (.rd (.var .T)) (.add (.num 37852612350000002 19) (.mul (.rd (.var .T)) (.add (.neg (.num 95165048666666665 22)) (.mul (.rd (.var .T)) (.add (.num 5763239608333333 24) (.mul (.neg (.num 13494218650000001 28)) (.rd (.var .T)))))))))) (.div (.neg (.num 50897759299999998 13)) (.rd (.var .T)))) (.sub (.add (.add (.neg (.num 82692581400000016 16)) (.mul (.neg (.num 10361111599999999 16)) (.rd (.var .logT)))) (.mul (.rd (.var .T)) (.add (.neg (.num 73227075499999999 19)) (.mul (.rd (.var .T)) (.add (.num 11184631916666668 22) (.mul (.rd (.var .T)) (.add (.neg (.num 12268576916666668 26)) (.mul (.num 628530305 23) (.rd (.var .T)))))))))) (.div (.neg (.num 49398861399999996 13)) (.rd (.var .T)))),
  .ite (.rd (.var .T)) (.num 1390 0) (.var .Kc) (.add (.rd (.var .Kc)) (.sub (.add (.add (.num 64288061419999991 16) (.mul (.neg (.num 54082404200000012 17)) (.rd (.var .logT)))) (.mul (.rd (.var .T)) (.add (.num 12358921249999995 18) (.mul (.rd (.var .T)) (.add (.neg (.num 27899305666666669 22)) (.mul (.rd (.var .T)) (.add (.num 48134076666666689 26) (.mul (.neg (.num 40197684499999993 30)) (.rd (.var .T)))))))))) (.div (.neg (.num 57627803899999999 13)) (.rd (.var .T))))) (.add (.rd (.var .Kc)) (.sub (.add (.add (.neg (.num 38670282400000019 15)) (.mul (.num 65186804000000009 16) (.rd (.var .logT)))) (.mul (.rd (.var .T)) (.add (.num 43169120499999998 19) (.mul (.rd (.var .T)) (.add (.neg (.num 4871616833333335 22)) (.mul (.rd (.var .T)) (.add (.num 37568770000000007 27) (.mul (.neg (.num 13020330499999998 31)) (.rd (.var .T)))))))))) (.div (.neg (.num 82437297000000017 13)) (.rd (.var .T))))),
  .set (.var .Kc) (.mul (.num 82057360967184814 18) (.exp (.rd (.var .Kc)))),
  .set (.arr .rev 214) (.div (.mul (.rd (.arr .C 43)) (.rd (.var .kf))) (.rd (.var .Kc)))]

/-- utilities/mechanisms/yao/lib/src/rxn_rates.c:2814-2837 -/
def rate217 : List CStmt := [
  .set (.var .kf) (.exp (.sub (.num 38094124456400102 15) (.div (.num 35696835950457928 12) (.rd (.var .T))))),
  .set (.arr .fwd 217) (.mul (.rd (.arr .C 48)) (.rd (.var .kf))),
  .ite (.rd (.var .T)) (.num 1000 0) (.var .Kc) (.sub (.add (.add (.num 38878255099999997 15) (.mul (.neg (.num 34190111000000001 16)) (.rd (.var .logT)))) (.mul (.rd (.var .T)) (.add (.num 20215194499999999 18) (.mul (.rd (.var .T)) (.add (.num 11300389833333333 22) (.mul (.rd (.var .T)) (.add (.neg (.num 28103951666666668 25)) (.mul (.num 75583565000000005 29) (.rd (.var .T)))))))))) (.div (.num 28121887000000002 13) (.rd (.var .T)))) (.sub (.add (.add (.neg (.num 43264524999999999 15)) (.mul (.num 91386400000000005 16) (.rd (.var .logT)))) (.mul (.rd (.var .T)) (.add (.num 11357068999999999 18) (.mul (.rd (.var .T)) (.add (.neg (.num 12985077166666666 22)) (.mul (.rd (.var .T)) (.add (.num 98971016666666667 27) (.mul (.neg (.num 32966224000000003 31)) (.rd (.var .T)))))))))) (.div (.neg (.num 17218359 4)) (.rd (.var .T)))),
  .ite (.rd (.var .T)) (.num 1390 0) (.var .Kc) (.add (.rd (.var .Kc)) (.sub (.add (.add (.num 35155971505999993 15) (.mul (.neg (.num 14995704060000001 16)) (.rd (.var .logT)))) (.mul (.rd (.var .T)) (.add (.num 40441323350000002 18) (.mul (.rd (.var .T)) (.add (.neg (.num 8342212566666667 21)) (.mul (.rd (.var .T)) (.add (.num 13045775666666668 25) (.mul (.neg (.num 98308113500000002 30)) (.rd (.var .T)))))))))) (.div (.neg (.num 10459022299999999 13)) (.rd (.var .T))))) (.add (.rd (.var .Kc)) (.sub (.add (.add (.neg (.num 108289502 6)) (.mul (.num 20794070900000001 15) (.rd (.var .logT)))) (.mul (.rd (.var .T)) (.add (.num 16314012150000001 18) (.mul (.rd (.var .T)) (.add (.neg (.num 18523040666666668 22)) (.mul (.rd (.var .T)) (.add (.num 14338929 17) (.mul (.neg (.num 49818349949999998 31)) (.rd (.var .T)))))))))) (.div (.neg (.num 92093822099999998 13)) (.rd (.var .T))))),
  .ite (.rd (.var .T)) (.num 1391 0) (.var .Kc) (.add (.rd (.var .Kc)) (.sub (.add (.add (.neg (.num 55879313809999999 15)) (.mul (.num 39634268100000001 16) (.rd (.var .logT)))) (.mul (.rd (.var .T)) (.add (.neg (.num 71996180000000007 18)) (.mul (.rd (.var .T)) (.add (.num 16023066916666668 21) (.mul (.rd (.var .T)) (.add (.neg (.num 2751453941666667 24)) (.mul (.num 23119909500000001 29) (.rd (.var .T)))))))))) (.div (.num 24634529900000001 12) (.rd (.var .T))))) (.add (.rd (.var .Kc)) (.sub (.add (.add (.num 20229287410000001 14) (.mul (.neg (.num 364002111 7)) (.rd (.var .logT)))) (.mul (.rd (.var .T)) (.add (.neg (.num 26311537650000001 18)) (.mul (.rd (.var .T)) (.add (.num 29770719833333333 22) (.mul (.rd (.var .T)) (.add (.neg (.num 22995821916666667 26)) (.mul (.num 79781249499999995 31) (.rd (.var .T)))))))))) (.div (.num 389405962 4) (.rd (.var .T))))),
  .set (.var .Kc) (.mul (.num 12186597134166982 15) (.exp (.rd (.var .Kc)))),
  .set (.arr .rev 215) (.div (.mul (.mul (.rd (.arr .C 31)) (.rd (.arr .C 37))) (.rd (.var .kf))) (.rd (.var .Kc)))]

/-- utilities/mechanisms/yao/lib/src/rxn_rates.c:2838-2855 -/
def rate218 : List CStmt := [
  .set (.var .kf) (.exp (.sub (.num 19519293032620475 15) (.div (.num 3673502823471887 12) (.rd (.var .T))))),
  .set (.arr .fwd 218) (.mul (.mul (.rd (.arr .C 20)) (.rd (.arr .C 43))) (.rd (.var .kf))),
  .ite (.rd (.var .T)) (.num 1000 0) (.var .Kc) (.sub (.add (.add (.neg (.num 13812947999999992 17)) (.mul (.neg (.num 29592014799999999 16)) (.rd (.var .logT)))) (.mul (.rd (.var .T)) (.add (.num 37852612350000002 19) (.mul (.rd (.var .T)) (.add (.neg (.num 95165048666666665 22)) (.mul (.rd (.var .T)) (.add (.num 5763239608333333 24) (.mul (.neg (.num 13494218650000001 28)) (.rd (.var .T)))))))))) (.div (.neg (.num 50897759299999998 13)) (.rd (.var .T)))) (.sub (.add (.add (.neg (.num 82692581400000016 16)) (.mul (.neg (.num 10361111599999999 16)) (.rd (.var .logT)))) (.mul (.rd (.var .T)) (.add (.neg (.num 73227075499999999 19)) (.mul (.rd (.var .T)) (.add (.num 11184631916666668 22) (.mul (.rd (.var .T)) (.add (.neg (.num 12268576916666668 26)) (.mul (.num 628530305 23) (.rd (.var .T)))))))))) (.div (.neg (.num 49398861399999996 13)) (.rd (.var .T)))),
  .ite (.rd (.var .T)) (.num 1390 0) (.var .Kc) (.add (.rd (.var .Kc)) (.sub (.add (.add (.num 64059008300000002 16) (.mul (.neg (.num 53670392999999983 17)) (.rd (.var .logT)))) (.mul (.rd (.var .T)) (.add (.num 12348947500000006 18) (.mul (.rd (.var .T)) (.add (.neg (.num 27845579333333322 22)) (.mul (.rd (.var .T)) (.add (.num 47960238333333328 26) (.mul (.neg (.num 39965723999999993 30)) (.rd (.var .T)))))))))) (.div (.neg (.num 57633680000000004 13)) (.rd (.var .T))))) (.add (.rd (.var .Kc)) (.sub (.add (.add (.neg (.num 38696220499999981 15)) (.mul (.num 65224724999999992 16) (.rd (.var .logT)))) (.mul (.rd (.var .T)) (.add (.num 43144722499999996 19) (.mul (.rd (.var .T)) (.add (.neg (.num 48684253333333347 23)) (.mul (.rd (.var .T)) (.add (.num 37542700000000015 27) (.mul (.neg (.num 13011094500000004 31)) (.rd (.var .T)))))))))) (.div (.neg (.num 82456542999999983 13)) (.rd (.var .T))))),
  .set (.var .Kc) (.mul (.num 82057360967184814 18) (.exp (.rd (.var .Kc)))),
  .set (.arr .rev 216) (.div (.mul (.rd (.arr .C 45)) (.rd (.var .kf))) (.rd (.var .Kc)))]

/-- utilities/mechanisms/yao/lib/src/rxn_rates.c:2856-2873 -/
def rate219 : List CStmt := [
  .set (.var .kf) (.exp (.sub (.sub (.num 28931212777995029 15) (.mul (.num 6 1) (.rd (.var .logT)))) (.div (.num 72463617339719422 13) (.rd (.var .T))))),
  .set (.arr .fwd 219) (.mul (.rd (.arr .C 45)) (.rd (.var .kf))),
  .ite (.rd (.var .T)) (.num 1385 0) (.var .Kc) (.sub (.add (.add (.num 4972006039 8) (.mul (.neg (.num 23678708899999998 16)) (.rd (.var .logT)))) (.mul (.rd (.var .T)) (.add (.num 68677673999999994 18) (.mul (.rd (.var .T)) (.add (.neg (.num 13734602633333332 21)) (.mul (.rd (.var .T)) (.add (.num 19701796833333333 25) (.mul (.neg (.num 123717966 21)) (.rd (.var .T)))))))))) (.div (.neg (.num 16766053899999999 12)) (.rd (.var .T)))) (.sub (.add (.add (.neg (.num 20377475980000003 14)) (.mul (.num 36968826800000002 15) (.rd (.var .logT)))) (.mul (.rd (.var .T)) (.add (.num 26935973200000001 18) (.mul (.rd (.var .T)) (.add (.neg (.num 30361877166666668 22)) (.mul (.rd (.var .T)) (.add (.num 23397875249999998 26) (.mul (.neg (.num 81054210000000005 31)) (.rd (.var .T)))))))))) (.div (.neg (.num 31214498800000001 12)) (.rd (.var .T)))),
  .ite (.rd (.var .T)) (.num 1390 0) (.var .Kc) (.add (.rd (.var .Kc)) (.sub (.add (.add (.neg (.num 51220529509999999 15)) (.mul (.num 285028741 8) (.rd (.var .logT)))) (.mul (.rd (.var .T)) (.add (.neg (.num 71335354000000004 18)) (.mul (.rd (.var .T)) (.add (.num 15315275916666666 21) (.mul (.rd (.var .T)) (.add (.neg (.num 25073616 16)) (.mul (.num 19872715 20) (.rd (.var .T)))))))))) (.div (.num 154530435 4) (.rd (.var .T))))) (.add (.rd (.var .Kc)) (.sub (.add (.add (.num 20497492249999999 14) (.mul (.neg (.num 37092188499999999 15)) (.rd (.var .logT)))) (.mul (.rd (.var .T)) (.add (.neg (.num 27105392400000001 18)) (.mul (.rd (.var .T)) (.add (.num 30700919500000003 22) (.mul (.rd (.var .T)) (.add (.neg (.num 23730181083333333 26)) (.mul (.num 82365874000000005 31) (.rd (.var .T)))))))))) (.div (.num 298194375 4) (.rd (.var .T))))),
  .set (.var .Kc) (.mul (.num 1 0) (.exp (.rd (.var .Kc)))),
  .set (.arr .rev 217) (.div (.mul (.rd (.arr .C 47)) (.rd (.var .kf))) (.rd (.var .Kc)))]

/-- utilities/mechanisms/yao/lib/src/rxn_rates.c:2874-2897 -/
def rate220 : List CStmt := [
  .set (.var .kf) (.exp (.sub (.num 19519293032620475 15) (.div (.num 3673502823471887 12) (.rd (.var .T))))),
  .set (.arr .fwd 220) (.mul (.mul (.rd (.arr .C 25)) (.rd (.arr .C 41))) (.rd (.var .kf))),
  .ite (.rd (.var .T)) (.num 1000 0) (.var .Kc) (.sub (.add (.add (.neg (.num 14652033000000001 15)) (.mul (.neg (.num 49330699999999994 17)) (.rd (.var .logT)))) (.mul (.rd (.var .T)) (.add (.neg (.num 10462590000000001 18)) (.mul (.rd (.var .T)) (.add (.neg (.num 74779900000000004 23)) (.mul (.rd (.var .T)) (.add (.num 13907600000000001 25) (.mul (.neg (.num 35790729999999999 29)) (.rd (.var .T)))))))))) (.div (.neg (.num 1074826 3)) (.rd (.var .T)))) (.sub (.add (.add (.num 20045607 6) (.mul (.neg (.num 57322569999999997 16)) (.rd (.var .logT)))) (.mul (.rd (.var .T)) (.add (.neg (.num 74541700000000004 19)) (.mul (.rd (.var .T)) (.add (.num 82498316666666656 23) (.mul (.rd (.var .T)) (.add (.neg (.num 6010018333333334 26)) (.mul (.num 18831019999999998 31) (.rd (.var .T)))))))))) (.div (.num 92357029999999997 14) (.rd (.var .T)))),
  .ite (.rd (.var .T)) (.num 1385 0) (.var .Kc) (.add (.rd (.var .Kc)) (.sub (.add (.add (.num 4972006039 8) (.mul (.neg (.num 23678708899999998 16)) (.rd (.var .logT)))) (.mul (.rd (.var .T)) (.add (.num 68677673999999994 18) (.mul (.rd (.var .T)) (.add (.neg (.num 13734602633333332 21)) (.mul (.rd (.var .T)) (.add (.num 19701796833333333 25) (.mul (.neg (.num 123717966 21)) (.rd (.var .T)))))))))) (.div (.neg (.num 16766053899999999 12)) (.rd (.var .T))))) (.add (.rd (.var .Kc)) (.sub (.add (.add (.neg (.num 20377475980000003 14)) (.mul (.num 36968826800000002 15) (.rd (.var .logT)))) (.mul (.rd (.var .T)) (.add (.num 26935973200000001 18) (.mul (.rd (.var .T)) (.add (.neg (.num 30361877166666668 22)) (.mul (.rd (.var .T)) (.add (.num 23397875249999998 26) (.mul (.neg (.num 81054210000000005 31)) (.rd (.var .T)))))))))) (.div (.neg (.num 31214498800000001 12)) (.rd (.var .T))))),
  .ite (.rd (.var .T)) (.num 1390 0) (.var .Kc) (.add (.rd (.var .Kc)) (.sub (.add (.add (.neg (.num 43395772119999997 15)) (.mul (.num 20438729200000001 16) (.rd (.var .logT)))) (.mul (.rd (.var .T)) (.add (.neg (.num 52808641500000003 18)) (.mul (.rd (.var .T)) (.add (.num 11136666183333334 21) (.mul (.rd (.var .T)) (.add (.neg (.num 17873847166666667 25)) (.mul (.num 1387021375 22) (.rd (.var .T)))))))))) (.div (.num 68081851200000001 13) (.rd (.var .T))))) (.add (.rd (.var .Kc)) (.sub (.add (.add (.num 14514764840000001 14) (.mul (.neg (.num 273097514 7)) (.rd (.var .logT)))) (.mul (.rd (.var .T)) (.add (.neg (.num 20632867199999998 18)) (.mul (.rd (.var .T)) (.add (.num 23397214833333332 22) (.mul (.rd (.var .T)) (.add (.neg (.num 18097905916666667 26)) (.mul (.num 62846153499999992 31) (.rd (.var .T)))))))))) (.div (.num 17451602999999999 12) (.rd (.var .T))))),
  .set (.var .Kc) (.mul (.num 82057360967184814 18) (.exp (.rd (.var .Kc)))),
  .set (.arr .rev 218) (.div (.mul (.rd (.arr .C 46)) (.rd (.var .kf))) (.rd (.var .Kc)))]

/-- utilities/mechanisms/yao/lib/src/rxn_rates.c:2898-2921 -/
def rate221 : List CStmt := [
  .set (.var .kf) (.exp (.sub (.num 19519293032620475 15) (.div (.num 3673502823471887 12) (.rd (.var .T))))),
  .set (.arr .fwd 221) (.mul (.mul (.rd (.arr .C 39)) (.rd (.arr .C 29))) (.rd (.var .kf))),
  .ite (.rd (.var .T)) (.num 1000 0) (.var .Kc) (.sub (.add (.add (.neg (.num 19881330999999999 15)) (.mul (.neg (.num 18113800000000002 17)) (.rd (.var .logT)))) (.mul (.rd (.var .T)) (.add (.neg (.num 1542669 8)) (.mul (.rd (.var .T)) (.add (.neg (.num 84775411666666666 23)) (.mul (.rd (.var .T)) (.add (.num 20545739999999999 25) (.mul (.neg (.num 55550964999999992 29)) (.rd (.var .T)))))))))) (.div (.num 17904004 4) (.rd (.var .T)))) (.sub (.add (.add (.neg (.num 134896169 7)) (.mul (.neg (.num 10535841000000001 16)) (.rd (.var .logT)))) (.mul (.rd (.var .T)) (.add (.neg (.num 17175253500000001 18)) (.mul (.rd (.var .T)) (.add (.num 26471994999999997 22) (.mul (.rd (.var .T)) (.add (.neg (.num 27574718333333335 26)) (.mul (.num 12680522500000002 30) (.rd (.var .T)))))))))) (.div (.num 21397231000000002 13) (.rd (.var .T)))),
  .ite (.rd (.var .T)) (.num 1385 0) (.var .Kc) (.add (.rd (.var .Kc)) (.sub (.add (.add (.num 4972006039 8) (.mul (.neg (.num 23678708899999998 16)) (.rd (.var .logT)))) (.mul (.rd (.var .T)) (.add (.num 68677673999999994 18) (.mul (.rd (.var .T)) (.add (.neg (.num 13734602633333332 21)) (.mul (.rd (.var .T)) (.add (.num 19701796833333333 25) (.mul (.neg (.num 123717966 21)) (.rd (.var .T)))))))))) (.div (.neg (.num 16766053899999999 12)) (.rd (.var .T))))) (.add (.rd (.var .Kc)) (.sub (.add (.add (.neg (.num 20377475980000003 14)) (.mul (.num 36968826800000002 15) (.rd (.var .logT)))) (.mul (.rd (.var .T)) (.add (.num 26935973200000001 18) (.mul (.rd (.var .T)) (.add (.neg (.num 30361877166666668 22)) (.mul (.rd (.var .T)) (.add (.num 23397875249999998 26) (.mul (.neg (.num 81054210000000005 31)) (.rd (.var .T)))))))))) (.div (.neg (.num 31214498800000001 12)) (.rd (.var .T))))),
  .ite (.rd (.var .T)) (.num 1390 0) (.var .Kc) (.add (.rd (.var .Kc)) (.sub (.add (.add (.neg (.num 38385822537999999 15)) (.mul (.num 1772759438 9) (.rd (.var .logT)))) (.mul (.rd (.var .T)) (.add (.neg (.num 46627485250000003 18)) (.mul (.rd (.var .T)) (.add (.num 97407874166666667 22) (.mul (.rd (.var .T)) (.add (.neg (.num 15464184499999998 25)) (.mul (.num 11856374150000001 29) (.rd (.var .T)))))))))) (.div (.num 39268951099999999 13) (.rd (.var .T))))) (.add (.rd (.var .Kc)) (.sub (.add (.add (.num 12760841959999999 14) (.mul (.neg (.num 24051035599999999 15)) (.rd (.var .logT)))) (.mul (.rd (.var .T)) (.add (.neg (.num 18474008100000001 18)) (.mul (.rd (.var .T)) (.add (.num 20960877333333333 22) (.mul (.rd (.var .T)) (.add (.neg (.num 16219034083333331 26)) (.mul (.num 56334449000000002 31) (.rd (.var .T)))))))))) (.div (.num 133300535 4) (.rd (.var .T))))),
  .set (.var .Kc) (.mul (.num 82057360967184814 18) (.exp (.rd (.var .Kc)))),
  .set (.arr .rev 219) (.div (.mul (.rd (.arr .C 46)) (.rd (.var .kf))) (.rd (.var .Kc)))]

/-- utilities/mechanisms/yao/lib/src/rxn_rates.c:2922-2945 -/
def rate222 : List CStmt := [
  .set (.var .kf) (.exp (.sub (.num 19519293032620475 15) (.div (.num 3673502823471887 12) (.rd (.var .T))))),
  .set (.arr .fwd 222) (.mul (.mul (.rd (.arr .C 32)) (.rd (.arr .C 37))) (.rd (.var .kf))),
  .ite (.rd (.var .T)) (.num 1392 0) (.var .Kc) (.sub (.add (.add (.neg (.num 33336213809999997 15)) (.mul (.num 20622348100000001 16) (.rd (.var .logT)))) (.mul (.rd (.var .T)) (.add (.neg (.num 287109147 10)) (.mul (.rd (.var .T)) (.add (.num 62414481666666671 22) (.mul (.rd (.var .T)) (.add (.neg (.num 10613749083333332 25)) (.mul (.num 89804894499999993 30) (.rd (.var .T)))))))))) (.div (.num 446546666 5) (.rd (.var .T)))) (.sub (.add (.add (.num 66953547499999999 15) (.mul (.neg (.num 135851539 7)) (.rd (.var .logT)))) (.mul (.rd (.var .T)) (.add (.neg (.num 1120362355 11)) (.mul (.rd (.var .T)) (.add (.num 12722467083333334 22) (.mul (.rd (.var .T)) (.add (.neg (.num 98490805000000006 27)) (.mul (.num 3421925695 24) (.rd (.var .T)))))))))) (.div (.num 100898205 4) (.rd (.var .T)))),
  .ite (.rd (.var .T)) (.num 1385 0) (.var .Kc) (.add (.rd (.var .Kc)) (.sub (.add (.add (.num 4972006039 8) (.mul (.neg (.num 23678708899999998 16)) (.rd (.var .logT)))) (.mul (.rd (.var .T)) (.add (.num 68677673999999994 18) (.mul (.rd (.var .T)) (.add (.neg (.num 13734602633333332 21)) (.mul (.rd (.var .T)) (.add (.num 19701796833333333 25) (.mul (.neg (.num 123717966 21)) (.rd (.var .T)))))))))) (.div (.neg (.num 16766053899999999 12)) (.rd (.var .T))))) (.add (.rd (.var .Kc)) (.sub (.add (.add (.neg (.num 20377475980000003 14)) (.mul (.num 36968826800000002 15) (.rd (.var .logT)))) (.mul (.rd (.var .T)) (.add (.num 26935973200000001 18) (.mul (.rd (.var .T)) (.add (.neg (.num 30361877166666668 22)) (.mul (.rd (.var .T)) (.add (.num 23397875249999998 26) (.mul (.neg (.num 81054210000000005 31)) (.rd (.var .T)))))))))) (.div (.neg (.num 31214498800000001 12)) (.rd (.var .T))))),
  .ite (.rd (.var .T)) (.num 1390 0) (.var .Kc) (.add (.rd (.var .Kc)) (.sub (.add (.add (.neg (.num 35155971505999993 15)) (.mul (.num 14995704060000001 16) (.rd (.var .logT)))) (.mul (.rd (.var .T)) (.add (.neg (.num 40441323350000002 18)) (.mul (.rd (.var .T)) (.add (.num 8342212566666667 21) (.mul (.rd (.var .T)) (.add (.neg (.num 13045775666666668 25)) (.mul (.num 98308113500000002 30) (.rd (.var .T)))))))))) (.div (.num 10459022299999999 13) (.rd (.var .T))))) (.add (.rd (.var .Kc)) (.sub (.add (.add (.num 108289502 6) (.mul (.neg (.num 20794070900000001 15)) (.rd (.var .logT)))) (.mul (.rd (.var .T)) (.add (.neg (.num 16314012150000001 18)) (.mul (.rd (.var .T)) (.add (.num 18523040666666668 22) (.mul (.rd (.var .T)) (.add (.neg (.num 14338929 17)) (.mul (.num 49818349949999998 31) (.rd (.var .T)))))))))) (.div (.num 92093822099999998 13) (.rd (.var .T))))),
  .set (.var .Kc) (.mul (.num 82057360967184814 18) (.exp (.rd (.var .Kc)))),
  .set (.arr .rev 220) (.div (.mul (.rd (.arr .C 47)) (.rd (.var .kf))) (.rd (.var .Kc)))]

/-- utilities/mechanisms/yao/lib/src/rxn_rates.c:2946-2969 -/
def rate223 : List CStmt := [
  .set (.var .kf) (.exp (.sub (.num 19519293032620475 15) (.div (.num 3673502823471887 12) (.rd (.var .T))))),
  .set (.arr .fwd 223) (.mul (.mul (.rd (.arr .C 42)) (.rd (.arr .C 21))) (.rd (.var .kf))),
  .ite (.rd (.var .T)) (.num 1392 0) (.var .Kc) (.sub (.add (.add (.neg (.num 49486155179999997 15)) (.mul (.num 34290168799999998 16) (.rd (.var .logT)))) (.mul (.rd (.var .T)) (.add (.neg (.num 59652798999999999 18)) (.mul (.rd (.var .T)) (.add (.num 13241483750000001 21) (.mul (.rd (.var .T)) (.add (.neg (.num 22728049666666667 25)) (.mul (.num 1913591865 22) (.rd (.var .T)))))))))) (.div (.num 18870836500000001 12) (.rd (.var .T)))) (.sub (.add (.add (.num 1635805623 7) (.mul (.neg (.num 29875390299999999 15)) (.rd (.var .logT)))) (.mul (.rd (.var .T)) (.add (.neg (.num 21998576299999999 18)) (.mul (.rd (.var .T)) (.add (.num 24904255000000001 22) (.mul (.rd (.var .T)) (.add (.neg (.num 19243139833333331 26)) (.mul (.num 66775738500000002 31) (.rd (.var .T)))))))))) (.div (.num 306937307 4) (.rd (.var .T)))),
  .ite (.rd (.var .T)) (.num 1385 0) (.var .Kc) (.add (.rd (.var .Kc)) (.sub (.add (.add (.num 4972006039 8) (.mul (.neg (.num 23678708899999998 16)) (.rd (.var .logT)))) (.mul (.rd (.var .T)) (.add (.num 68677673999999994 18) (.mul (.rd (.var .T)) (.add (.neg (.num 13734602633333332 21)) (.mul (.rd (.var .T)) (.add (.num 19701796833333333 25) (.mul (.neg (.num 123717966 21)) (.rd (.var .T)))))))))) (.div (.neg (.num 16766053899999999 12)) (.rd (.var .T))))) (.add (.rd (.var .Kc)) (.sub (.add (.add (.neg (.num 20377475980000003 14)) (.mul (.num 36968826800000002 15) (.rd (.var .logT)))) (.mul (.rd (.var .T)) (.add (.num 26935973200000001 18) (.mul (.rd (.var .T)) (.add (.neg (.num 30361877166666668 22)) (.mul (.rd (.var .T)) (.add (.num 23397875249999998 26) (.mul (.neg (.num 81054210000000005 31)) (.rd (.var .T)))))))))) (.div (.neg (.num 31214498800000001 12)) (.rd (.var .T))))),
  .ite (.rd (.var .T)) (.num 1000 0) (.var .Kc) (.add (.rd (.var .Kc)) (.sub (.add (.add (.neg (.num 40074356000000044 17)) (.mul (.neg (.num 33064656799999996 16)) (.rd (.var .logT)))) (.mul (.rd (.var .T)) (.add (.num 20932944600000002 19) (.mul (.rd (.var .T)) (.add (.neg (.num 82857134500000004 22)) (.mul (.rd (.var .T)) (.add (.num 49927217166666664 25) (.mul (.neg (.num 11525450200000001 28)) (.rd (.var .T)))))))))) (.div (.neg (.num 128416265 4)) (.rd (.var .T))))) (.add (.rd (.var .Kc)) (.sub (.add (.add (.neg (.num 11507777879999999 15)) (.mul (.neg (.num 95465642000000006 17)) (.rd (.var .logT)))) (.mul (.rd (.var .T)) (.add (.neg (.num 86986361000000005 19)) (.mul (.rd (.var .T)) (.add (.num 13303444466666667 22) (.mul (.rd (.var .T)) (.add (.neg (.num 14601474083333333 26)) (.mul (.num 74820787999999997 31) (.rd (.var .T)))))))))) (.div (.neg (.num 1285752 2)) (.rd (.var .T))))),
  .set (.var .Kc) (.mul (.num 82057360967184814 18) (.exp (.rd (.var .Kc)))),
  .set (.arr .rev 221) (.div (.mul (.rd (.arr .C 47)) (.rd (.var .kf))) (.rd (.var .Kc)))]

/-- utilities/mechanisms/yao/lib/src/rxn_rates.c:2970-2993 -/
def rate224 : List CStmt := [
  .set (.var .kf) (.exp (.sub (.num 19519293032620475 15) (.div (.num 3673502823471887 12) (.rd (.var .T))))),
  .set (.arr .fwd 224) (.mul (.mul (.rd (.arr .C 34)) (.rd (.arr .C 35))) (.rd (.var .kf))),
  .ite (.rd (.var .T)) (.num 1392 0) (.var .Kc) (.sub (.add (.add (.neg (.num 36664821150000002 15)) (.mul (.num 23527520500000003 16) (.rd (.var .logT)))) (.mul (.rd (.var .T)) (.add (.neg (.num 34932771299999998 18)) (.mul (.rd (.var .T)) (.add (.num 76568003666666674 22) (.mul (.rd (.var .T)) (.add (.neg (.num 13080611916666668 25)) (.mul (.num 11064808750000001 29) (.rd (.var .T)))))))))) (.div (.num 73436861699999999 13) (.rd (.var .T)))) (.sub (.add (.add (.num 86215638000000013 15) (.mul (.neg (.num 168337529 7)) (.rd (.var .logT)))) (.mul (.rd (.var .T)) (.add (.neg (.num 133688829 10)) (.mul (.rd (.var .T)) (.add (.num 15167279550000001 22) (.mul (.rd (.var .T)) (.add (.neg (.num 11734980666666667 26)) (.mul (.num 40756212200000003 31) (.rd (.var .T)))))))))) (.div (.num 14206286 3) (.rd (.var .T)))),
  .ite (.rd (.var .T)) (.num 1385 0) (.var .Kc) (.add (.rd (.var .Kc)) (.sub (.add (.add (.num 4972006039 8) (.mul (.neg (.num 23678708899999998 16)) (.rd (.var .logT)))) (.mul (.rd (.var .T)) (.add (.num 68677673999999994 18) (.mul (.rd (.var .T)) (.add (.neg (.num 13734602633333332 21)) (.mul (.rd (.var .T)) (.add (.num 19701796833333333 25) (.mul (.neg (.num 123717966 21)) (.rd (.var .T)))))))))) (.div (.neg (.num 16766053899999999 12)) (.rd (.var .T))))) (.add (.rd (.var .Kc)) (.sub (.add (.add (.neg (.num 20377475980000003 14)) (.mul (.num 36968826800000002 15) (.rd (.var .logT)))) (.mul (.rd (.var .T)) (.add (.num 26935973200000001 18) (.mul (.rd (.var .T)) (.add (.neg (.num 30361877166666668 22)) (.mul (.rd (.var .T)) (.add (.num 23397875249999998 26) (.mul (.neg (.num 81054210000000005 31)) (.rd (.var .T)))))))))) (.div (.neg (.num 31214498800000001 12)) (.rd (.var .T))))),
  .ite (.rd (.var .T)) (.num 1390 0) (.var .Kc) (.add (.rd (.var .Kc)) (.sub (.add (.add (.neg (.num 31812380765 9)) (.mul (.num 12048714650000001 16) (.rd (.var .logT)))) (.mul (.rd (.var .T)) (.add (.neg (.num 34190063600000001 18)) (.mul (.rd (.var .T)) (.add (.num 69074651999999995 22) (.mul (.rd (.var .T)) (.add (.neg (.num 105129835 17)) (.mul (.num 76560028999999992 30) (.rd (.var .T)))))))))) (.div (.neg (.num 183280393 5)) (.rd (.var .T))))) (.add (.rd (.var .Kc)) (.sub (.add (.add (.num 88987641300000007 15) (.mul (.neg (.num 17538547000000001 15)) (.rd (.var .logT)))) (.mul (.rd (.var .T)) (.add (.neg (.num 14155398099999999 18)) (.mul (.rd (.var .T)) (.add (.num 16088454099999999 22) (.mul (.rd (.var .T)) (.add (.neg (.num 1246229875 19)) (.mul (.num 43316803200000002 31) (.rd (.var .T)))))))))) (.div (.num 50929904100000003 13) (.rd (.var .T))))),
  .set (.var .Kc) (.mul (.num 82057360967184814 18) (.exp (.rd (.var .Kc)))),
  .set (.arr .rev 222) (.div (.mul (.rd (.arr .C 47)) (.rd (.var .kf))) (.rd (.var .Kc)))]

/-- utilities/mechanisms/yao/lib/src/rxn_rates.c:2994-3017 -/
def rate225 : List CStmt := [
  .set (.var .kf) (.exp (.sub (.num 19519293032620475 15) (.div (.num 3673502823471887 12) (.rd (.var .T))))),
  .set (.arr .fwd 225) (.mul (.mul (.rd (.arr .C 26)) (.rd (.arr .C 40))) (.rd (.var .kf))),
  .ite (.rd (.var .T)) (.num 1000 0) (.var .Kc) (.sub (.add (.add (.neg (.num 200869167 7)) (.mul (.neg (.num 4911730000000003 17)) (.rd (.var .logT)))) (.mul (.rd (.var .T)) (.add (.neg (.num 13004486500000001 18)) (.mul (.rd (.var .T)) (.add (.neg (.num 39237526666666665 23)) (.mul (.rd (.var .T)) (.add (.num 16329276666666667 25) (.mul (.neg (.num 46860103500000001 29)) (.rd (.var .T)))))))))) (.div (.neg (.num 10312346 3)) (.rd (.var .T)))) (.sub (.add (.add (.num 232250449 7) (.mul (.neg (.num 67097479 7)) (.rd (.var .logT)))) (.mul (.rd (.var .T)) (.add (.neg (.num 80157425000000008 19)) (.mul (.rd (.var .T)) (.add (.num 87867063333333323 23) (.mul (.rd (.var .T)) (.add (.neg (.num 63240293333333341 27)) (.mul (.num 19431359500000002 31) (.rd (.var .T)))))))))) (.div (.neg (.num 79762236000000003 13)) (.rd (.var .T)))),
  .ite (.rd (.var .T)) (.num 1385 0) (.var .Kc) (.add (.rd (.var .Kc)) (.sub (.add (.add (.num 4972006039 8) (.mul (.neg (.num 23678708899999998 16)) (.rd (.var .logT)))) (.mul (.rd (.var .T)) (.add (.num 68677673999999994 18) (.mul (.rd (.var .T)) (.add (.neg (.num 13734602633333332 21)) (.mul (.rd (.var .T)) (.add (.num 19701796833333333 25) (.mul (.neg (.num 123717966 21)) (.rd (.var .T)))))))))) (.div (.neg (.num 16766053899999999 12)) (.rd (.var .T))))) (.add (.rd (.var .Kc)) (.sub (.add (.add (.neg (.num 20377475980000003 14)) (.mul (.num 36968826800000002 15) (.rd (.var .logT)))) (.mul (.rd (.var .T)) (.add (.num 26935973200000001 18) (.mul (.rd (.var .T)) (.add (.neg (.num 30361877166666668 22)) (.mul (.rd (.var .T)) (.add (.num 23397875249999998 26) (.mul (.neg (.num 81054210000000005 31)) (.rd (.var .T)))))))))) (.div (.neg (.num 31214498800000001 12)) (.rd (.var .T))))),
  .ite (.rd (.var .T)) (.num 1392 0) (.var .Kc) (.add (.rd (.var .Kc)) (.sub (.add (.add (.neg (.num 46285595430000001 15)) (.mul (.num 31610826300000001 16) (.rd (.var .logT)))) (.mul (.rd (.var .T)) (.add (.neg (.num 53479148499999997 18)) (.mul (.rd (.var .T)) (.add (.num 11849554066666667 21) (.mul (.rd (.var .T)) (.add (.neg (.num 20330923083333334 25)) (.mul (.num 1713857735 22) (.rd (.var .T)))))))))) (.div (.num 15989084699999999 12) (.rd (.var .T))))) (.add (.rd (.var .Kc)) (.sub (.add (.add (.num 1442328406 7) (.mul (.neg (.num 266142176 7)) (.rd (.var .logT)))) (.mul (.rd (.var .T)) (.add (.neg (.num 19841264349999999 18)) (.mul (.rd (.var .T)) (.add (.num 22469907666666666 22) (.mul (.rd (.var .T)) (.add (.neg (.num 17365871000000002 26)) (.mul (.num 60269646999999996 31) (.rd (.var .T)))))))))) (.div (.num 265709061 4) (.rd (.var .T))))),
  .set (.var .Kc) (.mul (.num 82057360967184814 18) (.exp (.rd (.var .Kc)))),
  .set (.arr .rev 223) (.div (.mul (.rd (.arr .C 47)) (.rd (.var .kf))) (.rd (.var .Kc)))]

/-- utilities/mechanisms/yao/lib/src/rxn_rates.c:3018-3041 -/
def rate226 : List CStmt := [
  .set (.var .kf) (.exp (.sub (.num 19519293032620475 15) (.div (.num 3673502823471887 12) (.rd (.var .T))))),
  .set (.arr .fwd 226) (.mul (.mul (.rd (.arr .C 33)) (.rd (.arr .C 36))) (.rd (.var .kf))),
  .ite (.rd (.var .T)) (.num 1392 0) (.var .Kc) (.sub (.add (.add (.neg (.num 40184008689999999 15)) (.mul (.num 267720549 8) (.rd (.var .logT)))) (.mul (.rd (.var .T)) (.add (.neg (.num 4123058005 11)) (.mul (.rd (.var .T)) (.add (.num 91084017999999997 22) (.mul (.rd (.var .T)) (.add (.neg (.num 15655191916666667 25)) (.mul (.num 13286899149999999 29) (.rd (.var .T)))))))))) (.div (.num 102168601 4) (.rd (.var .T)))) (.sub (.add (.add (.num 1055289147 7) (.mul (.neg (.num 200898039 7)) (.rd (.var .logT)))) (.mul (.rd (.var .T)) (.add (.neg (.num 155303939 10)) (.mul (.rd (.var .T)) (.add (.num 17607465499999998 22) (.mul (.rd (.var .T)) (.add (.neg (.num 13617148333333333 26)) (.mul (.num 47279910950000003 31) (.rd (.var .T)))))))))) (.div (.num 183260065 4) (.rd (.var .T)))),
  .ite (.rd (.var .T)) (.num 1385 0) (.var .Kc) (.add (.rd (.var .Kc)) (.sub (.add (.add (.num 4972006039 8) (.mul (.neg (.num 23678708899999998 16)) (.rd (.var .logT)))) (.mul (.rd (.var .T)) (.add (.num 68677673999999994 18) (.mul (.rd (.var .T)) (.add (.neg (.num 13734602633333332 21)) (.mul (.rd (.var .T)) (.add (.num 19701796833333333 25) (.mul (.neg (.num 123717966 21)) (.rd (.var .T)))))))))) (.div (.neg (.num 16766053899999999 12)) (.rd (.var .T))))) (.add (.rd (.var .Kc)) (.sub (.add (.add (.neg (.num 20377475980000003 14)) (.mul (.num 36968826800000002 15) (.rd (.var .logT)))) (.mul (.rd (.var .T)) (.add (.num 26935973200000001 18) (.mul (.rd (.var .T)) (.add (.neg (.num 30361877166666668 22)) (.mul (.rd (.var .T)) (.add (.num 23397875249999998 26) (.mul (.neg (.num 81054210000000005 31)) (.rd (.var .T)))))))))) (.div (.neg (.num 31214498800000001 12)) (.rd (.var .T))))),
  .ite (.rd (.var .T)) (.num 1390 0) (.var .Kc) (.add (.rd (.var .Kc)) (.sub (.add (.add (.neg (.num 28671428191900002 15)) (.mul (.num 9475615919 10) (.rd (.var .logT)))) (.mul (.rd (.var .T)) (.add (.neg (.num 28039847900000001 18)) (.mul (.rd (.var .T)) (.add (.num 55257633833333341 22) (.mul (.rd (.var .T)) (.add (.neg (.num 81461148416666665 26)) (.mul (.num 57004829999999998 30) (.rd (.var .T)))))))))) (.div (.neg (.num 47161145999999999 13)) (.rd (.var .T))))) (.add (.rd (.var .Kc)) (.sub (.add (.add (.num 69780673899999996 15) (.mul (.neg (.num 142977446 7)) (.rd (.var .logT)))) (.mul (.rd (.var .T)) (.add (.neg (.num 119867655 10)) (.mul (.rd (.var .T)) (.add (.num 13639882466666667 22) (.mul (.rd (.var .T)) (.add (.neg (.num 10573589666666666 26)) (.mul (.num 36770452750000001 31) (.rd (.var .T)))))))))) (.div (.num 98071230700000001 14) (.rd (.var .T))))),
  .set (.var .Kc) (.mul (.num 82057360967184814 18) (.exp (.rd (.var .Kc)))),
  .set (.arr .rev 224) (.div (.mul (.rd (.arr .C 47)) (.rd (.var .kf))) (.rd (.var .Kc)))]

/-- utilities/mechanisms/yao/lib/src/rxn_rates.c:3042-3065 -/
def rate227 : List CStmt := [
  .set (.var .kf) (.exp (.sub (.num 19519293032620475 15) (.div (.num 3673502823471887 12) (.rd (.var .T))))),
  .set (.arr .fwd 227) (.mul (.mul (.rd (.arr .C 30)) (.rd (.arr .C 38))) (.rd (.var .kf))),
  .ite (.rd (.var .T)) (.num 1000 0) (.var .Kc) (.sub (.add (.add (.neg (.num 20960563799999999 15)) (.mul (.neg (.num 2087041999999999 16)) (.rd (.var .logT)))) (.mul (.rd (.var .T)) (.add (.neg (.num 191487485 10)) (.mul (.rd (.var .T)) (.add (.num 12110084833333334 22) (.mul (.rd (.var .T)) (.add (.num 128571225 17) (.mul (.neg (.num 43429717500000001 29)) (.rd (.var .T)))))))))) (.div (.neg (.num 73221040000000003 13)) (.rd (.var .T)))) (.sub (.add (.add (.num 26573986499999997 15) (.mul (.neg (.num 76822394999999997 16)) (.rd (.var .logT)))) (.mul (.rd (.var .T)) (.add (.neg (.num 11845535500000001 18)) (.mul (.rd (.var .T)) (.add (.num 12658144166666666 22) (.mul (.rd (.var .T)) (.add (.neg (.num 55355946666666663 27)) (.mul (.neg (.num 27422567999999999 31)) (.rd (.var .T)))))))))) (.div (.neg (.num 49644058000000005 13)) (.rd (.var .T)))),
  .ite (.rd (.var .T)) (.num 1385 0) (.var .Kc) (.add (.rd (.var .Kc)) (.sub (.add (.add (.num 4972006039 8) (.mul (.neg (.num 23678708899999998 16)) (.rd (.var .logT)))) (.mul (.rd (.var .T)) (.add (.num 68677673999999994 18) (.mul (.rd (.var .T)) (.add (.neg (.num 13734602633333332 21)) (.mul (.rd (.var .T)) (.add (.num 19701796833333333 25) (.mul (.neg (.num 123717966 21)) (.rd (.var .T)))))))))) (.div (.neg (.num 16766053899999999 12)) (.rd (.var .T))))) (.add (.rd (.var .Kc)) (.sub (.add (.add (.neg (.num 20377475980000003 14)) (.mul (.num 36968826800000002 15) (.rd (.var .logT)))) (.mul (.rd (.var .T)) (.add (.num 26935973200000001 18) (.mul (.rd (.var .T)) (.add (.neg (.num 30361877166666668 22)) (.mul (.rd (.var .T)) (.add (.num 23397875249999998 26) (.mul (.neg (.num 81054210000000005 31)) (.rd (.var .T)))))))))) (.div (.neg (.num 31214498800000001 12)) (.rd (.var .T))))),
  .ite (.rd (.var .T)) (.num 1392 0) (.var .Kc) (.add (.rd (.var .Kc)) (.sub (.add (.add (.neg (.num 43080167249999995 15)) (.mul (.num 28922691499999997 16) (.rd (.var .logT)))) (.mul (.rd (.var .T)) (.add (.neg (.num 47303317849999998 18)) (.mul (.rd (.var .T)) (.add (.num 10456425350000001 21) (.mul (.rd (.var .T)) (.add (.neg (.num 17929859083333332 25)) (.mul (.num 15135934150000002 29) (.rd (.var .T)))))))))) (.div (.num 13107455900000001 12) (.rd (.var .T))))) (.add (.rd (.var .Kc)) (.sub (.add (.add (.num 1248917285 7) (.mul (.neg (.num 233540125 7)) (.rd (.var .logT)))) (.mul (.rd (.var .T)) (.add (.neg (.num 17683323099999999 18)) (.mul (.rd (.var .T)) (.add (.num 20034731333333335 22) (.mul (.rd (.var .T)) (.add (.neg (.num 15487921083333335 26)) (.mul (.num 53761130999999999 31) (.rd (.var .T)))))))))) (.div (.num 224485674 4) (.rd (.var .T))))),
  .set (.var .Kc) (.mul (.num 82057360967184814 18) (.exp (.rd (.var .Kc)))),
  .set (.arr .rev 225) (.div (.mul (.rd (.arr .C 47)) (.rd (.var .kf))) (.rd (.var .Kc)))]

/-- utilities/mechanisms/yao/lib/src/rxn_rates.c:3066-3089 -/
def rate228 : List CStmt := [
  .set (.var .kf) (.exp (.sub (.num 25959707799776361 15) (.mul (.num 5 1) (.rd (.var .logT))))),
  .set (.arr .fwd 228) (.mul (.mul (.rd (.arr .C 21)) (.rd (.arr .C 43))) (.rd (.var .kf))),
  .ite (.rd (.var .T)) (.num 1000 0) (.var .Kc) (.sub (.add (.add (.neg (.num 40074356000000044 17)) (.mul (.neg (.num 33064656799999996 16)) (.rd (.var .logT)))) (.mul (.rd (.var .T)) (.add (.num 20932944600000002 19) (.mul (.rd (.var .T)) (.add (.neg (.num 82857134500000004 22)) (.mul (.rd (.var .T)) (.add (.num 49927217166666664 25) (.mul (.neg (.num 11525450200000001 28)) (.rd (.var .T)))))))))) (.div (.neg (.num 128416265 4)) (.rd (.var .T)))) (.sub (.add (.add (.neg (.num 11507777879999999 15)) (.mul (.neg (.num 95465642000000006 17)) (.rd (.var .logT)))) (.mul (.rd (.var .T)) (.add (.neg (.num 86986361000000005 19)) (.mul (.rd (.var .T)) (.add (.num 13303444466666667 22) (.mul (.rd (.var .T)) (.add (.neg (.num 14601474083333333 26)) (.mul (.num 74820787999999997 31) (.rd (.var .T)))))))))) (.div (.neg (.num 1285752 2)) (.rd (.var .T)))),
  .ite (.rd (.var .T)) (.num 1390 0) (.var .Kc) (.add (.rd (.var .Kc)) (.sub (.add (.add (.neg (.num 44814628679999998 15)) (.mul (.num 23135834800000001 16) (.rd (.var .logT)))) (.mul (.rd (.var .T)) (.add (.neg (.num 58986406499999998 18)) (.mul (.rd (.var .T)) (.add (.num 12530717983333334 21) (.mul (.rd (.var .T)) (.add (.neg (.num 20277592166666667 25)) (.mul (.num 15876142600000001 29) (.rd (.var .T)))))))))) (.div (.num 96896754999999994 13) (.rd (.var .T))))) (.add (.rd (.var .Kc)) (.sub (.add (.add (.num 16627870200000001 14) (.mul (.neg (.num 30569716 6)) (.rd (.var .logT)))) (.mul (.rd (.var .T)) (.add (.neg (.num 22790920150000001 18)) (.mul (.rd (.var .T)) (.add (.num 25832494166666668 22) (.mul (.rd (.var .T)) (.add (.neg (.num 19975911083333332 26)) (.mul (.num 693547795 23) (.rd (.var .T)))))))))) (.div (.num 21573783200000002 12) (.rd (.var .T))))),
  .ite (.rd (.var .T)) (.num 1391 0) (.var .Kc) (.add (.rd (.var .Kc)) (.sub (.add (.add (.num 5272127854 8) (.mul (.neg (.num 36218159399999998 16)) (.rd (.var .logT)))) (.mul (.rd (.var .T)) (.add (.num 73618855499999997 18) (.mul (.rd (.var .T)) (.add (.neg (.num 15732837849999999 21)) (.mul (.rd (.var .T)) (.add (.num 25620105666666666 25) (.mul (.neg (.num 20180111500000002 29)) (.rd (.var .T)))))))))) (.div (.neg (.num 40065425300000003 12)) (.rd (.var .T))))) (.add (.rd (.var .Kc)) (.sub (.add (.add (.neg (.num 2111804257 7)) (.mul (.num 37509503700000003 15) (.rd (.var .logT)))) (.mul (.rd (.var .T)) (.add (.num 28177502399999999 18) (.mul (.rd (.var .T)) (.add (.neg (.num 31915533333333334 22)) (.mul (.rd (.var .T)) (.add (.num 24668738499999999 26) (.mul (.neg (.num 85622075000000004 31)) (.rd (.var .T)))))))))) (.div (.neg (.num 548843465 4)) (.rd (.var .T))))),
  .set (.var .Kc) (.mul (.num 82057360967184814 18) (.exp (.rd (.var .Kc)))),
  .set (.arr .rev 226) (.div (.mul (.rd (.arr .C 44)) (.rd (.var .kf))) (.rd (.var .Kc)))]

/-- utilities/mechanisms/yao/lib/src/rxn_rates.c:3090-3113 -/
def rate229 : List CStmt := [
  .set (.var .kf) (.exp (.sub (.num 25959707799776361 15) (.mul (.num 5 1) (.rd (.var .logT))))),
  .set (.arr .fwd 229) (.mul (.mul (.rd (.arr .C 26)) (.rd (.arr .C 41))) (.rd (.var .kf))),
  .ite (.rd (.var .T)) (.num 1000 0) (.var .Kc) (.sub (.add (.add (.neg (.num 200869167 7)) (.mul (.neg (.num 4911730000000003 17)) (.rd (.var .logT)))) (.mul (.rd (.var .T)) (.add (.neg (.num 13004486500000001 18)) (.mul (.rd (.var .T)) (.add (.neg (.num 39237526666666665 23)) (.mul (.rd (.var .T)) (.add (.num 16329276666666667 25) (.mul (.neg (.num 46860103500000001 29)) (.rd (.var .T)))))))))) (.div (.neg (.num 10312346 3)) (.rd (.var .T)))) (.sub (.add (.add (.num 232250449 7) (.mul (.neg (.num 67097479 7)) (.rd (.var .logT)))) (.mul (.rd (.var .T)) (.add (.neg (.num 80157425000000008 19)) (.mul (.rd (.var .T)) (.add (.num 87867063333333323 23) (.mul (.rd (.var .T)) (.add (.neg (.num 63240293333333341 27)) (.mul (.num 19431359500000002 31) (.rd (.var .T)))))))))) (.div (.neg (.num 79762236000000003 13)) (.rd (.var .T)))),
  .ite (.rd (.var .T)) (.num 1390 0) (.var .Kc) (.add (.rd (.var .Kc)) (.sub (.add (.add (.neg (.num 43395772119999997 15)) (.mul (.num 20438729200000001 16) (.rd (.var .logT)))) (.mul (.rd (.var .T)) (.add (.neg (.num 52808641500000003 18)) (.mul (.rd (.var .T)) (.add (.num 11136666183333334 21) (.mul (.rd (.var .T)) (.add (.neg (.num 17873847166666667 25)) (.mul (.num 1387021375 22) (.rd (.var .T)))))))))) (.div (.num 68081851200000001 13) (.rd (.var .T))))) (.add (.rd (.var .Kc)) (.sub (.add (.add (.num 14514764840000001 14) (.mul (.neg (.num 273097514 7)) (.rd (.var .logT)))) (.mul (.rd (.var .T)) (.add (.neg (.num 20632867199999998 18)) (.mul (.rd (.var .T)) (.add (.num 23397214833333332 22) (.mul (.rd (.var .T)) (.add (.neg (.num 18097905916666667 26)) (.mul (.num 62846153499999992 31) (.rd (.var .T)))))))))) (.div (.num 17451602999999999 12) (.rd (.var .T))))),
  .ite (.rd (.var .T)) (.num 1391 0) (.var .Kc) (.add (.rd (.var .Kc)) (.sub (.add (.add (.num 5272127854 8) (.mul (.neg (.num 36218159399999998 16)) (.rd (.var .logT)))) (.mul (.rd (.var .T)) (.add (.num 73618855499999997 18) (.mul (.rd (.var .T)) (.add (.neg (.num 15732837849999999 21)) (.mul (.rd (.var .T)) (.add (.num 25620105666666666 25) (.mul (.neg (.num 20180111500000002 29)) (.rd (.var .T)))))))))) (.div (.neg (.num 40065425300000003 12)) (.rd (.var .T))))) (.add (.rd (.var .Kc)) (.sub (.add (.add (.neg (.num 2111804257 7)) (.mul (.num 37509503700000003 15) (.rd (.var .logT)))) (.mul (.rd (.var .T)) (.add (.num 28177502399999999 18) (.mul (.rd (.var .T)) (.add (.neg (.num 31915533333333334 22)) (.mul (.rd (.var .T)) (.add (.num 24668738499999999 26) (.mul (.neg (.num 85622075000000004 31)) (.rd (.var .T)))))))))) (.div (.neg (.num 548843465 4)) (.rd (.var .T))))),
  .set (.var .Kc) (.mul (.num 82057360967184814 18) (.exp (.rd (.var .Kc)))),
  .set (.arr .rev 227) (.div (.mul (.rd (.arr .C 44)) (.rd (.var .kf))) (.rd (.var .Kc)))]

/-- utilities/mechanisms/yao/lib/src/rxn_rates.c:3114-3137 -/
def rate230 : List CStmt := [
  .set (.var .kf) (.exp (.sub (.num 25959707799776361 15) (.mul (.num 5 1) (.rd (.var .logT))))),
  .set (.arr .fwd 230) (.mul (.mul (.rd (.arr .C 39)) (.rd (.arr .C 30))) (.rd (.var .kf))),
  .ite (.rd (.var .T)) (.num 1000 0) (.var .Kc) (.sub (.add (.add (.neg (.num 20960563799999999 15)) (.mul (.neg (.num 2087041999999999 16)) (.rd (.var .logT)))) (.mul (.rd (.var .T)) (.add (.neg (.num 191487485 10)) (.mul (.rd (.var .T)) (.add (.num 12110084833333334 22) (.mul (.rd (.var .T)) (.add (.num 128571225 17) (.mul (.neg (.num 43429717500000001 29)) (.rd (.var .T)))))))))) (.div (.neg (.num 73221040000000003 13)) (.rd (.var .T)))) (.sub (.add (.add (.num 26573986499999997 15) (.mul (.neg (.num 76822394999999997 16)) (.rd (.var .logT)))) (.mul (.rd (.var .T)) (.add (.neg (.num 11845535500000001 18)) (.mul (.rd (.var .T)) (.add (.num 12658144166666666 22) (.mul (.rd (.var .T)) (.add (.neg (.num 55355946666666663 27)) (.mul (.neg (.num 27422567999999999 31)) (.rd (.var .T)))))))))) (.div (.neg (.num 49644058000000005 13)) (.rd (.var .T)))),
  .ite (.rd (.var .T)) (.num 1390 0) (.var .Kc) (.add (.rd (.var .Kc)) (.sub (.add (.add (.neg (.num 38385822537999999 15)) (.mul (.num 1772759438 9) (.rd (.var .logT)))) (.mul (.rd (.var .T)) (.add (.neg (.num 46627485250000003 18)) (.mul (.rd (.var .T)) (.add (.num 97407874166666667 22) (.mul (.rd (.var .T)) (.add (.neg (.num 15464184499999998 25)) (.mul (.num 11856374150000001 29) (.rd (.var .T)))))))))) (.div (.num 39268951099999999 13) (.rd (.var .T))))) (.add (.rd (.var .Kc)) (.sub (.add (.add (.num 12760841959999999 14) (.mul (.neg (.num 24051035599999999 15)) (.rd (.var .logT)))) (.mul (.rd (.var .T)) (.add (.neg (.num 18474008100000001 18)) (.mul (.rd (.var .T)) (.add (.num 20960877333333333 22) (.mul (.rd (.var .T)) (.add (.neg (.num 16219034083333331 26)) (.mul (.num 56334449000000002 31) (.rd (.var .T)))))))))) (.div (.num 133300535 4) (.rd (.var .T))))),
  .ite (.rd (.var .T)) (.num 1391 0) (.var .Kc) (.add (.rd (.var .Kc)) (.sub (.add (.add (.num 5272127854 8) (.mul (.neg (.num 36218159399999998 16)) (.rd (.var .logT)))) (.mul (.rd (.var .T)) (.add (.num 73618855499999997 18) (.mul (.rd (.var .T)) (.add (.neg (.num 15732837849999999 21)) (.mul (.rd (.var .T)) (.add (.num 25620105666666666 25) (.mul (.neg (.num 20180111500000002 29)) (.rd (.var .T)))))))))) (.div (.neg (.num 40065425300000003 12)) (.rd (.var .T))))) (.add (.rd (.var .Kc)) (.sub (.add (.add (.neg (.num 2111804257 7)) (.mul (.num 37509503700000003 15) (.rd (.var .logT)))) (.mul (.rd (.var .T)) (.add (.num 28177502399999999 18) (.mul (.rd (.var .T)) (.add (.neg (.num 31915533333333334 22)) (.mul (.rd (.var .T)) (.add (.num 24668738499999999 26) (.mul (.neg (.num 85622075000000004 31)) (.rd (.var .T)))))))))) (.div (.neg (.num 548843465 4)) (.rd (.var .T))))),
  .set (.var .Kc) (.mul (.num 82057360967184814 18) (.exp (.rd (.var .Kc)))),
  .set (.arr .rev 228) (.div (.mul (.rd (.arr .C 44)) (.rd (.var .kf))) (.rd (.var .Kc)))]

/-- utilities/mechanisms/yao/lib/src/rxn_rates.c:3138-3155 -/
def rate231 : List CStmt := [
  .set (.var .kf) (.exp (.sub (.num 25959707799776361 15) (.mul (.num 5 1) (.rd (.var .logT))))),
  .set (.arr .fwd 231) (.mul (.mul (.rd (.arr .C 33)) (.rd (.arr .C 37))) (.rd (.var .kf))),
  .ite (.rd (.var .T)) (.num 1390 0) (.var .Kc) (.sub (.add (.add (.neg (.num 63827399697899992 15)) (.mul (.num 24471319979000001 16) (.rd (.var .logT)))) (.mul (.rd (.var .T)) (.add (.neg (.num 6848117125 11)) (.mul (.rd (.var .T)) (.add (.num 13867975950000002 21) (.mul (.rd (.var .T)) (.add (.neg (.num 21191890508333337 25)) (.mul (.num 15531294350000001 29) (.rd (.var .T)))))))))) (.div (.neg (.num 36702123700000002 13)) (.rd (.var .T)))) (.sub (.add (.add (.num 17807017589999998 14) (.mul (.neg (.num 35091815500000003 15)) (.rd (.var .logT)))) (.mul (.rd (.var .T)) (.add (.neg (.num 28300777650000001 18)) (.mul (.rd (.var .T)) (.add (.num 32162923133333333 22) (.mul (.rd (.var .T)) (.add (.neg (.num 24912518666666668 26)) (.mul (.num 86588802699999992 31) (.rd (.var .T)))))))))) (.div (.num 10190094517 6) (.rd (.var .T)))),
  .ite (.rd (.var .T)) (.num 1391 0) (.var .Kc) (.add (.rd (.var .Kc)) (.sub (.add (.add (.num 5272127854 8) (.mul (.neg (.num 36218159399999998 16)) (.rd (.var .logT)))) (.mul (.rd (.var .T)) (.add (.num 73618855499999997 18) (.mul (.rd (.var .T)) (.add (.neg (.num 15732837849999999 21)) (.mul (.rd (.var .T)) (.add (.num 25620105666666666 25) (.mul (.neg (.num 20180111500000002 29)) (.rd (.var .T)))))))))) (.div (.neg (.num 40065425300000003 12)) (.rd (.var .T))))) (.add (.rd (.var .Kc)) (.sub (.add (.add (.neg (.num 2111804257 7)) (.mul (.num 37509503700000003 15) (.rd (.var .logT)))) (.mul (.rd (.var .T)) (.add (.num 28177502399999999 18) (.mul (.rd (.var .T)) (.add (.neg (.num 31915533333333334 22)) (.mul (.rd (.var .T)) (.add (.num 24668738499999999 26) (.mul (.neg (.num 85622075000000004 31)) (.rd (.var .T)))))))))) (.div (.neg (.num 548843465 4)) (.rd (.var .T))))),
  .set (.var .Kc) (.mul (.num 82057360967184814 18) (.exp (.rd (.var .Kc)))),
  .set (.arr .rev 229) (.div (.mul (.rd (.arr .C 44)) (.rd (.var .kf))) (.rd (.var .Kc)))]

/-- utilities/mechanisms/yao/lib/src/rxn_rates.c:3156-3173 -/
def rate232 : List CStmt := [
  .set (.var .kf) (.exp (.sub (.num 25959707799776361 15) (.mul (.num 5 1) (.rd (.var .logT))))),
  .set (.arr .fwd 232) (.mul (.mul (.rd (.arr .C 35)) (.rd (.arr .C 35))) (.rd (.var .kf))),
  .ite (.rd (.var .T)) (.num 1390 0) (.var .Kc) (.sub (.add (.add (.neg (.num 63624761530000001 15)) (.mul (.num 24097429300000002 16) (.rd (.var .logT)))) (.mul (.rd (.var .T)) (.add (.neg (.num 68380127200000002 18)) (.mul (.rd (.var .T)) (.add (.num 13814930399999999 21) (.mul (.rd (.var .T)) (.add (.neg (.num 21025966999999999 25)) (.mul (.num 15312005799999998 29) (.rd (.var .T)))))))))) (.div (.neg (.num 36656078600000001 13)) (.rd (.var .T)))) (.sub (.add (.add (.num 17797528260000001 14) (.mul (.neg (.num 35077094000000002 15)) (.rd (.var .logT)))) (.mul (.rd (.var .T)) (.add (.neg (.num 28310796199999998 18)) (.mul (.rd (.var .T)) (.add (.num 32176908199999999 22) (.mul (.rd (.var .T)) (.add (.neg (.num 249245975 18)) (.mul (.num 86633606400000003 31) (.rd (.var .T)))))))))) (.div (.num 10185980820000001 12) (.rd (.var .T)))),
  .ite (.rd (.var .T)) (.num 1391 0) (.var .Kc) (.add (.rd (.var .Kc)) (.sub (.add (.add (.num 5272127854 8) (.mul (.neg (.num 36218159399999998 16)) (.rd (.var .logT)))) (.mul (.rd (.var .T)) (.add (.num 73618855499999997 18) (.mul (.rd (.var .T)) (.add (.neg (.num 15732837849999999 21)) (.mul (.rd (.var .T)) (.add (.num 25620105666666666 25) (.mul (.neg (.num 20180111500000002 29)) (.rd (.var .T)))))))))) (.div (.neg (.num 40065425300000003 12)) (.rd (.var .T))))) (.add (.rd (.var .Kc)) (.sub (.add (.add (.neg (.num 2111804257 7)) (.mul (.num 37509503700000003 15) (.rd (.var .logT)))) (.mul (.rd (.var .T)) (.add (.num 28177502399999999 18) (.mul (.rd (.var .T)) (.add (.neg (.num 31915533333333334 22)) (.mul (.rd (.var .T)) (.add (.num 24668738499999999 26) (.mul (.neg (.num 85622075000000004 31)) (.rd (.var .T)))))))))) (.div (.neg (.num 548843465 4)) (.rd (.var .T))))),
  .set (.var .Kc) (.mul (.num 82057360967184814 18) (.exp (.rd (.var .Kc)))),
  .set (.arr .rev 230) (.div (.mul (.rd (.arr .C 44)) (.rd (.var .kf))) (.rd (.var .Kc)))]

/-- utilities/mechanisms/yao/lib/src/rxn_rates.c:3174-3197 -/
def rate233 : List CStmt := [
  .set (.var .kf) (.exp (.sub (.add (.num 71701195434496281 16) (.mul (.num 254 2) (.rd (.var .logT)))) (.div (.num 33997513801885029 13) (.rd (.var .T))))),
  .set (.arr .fwd 233) (.mul (.mul (.rd (.arr .C 1)) (.rd (.arr .C 44))) (.rd (.var .kf))),
  .ite (.rd (.var .T)) (.num 1000 0) (.var .Kc) (.sub (.add (.add (.num 12853619709999999 16) (.mul (.neg (.num 1556688799999999 16)) (.rd (.var .logT)))) (.mul (.rd (.var .T)) (.add (.num 39902603746473329 19) (.mul (.rd (.var .T)) (.add (.neg (.num 32463584996673466 22)) (.mul (.rd (.var .T)) (.add (.num 16797674498082654 25) (.mul (.neg (.num 3688058804536134 28)) (.rd (.var .T)))))))))) (.div (.neg (.num 26391595073 6)) (.rd (.var .T)))) (.sub (.add (.add (.neg (.num 35956195859999998 16)) (.mul (.num 83727918999999984 17) (.rd (.var .logT)))) (.mul (.rd (.var .T)) (.add (.neg (.num 2470122500785135 20)) (.mul (.rd (.var .T)) (.add (.num 83242793640634195 24) (.mul (.rd (.var .T)) (.add (.neg (.num 14963865772070639 27)) (.mul (.num 1001276855090132 30) (.rd (.var .T)))))))))) (.div (.neg (.num 26423818821999997 12)) (.rd (.var .T)))),
  .ite (.rd (.var .T)) (.num 1390 0) (.var .Kc) (.add (.rd (.var .Kc)) (.sub (.add (.add (.num 51220529509999999 15) (.mul (.neg (.num 285028741 8)) (.rd (.var .logT)))) (.mul (.rd (.var .T)) (.add (.num 71335354000000004 18) (.mul (.rd (.var .T)) (.add (.neg (.num 15315275916666666 21)) (.mul (.rd (.var .T)) (.add (.num 25073616 16) (.mul (.neg (.num 19872715 20)) (.rd (.var .T)))))))))) (.div (.neg (.num 154530435 4)) (.rd (.var .T))))) (.add (.rd (.var .Kc)) (.sub (.add (.add (.neg (.num 20497492249999999 14)) (.mul (.num 37092188499999999 15) (.rd (.var .logT)))) (.mul (.rd (.var .T)) (.add (.num 27105392400000001 18) (.mul (.rd (.var .T)) (.add (.neg (.num 30700919500000003 22)) (.mul (.rd (.var .T)) (.add (.num 23730181083333333 26) (.mul (.neg (.num 82365874000000005 31)) (.rd (.var .T)))))))))) (.div (.neg (.num 298194375 4)) (.rd (.var .T))))),
  .ite (.rd (.var .T)) (.num 1391 0) (.var .Kc) (.add (.rd (.var .Kc)) (.sub (.add (.add (.neg (.num 5272127854 8)) (.mul (.num 36218159399999998 16) (.rd (.var .logT)))) (.mul (.rd (.var .T)) (.add (.neg (.num 73618855499999997 18)) (.mul (.rd (.var .T)) (.add (.num 15732837849999999 21) (.mul (.rd (.var .T)) (.add (.neg (.num 25620105666666666 25)) (.mul (.num 20180111500000002 29) (.rd (.var .T)))))))))) (.div (.num 40065425300000003 12) (.rd (.var .T))))) (.add (.rd (.var .Kc)) (.sub (.add (.add (.num 2111804257 7) (.mul (.neg (.num 37509503700000003 15)) (.rd (.var .logT)))) (.mul (.rd (.var .T)) (.add (.neg (.num 28177502399999999 18)) (.mul (.rd (.var .T)) (.add (.num 31915533333333334 22) (.mul (.rd (.var .T)) (.add (.neg (.num 24668738499999999 26)) (.mul (.num 85622075000000004 31) (.rd (.var .T)))))))))) (.div (.num 548843465 4) (.rd (.var .T))))),
  .set (.var .Kc) (.mul (.num 1 0) (.exp (.rd (.var .Kc)))),
  .set (.arr .rev 231) (.div (.mul (.mul (.rd (.arr .C 5)) (.rd (.arr .C 45))) (.rd (.var .kf))) (.rd (.var .Kc)))]

/-- utilities/mechanisms/yao/lib/src/rxn_rates.c:3198-3221 -/
def rate234 : List CStmt := [
  .set (.var .kf) (.exp (.sub (.add (.num 78632667240095735 16) (.mul (.num 24 1) (.rd (.var .logT)))) (.div (.num 2249894674485316 12) (.rd (.var .T))))),
  .set (.arr .fwd 234) (.mul (.mul (.rd (.arr .C 1)) (.rd (.arr .C 44))) (.rd (.var .kf))),
  .ite (.rd (.var .T)) (.num 1000 0) (.var .Kc) (.sub (.add (.add (.num 12853619709999999 16) (.mul (.neg (.num 1556688799999999 16)) (.rd (.var .logT)))) (.mul (.rd (.var .T)) (.add (.num 39902603746473329 19) (.mul (.rd (.var .T)) (.add (.neg (.num 32463584996673466 22)) (.mul (.rd (.var .T)) (.add (.num 16797674498082654 25) (.mul (.neg (.num 3688058804536134 28)) (.rd (.var .T)))))))))) (.div (.neg (.num 26391595073 6)) (.rd (.var .T)))) (.sub (.add (.add (.neg (.num 35956195859999998 16)) (.mul (.num 83727918999999984 17) (.rd (.var .logT)))) (.mul (.rd (.var .T)) (.add (.neg (.num 2470122500785135 20)) (.mul (.rd (.var .T)) (.add (.num 83242793640634195 24) (.mul (.rd (.var .T)) (.add (.neg (.num 14963865772070639 27)) (.mul (.num 1001276855090132 30) (.rd (.var .T)))))))))) (.div (.neg (.num 26423818821999997 12)) (.rd (.var .T)))),
  .ite (.rd (.var .T)) (.num 1385 0) (.var .Kc) (.add (.rd (.var .Kc)) (.sub (.add (.add (.num 4972006039 8) (.mul (.neg (.num 23678708899999998 16)) (.rd (.var .logT)))) (.mul (.rd (.var .T)) (.add (.num 68677673999999994 18) (.mul (.rd (.var .T)) (.add (.neg (.num 13734602633333332 21)) (.mul (.rd (.var .T)) (.add (.num 19701796833333333 25) (.mul (.neg (.num 123717966 21)) (.rd (.var .T)))))))))) (.div (.neg (.num 16766053899999999 12)) (.rd (.var .T))))) (.add (.rd (.var .Kc)) (.sub (.add (.add (.neg (.num 20377475980000003 14)) (.mul (.num 36968826800000002 15) (.rd (.var .logT)))) (.mul (.rd (.var .T)) (.add (.num 26935973200000001 18) (.mul (.rd (.var .T)) (.add (.neg (.num 30361877166666668 22)) (.mul (.rd (.var .T)) (.add (.num 23397875249999998 26) (.mul (.neg (.num 81054210000000005 31)) (.rd (.var .T)))))))))) (.div (.neg (.num 31214498800000001 12)) (.rd (.var .T))))),
  .ite (.rd (.var .T)) (.num 1391 0) (.var .Kc) (.add (.rd (.var .Kc)) (.sub (.add (.add (.neg (.num 5272127854 8)) (.mul (.num 36218159399999998 16) (.rd (.var .logT)))) (.mul (.rd (.var .T)) (.add (.neg (.num 73618855499999997 18)) (.mul (.rd (.var .T)) (.add (.num 15732837849999999 21) (.mul (.rd (.var .T)) (.add (.neg (.num 25620105666666666 25)) (.mul (.num 20180111500000002 29) (.rd (.var .T)))))))))) (.div (.num 40065425300000003 12) (.rd (.var .T))))) (.add (.rd (.var .Kc)) (.sub (.add (.add (.num 2111804257 7) (.mul (.neg (.num 37509503700000003 15)) (.rd (.var .logT)))) (.mul (.rd (.var .T)) (.add (.neg (.num 28177502399999999 18)) (.mul (.rd (.var .T)) (.add (.num 31915533333333334 22) (.mul (.rd (.var .T)) (.add (.neg (.num 24668738499999999 26)) (.mul (.num 85622075000000004 31) (.rd (.var .T)))))))))) (.div (.num 548843465 4) (.rd (.var .T))))),
  .set (.var .Kc) (.mul (.num 1 0) (.exp (.rd (.var .Kc)))),
  .set (.arr .rev 232) (.div (.mul (.mul (.rd (.arr .C 5)) (.rd (.arr .C 46))) (.rd (.var .kf))) (.rd (.var .Kc)))]

/-- utilities/mechanisms/yao/lib/src/rxn_rates.c:3222-3245 -/
def rate235 : List CStmt := [
  .set (.var .kf) (.exp (.sub (.add (.num 82687318321177372 16) (.mul (.num 24 1) (.rd (.var .logT)))) (.div (.num 2249894674485316 12) (.rd (.var .T))))),
  .set (.arr .fwd 235) (.mul (.mul (.rd (.arr .C 1)) (.rd (.arr .C 44))) (.rd (.var .kf))),
  .ite (.rd (.var .T)) (.num 1000 0) (.var .Kc) (.sub (.add (.add (.num 12853619709999999 16) (.mul (.neg (.num 1556688799999999 16)) (.rd (.var .logT)))) (.mul (.rd (.var .T)) (.add (.num 39902603746473329 19) (.mul (.rd (.var .T)) (.add (.neg (.num 32463584996673466 22)) (.mul (.rd (.var .T)) (.add (.num 16797674498082654 25) (.mul (.neg (.num 3688058804536134 28)) (.rd (.var .T)))))))))) (.div (.neg (.num 26391595073 6)) (.rd (.var .T)))) (.sub (.add (.add (.neg (.num 35956195859999998 16)) (.mul (.num 83727918999999984 17) (.rd (.var .logT)))) (.mul (.rd (.var .T)) (.add (.neg (.num 2470122500785135 20)) (.mul (.rd (.var .T)) (.add (.num 83242793640634195 24) (.mul (.rd (.var .T)) (.add (.neg (.num 14963865772070639 27)) (.mul (.num 1001276855090132 30) (.rd (.var .T)))))))))) (.div (.neg (.num 26423818821999997 12)) (.rd (.var .T)))),
  .ite (.rd (.var .T)) (.num 1385 0) (.var .Kc) (.add (.rd (.var .Kc)) (.sub (.add (.add (.num 4972006039 8) (.mul (.neg (.num 23678708899999998 16)) (.rd (.var .logT)))) (.mul (.rd (.var .T)) (.add (.num 68677673999999994 18) (.mul (.rd (.var .T)) (.add (.neg (.num 13734602633333332 21)) (.mul (.rd (.var .T)) (.add (.num 19701796833333333 25) (.mul (.neg (.num 123717966 21)) (.rd (.var .T)))))))))) (.div (.neg (.num 16766053899999999 12)) (.rd (.var .T))))) (.add (.rd (.var .Kc)) (.sub (.add (.add (.neg (.num 20377475980000003 14)) (.mul (.num 36968826800000002 15) (.rd (.var .logT)))) (.mul (.rd (.var .T)) (.add (.num 26935973200000001 18) (.mul (.rd (.var .T)) (.add (.neg (.num 30361877166666668 22)) (.mul (.rd (.var .T)) (.add (.num 23397875249999998 26) (.mul (.neg (.num 81054210000000005 31)) (.rd (.var .T)))))))))) (.div (.neg (.num 31214498800000001 12)) (.rd (.var .T))))),
  .ite (.rd (.var .T)) (.num 1391 0) (.var .Kc) (.add (.rd (.var .Kc)) (.sub (.add (.add (.neg (.num 5272127854 8)) (.mul (.num 36218159399999998 16) (.rd (.var .logT)))) (.mul (.rd (.var .T)) (.add (.neg (.num 73618855499999997 18)) (.mul (.rd (.var .T)) (.add (.num 15732837849999999 21) (.mul (.rd (.var .T)) (.add (.neg (.num 25620105666666666 25)) (.mul (.num 20180111500000002 29) (.rd (.var .T)))))))))) (.div (.num 40065425300000003 12) (.rd (.var .T))))) (.add (.rd (.var .Kc)) (.sub (.add (.add (.num 2111804257 7) (.mul (.neg (.num 37509503700000003 15)) (.rd (.var .logT)))) (.mul (.rd (.var .T)) (.add (.neg (.num 28177502399999999 18)) (.mul (.rd (.var .T)) (.add (.num 31915533333333334 22) (.mul (.rd (.var .T)) (.add (.neg (.num 24668738499999999 26)) (.mul (.num 85622075000000004 31) (.rd (.var .T)))))))))) (.div (.num 548843465 4) (.rd (.var .T))))),
  .set (.var .Kc) (.mul (.num 1 0) (.exp (.rd (.var .Kc)))),
  .set (.arr .rev 233) (.div (.mul (.mul (.rd (.arr .C 5)) (.rd (.arr .C 47))) (.rd (.var .kf))) (.rd (.var .Kc)))]

/-- utilities/mechanisms/yao/lib/src/rxn_rates.c:3246-3269 -/
def rate236 : List CStmt := [
  .set (.var .kf) (.exp (.sub (.add (.num 52470240721604862 16) (.mul (.num 268 2) (.rd (.var .logT)))) (.div (.num 18699639030166484 13) (.rd (.var .T))))),
  .set (.arr .fwd 236) (.mul (.mul (.rd (.arr .C 44)) (.rd (.arr .C 2))) (.rd (.var .kf))),
  .ite (.rd (.var .T)) (.num 1000 0) (.var .Kc) (.sub (.add (.add (.neg (.num 36994049299999996 16)) (.mul (.num 95703850999999984 17) (.rd (.var .logT)))) (.mul (.rd (.var .T)) (.add (.num 26934724999999864 21) (.mul (.rd (.var .T)) (.add (.neg (.num 19236175000000001 24)) (.mul (.rd (.var .T)) (.add (.num 27460817499999998 27) (.mul (.neg (.num 25142960000000029 31)) (.rd (.var .T)))))))))) (.div (.neg (.num 25740721079999999 12)) (.rd (.var .T)))) (.sub (.add (.add (.num 62199401000000076 17) (.mul (.num 29530807999999986 17) (.rd (.var .logT)))) (.mul (.rd (.var .T)) (.add (.num 57123929685000006 20) (.mul (.rd (.var .T)) (.add (.neg (.num 50171869483333334 24)) (.mul (.rd (.var .T)) (.add (.num 33783039416666664 28) (.mul (.neg (.num 12801478349999998 32)) (.rd (.var .T)))))))))) (.div (.neg (.num 2549872136 5)) (.rd (.var .T)))),
  .ite (.rd (.var .T)) (.num 1390 0) (.var .Kc) (.add (.rd (.var .Kc)) (.sub (.add (.add (.num 51220529509999999 15) (.mul (.neg (.num 285028741 8)) (.rd (.var .logT)))) (.mul (.rd (.var .T)) (.add (.num 71335354000000004 18) (.mul (.rd (.var .T)) (.add (.neg (.num 15315275916666666 21)) (.mul (.rd (.var .T)) (.add (.num 25073616 16) (.mul (.neg (.num 19872715 20)) (.rd (.var .T)))))))))) (.div (.neg (.num 154530435 4)) (.rd (.var .T))))) (.add (.rd (.var .Kc)) (.sub (.add (.add (.neg (.num 20497492249999999 14)) (.mul (.num 37092188499999999 15) (.rd (.var .logT)))) (.mul (.rd (.var .T)) (.add (.num 27105392400000001 18) (.mul (.rd (.var .T)) (.add (.neg (.num 30700919500000003 22)) (.mul (.rd (.var .T)) (.add (.num 23730181083333333 26) (.mul (.neg (.num 82365874000000005 31)) (.rd (.var .T)))))))))) (.div (.neg (.num 298194375 4)) (.rd (.var .T))))),
  .ite (.rd (.var .T)) (.num 1391 0) (.var .Kc) (.add (.rd (.var .Kc)) (.sub (.add (.add (.neg (.num 5272127854 8)) (.mul (.num 36218159399999998 16) (.rd (.var .logT)))) (.mul (.rd (.var .T)) (.add (.neg (.num 73618855499999997 18)) (.mul (.rd (.var .T)) (.add (.num 15732837849999999 21) (.mul (.rd (.var .T)) (.add (.neg (.num 25620105666666666 25)) (.mul (.num 20180111500000002 29) (.rd (.var .T)))))))))) (.div (.num 40065425300000003 12) (.rd (.var .T))))) (.add (.rd (.var .Kc)) (.sub (.add (.add (.num 2111804257 7) (.mul (.neg (.num 37509503700000003 15)) (.rd (.var .logT)))) (.mul (.rd (.var .T)) (.add (.neg (.num 28177502399999999 18)) (.mul (.rd (.var .T)) (.add (.num 31915533333333334 22) (.mul (.rd (.var .T)) (.add (.neg (.num 24668738499999999 26)) (.mul (.num 85622075000000004 31) (.rd (.var .T)))))))))) (.div (.num 548843465 4) (.rd (.var .T))))),
  .set (.var .Kc) (.mul (.num 1 0) (.exp (.rd (.var .Kc)))),
  .set (.arr .rev 234) (.div (.mul (.mul (.rd (.arr .C 45)) (.rd (.arr .C 3))) (.rd (.var .kf))) (.rd (.var .Kc)))]

/-- utilities/mechanisms/yao/lib/src/rxn_rates.c:3270-3293 -/
def rate237 : List CStmt := [
  .set (.var .kf) (.exp (.sub (.add (.num 45559799417973199 16) (.mul (.num 271 2) (.rd (.var .logT)))) (.div (.num 10597804035933966 13) (.rd (.var .T))))),
  .set (.arr .fwd 237) (.mul (.mul (.rd (.arr .C 44)) (.rd (.arr .C 2))) (.rd (.var .kf))),
  .ite (.rd (.var .T)) (.num 1000 0) (.var .Kc) (.sub (.add (.add (.neg (.num 36994049299999996 16)) (.mul (.num 95703850999999984 17) (.rd (.var .logT)))) (.mul (.rd (.var .T)) (.add (.num 26934724999999864 21) (.mul (.rd (.var .T)) (.add (.neg (.num 19236175000000001 24)) (.mul (.rd (.var .T)) (.add (.num 27460817499999998 27) (.mul (.neg (.num 25142960000000029 31)) (.rd (.var .T)))))))))) (.div (.neg (.num 25740721079999999 12)) (.rd (.var .T)))) (.sub (.add (.add (.num 62199401000000076 17) (.mul (.num 29530807999999986 17) (.rd (.var .logT)))) (.mul (.rd (.var .T)) (.add (.num 57123929685000006 20) (.mul (.rd (.var .T)) (.add (.neg (.num 50171869483333334 24)) (.mul (.rd (.var .T)) (.add (.num 33783039416666664 28) (.mul (.neg (.num 12801478349999998 32)) (.rd (.var .T)))))))))) (.div (.neg (.num 2549872136 5)) (.rd (.var .T)))),
  .ite (.rd (.var .T)) (.num 1385 0) (.var .Kc) (.add (.rd (.var .Kc)) (.sub (.add (.add (.num 4972006039 8) (.mul (.neg (.num 23678708899999998 16)) (.rd (.var .logT)))) (.mul (.rd (.var .T)) (.add (.num 68677673999999994 18) (.mul (.rd (.var .T)) (.add (.neg (.num 13734602633333332 21)) (.mul (.rd (.var .T)) (.add (.num 19701796833333333 25) (.mul (.neg (.num 123717966 21)) (.rd (.var .T)))))))))) (.div (.neg (.num 16766053899999999 12)) (.rd (.var .T))))) (.add (.rd (.var .Kc)) (.sub (.add (.add (.neg (.num 20377475980000003 14)) (.mul (.num 36968826800000002 15) (.rd (.var .logT)))) (.mul (.rd (.var .T)) (.add (.num 26935973200000001 18) (.mul (.rd (.var .T)) (.add (.neg (.num 30361877166666668 22)) (.mul (.rd (.var .T)) (.add (.num 23397875249999998 26) (.mul (.neg (.num 81054210000000005 31)) (.rd (.var .T)))))))))) (.div (.neg (.num 31214498800000001 12)) (.rd (.var .T))))),
  .ite (.rd (.var .T)) (.num 1391 0) (.var .Kc) (.add (.rd (.var .Kc)) (.sub (.add (.add (.neg (.num 5272127854 8)) (.mul (.num 36218159399999998 16) (.rd (.var .logT)))) (.mul (.rd (.var .T)) (.add (.neg (.num 73618855499999997 18)) (.mul (.rd (.var .T)) (.add (.num 15732837849999999 21) (.mul (.rd (.var .T)) (.add (.neg (.num 25620105666666666 25)) (.mul (.num 20180111500000002 29) (.rd (.var .T)))))))))) (.div (.num 40065425300000003 12) (.rd (.var .T))))) (.add (.rd (.var .Kc)) (.sub (.add (.add (.num 2111804257 7) (.mul (.neg (.num 37509503700000003 15)) (.rd (.var .logT)))) (.mul (.rd (.var .T)) (.add (.neg (.num 28177502399999999 18)) (.mul (.rd (.var .T)) (.add (.num 31915533333333334 22) (.mul (.rd (.var .T)) (.add (.neg (.num 24668738499999999 26)) (.mul (.num 85622075000000004 31) (.rd (.var .T)))))))))) (.div (.num 548843465 4) (.rd (.var .T))))),
  .set (.var .Kc) (.mul (.num 1 0) (.exp (.rd (.var .Kc)))),
  .set (.arr .rev 235) (.div (.mul (.mul (.rd (.arr .C 46)) (.rd (.arr .C 3))) (.rd (.var .kf))) (.rd (.var .Kc)))]

/-- utilities/mechanisms/yao/lib/src/rxn_rates.c:3294-3317 -/
def rate238 : List CStmt := [
  .set (.var .kf) (.exp (.sub (.add (.num 49614450499054845 16) (.mul (.num 271 2) (.rd (.var .logT)))) (.div (.num 10597804035933966 13) (.rd (.var .T))))),
  .set (.arr .fwd 238) (.mul (.mul (.rd (.arr .C 44)) (.rd (.arr .C 2))) (.rd (.var .kf))),
  .ite (.rd (.var .T)) (.num 1000 0) (.var .Kc) (.sub (.add (.add (.neg (.num 36994049299999996 16)) (.mul (.num 95703850999999984 17) (.rd (.var .logT)))) (.mul (.rd (.var .T)) (.add (.num 26934724999999864 21) (.mul (.rd (.var .T)) (.add (.neg (.num 19236175000000001 24)) (.mul (.rd (.var .T)) (.add (.num 27460817499999998 27) (.mul (.neg (.num 25142960000000029 31)) (.rd (.var .T)))))))))) (.div (.neg (.num 25740721079999999 12)) (.rd (.var .T)))) (.sub (.add (.add (.num 62199401000000076 17) (.mul (.num 29530807999999986 17) (.rd (.var .logT)))) (.mul (.rd (.var .T)) (.add (.num 57123929685000006 20) (.mul (.rd (.var .T)) (.add (.neg (.num 50171869483333334 24)) (.mul (.rd (.var .T)) (.add (.num 33783039416666664 28) (.mul (.neg (.num 12801478349999998 32)) (.rd (.var .T)))))))))) (.div (.neg (.num 2549872136 5)) (.rd (.var .T)))),
  .ite (.rd (.var .T)) (.num 1385 0) (.var .Kc) (.add (.rd (.var .Kc)) (.sub (.add (.add (.num 4972006039 8) (.mul (.neg (.num 23678708899999998 16)) (.rd (.var .logT)))) (.mul (.rd (.var .T)) (.add (.num 68677673999999994 18) (.mul (.rd (.var .T)) (.add (.neg (.num 13734602633333332 21)) (.mul (.rd (.var .T)) (.add (.num 19701796833333333 25) (.mul (.neg (.num 123717966 21)) (.rd (.var .T)))))))))) (.div (.neg (.num 16766053899999999 12)) (.rd (.var .T))))) (.add (.rd (.var .Kc)) (.sub (.add (.add (.neg (.num 20377475980000003 14)) (.mul (.num 36968826800000002 15) (.rd (.var .logT)))) (.mul (.rd (.var .T)) (.add (.num 26935973200000001 18) (.mul (.rd (.var .T)) (.add (.neg (.num 30361877166666668 22)) (.mul (.rd (.var .T)) (.add (.num 23397875249999998 26) (.mul (.neg (.num 81054210000000005 31)) (.rd (.var .T)))))))))) (.div (.neg (.num 31214498800000001 12)) (.rd (.var .T))))),
  .ite (.rd (.var .T)) (.num 1391 0) (.var .Kc) (.add (.rd (.var .Kc)) (.sub (.add (.add (.neg (.num 5272127854 8)) (.mul (.num 36218159399999998 16) (.rd (.var .logT)))) (.mul (.rd (.var .T)) (.add (.neg (.num 73618855499999997 18)) (.mul (.rd (.var .T)) (.add (.num 15732837849999999 21) (.mul (.rd (.var .T)) (.add (.neg (.num 25620105666666666 25)) (.mul (.num 20180111500000002 29) (.rd (.var .T)))))))))) (.div (.num 40065425300000003 12) (.rd (.var .T))))) (.add (.rd (.var .Kc)) (.sub (.add (.add (.num 2111804257 7) (.mul (.neg (.num 37509503700000003 15)) (.rd (.var .logT)))) (.mul (.rd (.var .T)) (.add (.neg (.num 28177502399999999 18)) (.mul (.rd (.var .T)) (.add (.num 31915533333333334 22) (.mul (.rd (.var .T)) (.add (.neg (.num 24668738499999999 26)) (.mul (.num 85622075000000004 31) (.rd (.var .T)))))))))) (.div (.num 548843465 4) (.rd (.var .T))))),
  .set (.var .Kc) (.mul (.num 1 0) (.exp (.rd (.var .Kc)))),
  .set (.arr .rev 236) (.div (.mul (.mul (.rd (.arr .C 47)) (.rd (.arr .C 3))) (.rd (.var .kf))) (.rd (.var .Kc)))]

/-- utilities/mechanisms/yao/lib/src/rxn_rates.c:3318-3341 -/
def rate239 : List CStmt := [
  .set (.var .kf) (.exp (.sub (.add (.num 12237754316221157 16) (.mul (.num 266 2) (.rd (.var .logT)))) (.div (.num 26519671068077872 14) (.rd (.var .T))))),
  .set (.arr .fwd 239) (.mul (.mul (.rd (.arr .C 44)) (.rd (.arr .C 3))) (.rd (.var .kf))),
  .ite (.rd (.var .T)) (.num 1000 0) (.var .Kc) (.sub (.add (.add (.neg (.num 23193419800000026 17)) (.mul (.num 73334950000000454 18) (.rd (.var .logT)))) (.mul (.rd (.var .T)) (.add (.num 594507645 12) (.mul (.rd (.var .T)) (.add (.neg (.num 12074666666666665 25)) (.mul (.rd (.var .T)) (.add (.num 25880484166666619 27) (.mul (.neg (.num 14519780999999993 30)) (.rd (.var .T)))))))))) (.div (.neg (.num 33675264819999997 12)) (.rd (.var .T)))) (.sub (.add (.add (.neg (.num 90413426000000063 17)) (.mul (.num 16926363000000011 17) (.rd (.var .logT)))) (.mul (.rd (.var .T)) (.add (.num 56020678000000008 20) (.mul (.rd (.var .T)) (.add (.num 15835040000000005 24) (.mul (.rd (.var .T)) (.add (.neg (.num 10630321199999999 27)) (.mul (.num 90760289800000003 32) (.rd (.var .T)))))))))) (.div (.neg (.num 33723154840000003 12)) (.rd (.var .T)))),
  .ite (.rd (.var .T)) (.num 1390 0) (.var .Kc) (.add (.rd (.var .Kc)) (.sub (.add (.add (.num 51220529509999999 15) (.mul (.neg (.num 285028741 8)) (.rd (.var .logT)))) (.mul (.rd (.var .T)) (.add (.num 71335354000000004 18) (.mul (.rd (.var .T)) (.add (.neg (.num 15315275916666666 21)) (.mul (.rd (.var .T)) (.add (.num 25073616 16) (.mul (.neg (.num 19872715 20)) (.rd (.var .T)))))))))) (.div (.neg (.num 154530435 4)) (.rd (.var .T))))) (.add (.rd (.var .Kc)) (.sub (.add (.add (.neg (.num 20497492249999999 14)) (.mul (.num 37092188499999999 15) (.rd (.var .logT)))) (.mul (.rd (.var .T)) (.add (.num 27105392400000001 18) (.mul (.rd (.var .T)) (.add (.neg (.num 30700919500000003 22)) (.mul (.rd (.var .T)) (.add (.num 23730181083333333 26) (.mul (.neg (.num 82365874000000005 31)) (.rd (.var .T)))))))))) (.div (.neg (.num 298194375 4)) (.rd (.var .T))))),
  .ite (.rd (.var .T)) (.num 1391 0) (.var .Kc) (.add (.rd (.var .Kc)) (.sub (.add (.add (.neg (.num 5272127854 8)) (.mul (.num 36218159399999998 16) (.rd (.var .logT)))) (.mul (.rd (.var .T)) (.add (.neg (.num 73618855499999997 18)) (.mul (.rd (.var .T)) (.add (.num 15732837849999999 21) (.mul (.rd (.var .T)) (.add (.neg (.num 25620105666666666 25)) (.mul (.num 20180111500000002 29) (.rd (.var .T)))))))))) (.div (.num 40065425300000003 12) (.rd (.var .T))))) (.add (.rd (.var .Kc)) (.sub (.add (.add (.num 2111804257 7) (.mul (.neg (.num 37509503700000003 15)) (.rd (.var .logT)))) (.mul (.rd (.var .T)) (.add (.neg (.num 28177502399999999 18)) (.mul (.rd (.var .T)) (.add (.num 31915533333333334 22) (.mul (.rd (.var .T)) (.add (.neg (.num 24668738499999999 26)) (.mul (.num 85622075000000004 31) (.rd (.var .T)))))))))) (.div (.num 548843465 4) (.rd (.var .T))))),
  .set (.var .Kc) (.mul (.num 1 0) (.exp (.rd (.var .Kc)))),
  .set (.arr .rev 237) (.div (.mul (.mul (.rd (.arr .C 6)) (.rd (.arr .C 45))) (.rd (.var .kf))) (.rd (.var .Kc)))]

/-- utilities/mechanisms/yao/lib/src/rxn_rates.c:3342-3365 -/
def rate240 : List CStmt := [
  .set (.var .kf) (.exp (.sub (.add (.num 43040650932041702 16) (.mul (.num 239 2) (.rd (.var .logT)))) (.div (.num 19776528898965091 14) (.rd (.var .T))))),
  .set (.arr .fwd 240) (.mul (.mul (.rd (.arr .C 44)) (.rd (.arr .C 3))) (.rd (.var .kf))),
  .ite (.rd (.var .T)) (.num 1000 0) (.var .Kc) (.sub (.add (.add (.neg (.num 23193419800000026 17)) (.mul (.num 73334950000000454 18) (.rd (.var .logT)))) (.mul (.rd (.var .T)) (.add (.num 594507645 12) (.mul (.rd (.var .T)) (.add (.neg (.num 12074666666666665 25)) (.mul (.rd (.var .T)) (.add (.num 25880484166666619 27) (.mul (.neg (.num 14519780999999993 30)) (.rd (.var .T)))))))))) (.div (.neg (.num 33675264819999997 12)) (.rd (.var .T)))) (.sub (.add (.add (.neg (.num 90413426000000063 17)) (.mul (.num 16926363000000011 17) (.rd (.var .logT)))) (.mul (.rd (.var .T)) (.add (.num 56020678000000008 20) (.mul (.rd (.var .T)) (.add (.num 15835040000000005 24) (.mul (.rd (.var .T)) (.add (.neg (.num 10630321199999999 27)) (.mul (.num 90760289800000003 32) (.rd (.var .T)))))))))) (.div (.neg (.num 33723154840000003 12)) (.rd (.var .T)))),
  .ite (.rd (.var .T)) (.num 1385 0) (.var .Kc) (.add (.rd (.var .Kc)) (.sub (.add (.add (.num 4972006039 8) (.mul (.neg (.num 23678708899999998 16)) (.rd (.var .logT)))) (.mul (.rd (.var .T)) (.add (.num 68677673999999994 18) (.mul (.rd (.var .T)) (.add (.neg (.num 13734602633333332 21)) (.mul (.rd (.var .T)) (.add (.num 19701796833333333 25) (.mul (.neg (.num 123717966 21)) (.rd (.var .T)))))))))) (.div (.neg (.num 16766053899999999 12)) (.rd (.var .T))))) (.add (.rd (.var .Kc)) (.sub (.add (.add (.neg (.num 20377475980000003 14)) (.mul (.num 36968826800000002 15) (.rd (.var .logT)))) (.mul (.rd (.var .T)) (.add (.num 26935973200000001 18) (.mul (.rd (.var .T)) (.add (.neg (.num 30361877166666668 22)) (.mul (.rd (.var .T)) (.add (.num 23397875249999998 26) (.mul (.neg (.num 81054210000000005 31)) (.rd (.var .T)))))))))) (.div (.neg (.num 31214498800000001 12)) (.rd (.var .T))))),
  .ite (.rd (.var .T)) (.num 1391 0) (.var .Kc) (.add (.rd (.var .Kc)) (.sub (.add (.add (.neg (.num 5272127854 8)) (.mul (.num 36218159399999998 16) (.rd (.var .logT)))) (.mul (.rd (.var .T)) (.add (.neg (.num 73618855499999997 18)) (.mul (.rd (.var .T)) (.add (.num 15732837849999999 21) (.mul (.rd (.var .T)) (.add (.neg (.num 25620105666666666 25)) (.mul (.num 20180111500000002 29) (.rd (.var .T)))))))))) (.div (.num 40065425300000003 12) (.rd (.var .T))))) (.add (.rd (.var .Kc)) (.sub (.add (.add (.num 2111804257 7) (.mul (.neg (.num 37509503700000003 15)) (.rd (.var .logT)))) (.mul (.rd (.var .T)) (.add (.neg (.num 28177502399999999 18)) (.mul (.rd (.var .T)) (.add (.num 31915533333333334 22) (.mul (.rd (.var .T)) (.add (.neg (.num 24668738499999999 26)) (.mul (.num 85622075000000004 31) (.rd (.var .T)))))))))) (.div (.num 548843465 4) (.rd (.var .T))))),
  .set (.var .Kc) (.mul (.num 1 0) (.exp (.rd (.var .Kc)))),
  .set (.arr .rev 238) (.div (.mul (.mul (.rd (.arr .C 6)) (.rd (.arr .C 46))) (.rd (.var .kf))) (.rd (.var .Kc)))]

/-- utilities/mechanisms/yao/lib/src/rxn_rates.c:3366-3389 -/
def rate241 : List CStmt := [
  .set (.var .kf) (.exp (.sub (.add (.num 46151205168412597 16) (.mul (.num 239 2) (.rd (.var .logT)))) (.div (.num 19776528898965091 14) (.rd (.var .T))))),
  .set (.arr .fwd 241) (.mul (.mul (.rd (.arr .C 44)) (.rd (.arr .C 3))) (.rd (.var .kf))),
  .ite (.rd (.var .T)) (.num 1000 0) (.var .Kc) (.sub (.add (.add (.neg (.num 23193419800000026 17)) (.mul (.num 73334950000000454 18) (.rd (.var .logT)))) (.mul (.rd (.var .T)) (.add (.num 594507645 12) (.mul (.rd (.var .T)) (.add (.neg (.num 12074666666666665 25)) (.mul (.rd (.var .T)) (.add (.num 25880484166666619 27) (.mul (.neg (.num 14519780999999993 30)) (.rd (.var .T)))))))))) (.div (.neg (.num 33675264819999997 12)) (.rd (.var .T)))) (.sub (.add (.add (.neg (.num 90413426000000063 17)) (.mul (.num 16926363000000011 17) (.rd (.var .logT)))) (.mul (.rd (.var .T)) (.add (.num 56020678000000008 20) (.mul (.rd (.var .T)) (.add (.num 15835040000000005 24) (.mul (.rd (.var .T)) (.add (.neg (.num 10630321199999999 27)) (.mul (.num 90760289800000003 32) (.rd (.var .T)))))))))) (.div (.neg (.num 33723154840000003 12)) (.rd (.var .T)))),
  .ite (.rd (.var .T)) (.num 1385 0) (.var .Kc) (.add (.rd (.var .Kc)) (.sub (.add (.add (.num 4972006039 8) (.mul (.neg (.num 23678708899999998 16)) (.rd (.var .logT)))) (.mul (.rd (.var .T)) (.add (.num 68677673999999994 18) (.mul (.rd (.var .T)) (.add (.neg (.num 13734602633333332 21)) (.mul (.rd (.var .T)) (.add (.num 19701796833333333 25) (.mul (.neg (.num 123717966 21)) (.rd (.var .T)))))))))) (.div (.neg (.num 16766053899999999 12)) (.rd (.var .T))))) (.add (.rd (.var .Kc)) (.sub (.add (.add (.neg (.num 20377475980000003 14)) (.mul (.num 36968826800000002 15) (.rd (.var .logT)))) (.mul (.rd (.var .T)) (.add (.num 26935973200000001 18) (.mul (.rd (.var .T)) (.add (.neg (.num 30361877166666668 22)) (.mul (.rd (.var .T)) (.add (.num 23397875249999998 26) (.mul (.neg (.num 81054210000000005 31)) (.rd (.var .T)))))))))) (.div (.neg (.num 31214498800000001 12)) (.rd (.var .T))))),
  .ite (.rd (.var .T)) (.num 1391 0) (.var .Kc) (.add (.rd (.var .Kc)) (.sub (.add (.add (.neg (.num 5272127854 8)) (.mul (.num 36218159399999998 16) (.rd (.var .logT)))) (.mul (.rd (.var .T)) (.add (.neg (.num 73618855499999997 18)) (.mul (.rd (.var .T)) (.add (.num 15732837849999999 21) (.mul (.rd (.var .T)) (.add (.neg (.num 25620105666666666 25)) (.mul (.num 20180111500000002 29) (.rd (.var .T)))))))))) (.div (.num 40065425300000003 12) (.rd (.var .T))))) (.add (.rd (.var .Kc)) (.sub (.add (.add (.num 2111804257 7) (.mul (.neg (.num 37509503700000003 15)) (.rd (.var .logT)))) (.mul (.rd (.var .T)) (.add (.neg (.num 28177502399999999 18)) (.mul (.rd (.var .T)) (.add (.num 31915533333333334 22) (.mul (.rd (.var .T)) (.add (.neg (.num 24668738499999999 26)) (.mul (.num 85622075000000004 31) (.rd (.var .T)))))))))) (.div (.num 548843465 4) (.rd (.var .T))))),
  .set (.var .Kc) (.mul (.num 1 0) (.exp (.rd (.var .Kc)))),
  .set (.arr .rev 239) (.div (.mul (.mul (.rd (.arr .C 6)) (.rd (.arr .C 47))) (.rd (.var .kf))) (.rd (.var .Kc)))]

/-- utilities/mechanisms/yao/lib/src/rxn_rates.c:3390-3413 -/
def rate242 : List CStmt := [
  .set (.var .kf) (.exp (.sub (.num 24412145291060348 15) (.div (.num 25628972438277153 12) (.rd (.var .T))))),
  .set (.arr .fwd 242) (.mul (.mul (.rd (.arr .C 44)) (.rd (.arr .C 8))) (.rd (.var .kf))),
  .ite (.rd (.var .T)) (.num 1000 0) (.var .Kc) (.sub (.add (.add (.neg (.num 46035492999999983 17)) (.mul (.num 51934164999999988 17) (.rd (.var .logT)))) (.mul (.rd (.var .T)) (.add (.neg (.num 87619317499999989 20)) (.mul (.rd (.var .T)) (.add (.num 18851645149999997 22) (.mul (.rd (.var .T)) (.add (.neg (.num 12162578591666669 25)) (.mul (.num 30242614350000006 29) (.rd (.var .T)))))))))) (.div (.num 13587516000000001 13) (.rd (.var .T)))) (.sub (.add (.add (.neg (.num 24028022 7)) (.mul (.num 73467306000000043 17) (.rd (.var .logT)))) (.mul (.rd (.var .T)) (.add (.num 378366295 12) (.mul (.rd (.var .T)) (.add (.num 20718086499999997 24) (.mul (.rd (.var .T)) (.add (.neg (.num 79353487499999974 28)) (.mul (.num 54404629499999991 32) (.rd (.var .T)))))))))) (.div (.num 1200314433 6) (.rd (.var .T)))),
  .ite (.rd (.var .T)) (.num 1390 0) (.var .Kc) (.add (.rd (.var .Kc)) (.sub (.add (.add (.num 51220529509999999 15) (.mul (.neg (.num 285028741 8)) (.rd (.var .logT)))) (.mul (.rd (.var .T)) (.add (.num 71335354000000004 18) (.mul (.rd (.var .T)) (.add (.neg (.num 15315275916666666 21)) (.mul (.rd (.var .T)) (.add (.num 25073616 16) (.mul (.neg (.num 19872715 20)) (.rd (.var .T)))))))))) (.div (.neg (.num 154530435 4)) (.rd (.var .T))))) (.add (.rd (.var .Kc)) (.sub (.add (.add (.neg (.num 20497492249999999 14)) (.mul (.num 37092188499999999 15) (.rd (.var .logT)))) (.mul (.rd (.var .T)) (.add (.num 27105392400000001 18) (.mul (.rd (.var .T)) (.add (.neg (.num 30700919500000003 22)) (.mul (.rd (.var .T)) (.add (.num 23730181083333333 26) (.mul (.neg (.num 82365874000000005 31)) (.rd (.var .T)))))))))) (.div (.neg (.num 298194375 4)) (.rd (.var .T))))),
  .ite (.rd (.var .T)) (.num 1391 0) (.var .Kc) (.add (.rd (.var .Kc)) (.sub (.add (.add (.neg (.num 5272127854 8)) (.mul (.num 36218159399999998 16) (.rd (.var .logT)))) (.mul (.rd (.var .T)) (.add (.neg (.num 73618855499999997 18)) (.mul (.rd (.var .T)) (.add (.num 15732837849999999 21) (.mul (.rd (.var .T)) (.add (.neg (.num 25620105666666666 25)) (.mul (.num 20180111500000002 29) (.rd (.var .T)))))))))) (.div (.num 40065425300000003 12) (.rd (.var .T))))) (.add (.rd (.var .Kc)) (.sub (.add (.add (.num 2111804257 7) (.mul (.neg (.num 37509503700000003 15)) (.rd (.var .logT)))) (.mul (.rd (.var .T)) (.add (.neg (.num 28177502399999999 18)) (.mul (.rd (.var .T)) (.add (.num 31915533333333334 22) (.mul (.rd (.var .T)) (.add (.neg (.num 24668738499999999 26)) (.mul (.num 85622075000000004 31) (.rd (.var .T)))))))))) (.div (.num 548843465 4) (.rd (.var .T))))),
  .set (.var .Kc) (.mul (.num 1 0) (.exp (.rd (.var .Kc)))),
  .set (.arr .rev 240) (.div (.mul (.mul (.rd (.arr .C 4)) (.rd (.arr .C 45))) (.rd (.var .kf))) (.rd (.var .Kc)))]

/-- utilities/mechanisms/yao/lib/src/rxn_rates.c:3414-3437 -/
def rate243 : List CStmt := [
  .set (.var .kf) (.exp (.sub (.num 25105292471620292 15) (.div (.num 23948219091647548 12) (.rd (.var .T))))),
  .set (.arr .fwd 243) (.mul (.mul (.rd (.arr .C 44)) (.rd (.arr .C 8))) (.rd (.var .kf))),
  .ite (.rd (.var .T)) (.num 1000 0) (.var .Kc) (.sub (.add (.add (.neg (.num 46035492999999983 17)) (.mul (.num 51934164999999988 17) (.rd (.var .logT)))) (.mul (.rd (.var .T)) (.add (.neg (.num 87619317499999989 20)) (.mul (.rd (.var .T)) (.add (.num 18851645149999997 22) (.mul (.rd (.var .T)) (.add (.neg (.num 12162578591666669 25)) (.mul (.num 30242614350000006 29) (.rd (.var .T)))))))))) (.div (.num 13587516000000001 13) (.rd (.var .T)))) (.sub (.add (.add (.neg (.num 24028022 7)) (.mul (.num 73467306000000043 17) (.rd (.var .logT)))) (.mul (.rd (.var .T)) (.add (.num 378366295 12) (.mul (.rd (.var .T)) (.add (.num 20718086499999997 24) (.mul (.rd (.var .T)) (.add (.neg (.num 79353487499999974 28)) (.mul (.num 54404629499999991 32) (.rd (.var .T)))))))))) (.div (.num 1200314433 6) (.rd (.var .T)))),
  .ite (.rd (.var .T)) (.num 1385 0) (.var .Kc) (.add (.rd (.var .Kc)) (.sub (.add (.add (.num 4972006039 8) (.mul (.neg (.num 23678708899999998 16)) (.rd (.var .logT)))) (.mul (.rd (.var .T)) (.add (.num 68677673999999994 18) (.mul (.rd (.var .T)) (.add (.neg (.num 13734602633333332 21)) (.mul (.rd (.var .T)) (.add (.num 19701796833333333 25) (.mul (.neg (.num 123717966 21)) (.rd (.var .T)))))))))) (.div (.neg (.num 16766053899999999 12)) (.rd (.var .T))))) (.add (.rd (.var .Kc)) (.sub (.add (.add (.neg (.num 20377475980000003 14)) (.mul (.num 36968826800000002 15) (.rd (.var .logT)))) (.mul (.rd (.var .T)) (.add (.num 26935973200000001 18) (.mul (.rd (.var .T)) (.add (.neg (.num 30361877166666668 22)) (.mul (.rd (.var .T)) (.add (.num 23397875249999998 26) (.mul (.neg (.num 81054210000000005 31)) (.rd (.var .T)))))))))) (.div (.neg (.num 31214498800000001 12)) (.rd (.var .T))))),
  .ite (.rd (.var .T)) (.num 1391 0) (.var .Kc) (.add (.rd (.var .Kc)) (.sub (.add (.add (.neg (.num 5272127854 8)) (.mul (.num 36218159399999998 16) (.rd (.var .logT)))) (.mul (.rd (.var .T)) (.add (.neg (.num 73618855499999997 18)) (.mul (.rd (.var .T)) (.add (.num 15732837849999999 21) (.mul (.rd (.var .T)) (.add (.neg (.num 25620105666666666 25)) (.mul (.num 20180111500000002 29) (.rd (.var .T)))))))))) (.div (.num 40065425300000003 12) (.rd (.var .T))))) (.add (.rd (.var .Kc)) (.sub (.add (.add (.num 2111804257 7) (.mul (.neg (.num 37509503700000003 15)) (.rd (.var .logT)))) (.mul (.rd (.var .T)) (.add (.neg (.num 28177502399999999 18)) (.mul (.rd (.var .T)) (.add (.num 31915533333333334 22) (.mul (.rd (.var .T)) (.add (.neg (.num 24668738499999999 26)) (.mul (.num 85622075000000004 31) (.rd (.var .T)))))))))) (.div (.num 548843465 4) (.rd (.var .T))))),
  .set (.var .Kc) (.mul (.num 1 0) (.exp (.rd (.var .Kc)))),
  .set (.arr .rev 241) (.div (.mul (.mul (.rd (.arr .C 4)) (.rd (.arr .C 46))) (.rd (.var .kf))) (.rd (.var .Kc)))]

/-- utilities/mechanisms/yao/lib/src/rxn_rates.c:3438-3461 -/
def rate244 : List CStmt := [
  .set (.var .kf) (.exp (.sub (.num 25510757579728459 15) (.div (.num 23948219091647548 12) (.rd (.var .T))))),
  .set (.arr .fwd 244) (.mul (.mul (.rd (.arr .C 44)) (.rd (.arr .C 8))) (.rd (.var .kf))),
  .ite (.rd (.var .T)) (.num 1000 0) (.var .Kc) (.sub (.add (.add (.neg (.num 46035492999999983 17)) (.mul (.num 51934164999999988 17) (.rd (.var .logT)))) (.mul (.rd (.var .T)) (.add (.neg (.num 87619317499999989 20)) (.mul (.rd (.var .T)) (.add (.num 18851645149999997 22) (.mul (.rd (.var .T)) (.add (.neg (.num 12162578591666669 25)) (.mul (.num 30242614350000006 29) (.rd (.var .T)))))))))) (.div (.num 13587516000000001 13) (.rd (.var .T)))) (.sub (.add (.add (.neg (.num 24028022 7)) (.mul (.num 73467306000000043 17) (.rd (.var .logT)))) (.mul (.rd (.var .T)) (.add (.num 378366295 12) (.mul (.rd (.var .T)) (.add (.num 20718086499999997 24) (.mul (.rd (.var .T)) (.add (.neg (.num 79353487499999974 28)) (.mul (.num 54404629499999991 32) (.rd (.var .T)))))))))) (.div (.num 1200314433 6) (.rd (.var .T)))),
  .ite (.rd (.var .T)) (.num 1385 0) (.var .Kc) (.add (.rd (.var .Kc)) (.sub (.add (.add (.num 4972006039 8) (.mul (.neg (.num 23678708899999998 16)) (.rd (.var .logT)))) (.mul (.rd (.var .T)) (.add (.num 68677673999999994 18) (.mul (.rd (.var .T)) (.add (.neg (.num 13734602633333332 21)) (.mul (.rd (.var .T)) (.add (.num 19701796833333333 25) (.mul (.neg (.num 123717966 21)) (.rd (.var .T)))))))))) (.div (.neg (.num 16766053899999999 12)) (.rd (.var .T))))) (.add (.rd (.var .Kc)) (.sub (.add (.add (.neg (.num 20377475980000003 14)) (.mul (.num 36968826800000002 15) (.rd (.var .logT)))) (.mul (.rd (.var .T)) (.add (.num 26935973200000001 18) (.mul (.rd (.var .T)) (.add (.neg (.num 30361877166666668 22)) (.mul (.rd (.var .T)) (.add (.num 23397875249999998 26) (.mul (.neg (.num 81054210000000005 31)) (.rd (.var .T)))))))))) (.div (.neg (.num 31214498800000001 12)) (.rd (.var .T))))),
  .ite (.rd (.var .T)) (.num 1391 0) (.var .Kc) (.add (.rd (.var .Kc)) (.sub (.add (.add (.neg (.num 5272127854 8)) (.mul (.num 36218159399999998 16) (.rd (.var .logT)))) (.mul (.rd (.var .T)) (.add (.neg (.num 73618855499999997 18)) (.mul (.rd (.var .T)) (.add (.num 15732837849999999 21) (.mul (.rd (.var .T)) (.add (.neg (.num 25620105666666666 25)) (.mul (.num 20180111500000002 29) (.rd (.var .T)))))))))) (.div (.num 40065425300000003 12) (.rd (.var .T))))) (.add (.rd (.var .Kc)) (.sub (.add (.add (.num 2111804257 7) (.mul (.neg (.num 37509503700000003 15)) (.rd (.var .logT)))) (.mul (.rd (.var .T)) (.add (.neg (.num 28177502399999999 18)) (.mul (.rd (.var .T)) (.add (.num 31915533333333334 22) (.mul (.rd (.var .T)) (.add (.neg (.num 24668738499999999 26)) (.mul (.num 85622075000000004 31) (.rd (.var .T)))))))))) (.div (.num 548843465 4) (.rd (.var .T))))),
  .set (.var .Kc) (.mul (.num 1 0) (.exp (.rd (.var .Kc)))),
  .set (.arr .rev 242) (.div (.mul (.mul (.rd (.arr .C 4)) (.rd (.arr .C 47))) (.rd (.var .kf))) (.rd (.var .Kc)))]

/-- utilities/mechanisms/yao/lib/src/rxn_rates.c:3462-3485 -/
def rate245 : List CStmt := [
  .set (.var .kf) (.exp (.sub (.add (.num 42136079830489184 16) (.mul (.num 255 2) (.rd (.var .logT)))) (.div (.num 8298090624527591 12) (.rd (.var .T))))),
  .set (.arr .fwd 245) (.mul (.mul (.rd (.arr .C 44)) (.rd (.arr .C 4))) (.rd (.var .kf))),
  .ite (.rd (.var .T)) (.num 1000 0) (.var .Kc) (.sub (.add (.add (.neg (.num 25592638999999995 17)) (.mul (.neg (.num 25685320000000011 18)) (.rd (.var .logT)))) (.mul (.rd (.var .T)) (.add (.num 21031490464999999 19) (.mul (.rd (.var .T)) (.add (.neg (.num 73745316666666604 23)) (.mul (.rd (.var .T)) (.add (.num 22494234166666691 26) (.mul (.neg (.num 33385380500000056 30)) (.rd (.var .T)))))))))) (.div (.neg (.num 1799739014 5)) (.rd (.var .T)))) (.sub (.add (.add (.neg (.num 10167374799999993 16)) (.mul (.num 14779194999999934 17) (.rd (.var .logT)))) (.mul (.rd (.var .T)) (.add (.num 1334248405 12) (.mul (.rd (.var .T)) (.add (.neg (.num 21128901666666666 23)) (.mul (.rd (.var .T)) (.add (.num 21411634666666661 27) (.mul (.neg (.num 89999885000000004 32)) (.rd (.var .T)))))))))) (.div (.neg (.num 17973644413000002 12)) (.rd (.var .T)))),
  .ite (.rd (.var .T)) (.num 1390 0) (.var .Kc) (.add (.rd (.var .Kc)) (.sub (.add (.add (.num 51220529509999999 15) (.mul (.neg (.num 285028741 8)) (.rd (.var .logT)))) (.mul (.rd (.var .T)) (.add (.num 71335354000000004 18) (.mul (.rd (.var .T)) (.add (.neg (.num 15315275916666666 21)) (.mul (.rd (.var .T)) (.add (.num 25073616 16) (.mul (.neg (.num 19872715 20)) (.rd (.var .T)))))))))) (.div (.neg (.num 154530435 4)) (.rd (.var .T))))) (.add (.rd (.var .Kc)) (.sub (.add (.add (.neg (.num 20497492249999999 14)) (.mul (.num 37092188499999999 15) (.rd (.var .logT)))) (.mul (.rd (.var .T)) (.add (.num 27105392400000001 18) (.mul (.rd (.var .T)) (.add (.neg (.num 30700919500000003 22)) (.mul (.rd (.var .T)) (.add (.num 23730181083333333 26) (.mul (.neg (.num 82365874000000005 31)) (.rd (.var .T)))))))))) (.div (.neg (.num 298194375 4)) (.rd (.var .T))))),
  .ite (.rd (.var .T)) (.num 1391 0) (.var .Kc) (.add (.rd (.var .Kc)) (.sub (.add (.add (.neg (.num 5272127854 8)) (.mul (.num 36218159399999998 16) (.rd (.var .logT)))) (.mul (.rd (.var .T)) (.add (.neg (.num 73618855499999997 18)) (.mul (.rd (.var .T)) (.add (.num 15732837849999999 21) (.mul (.rd (.var .T)) (.add (.neg (.num 25620105666666666 25)) (.mul (.num 20180111500000002 29) (.rd (.var .T)))))))))) (.div (.num 40065425300000003 12) (.rd (.var .T))))) (.add (.rd (.var .Kc)) (.sub (.add (.add (.num 2111804257 7) (.mul (.neg (.num 37509503700000003 15)) (.rd (.var .logT)))) (.mul (.rd (.var .T)) (.add (.neg (.num 28177502399999999 18)) (.mul (.rd (.var .T)) (.add (.num 31915533333333334 22) (.mul (.rd (.var .T)) (.add (.neg (.num 24668738499999999 26)) (.mul (.num 85622075000000004 31) (.rd (.var .T)))))))))) (.div (.num 548843465 4) (.rd (.var .T))))),
  .set (.var .Kc) (.mul (.num 1 0) (.exp (.rd (.var .Kc)))),
  .set (.arr .rev 243) (.div (.mul (.mul (.rd (.arr .C 7)) (.rd (.arr .C 45))) (.rd (.var .kf))) (.rd (.var .Kc)))]

/-- utilities/mechanisms/yao/lib/src/rxn_rates.c:3486-3509 -/
def rate246 : List CStmt := [
  .set (.var .kf) (.exp (.sub (.add (.num 44886363697321396 16) (.mul (.num 26 1) (.rd (.var .logT)))) (.div (.num 69997841471909524 13) (.rd (.var .T))))),
  .set (.arr .fwd 246) (.mul (.mul (.rd (.arr .C 44)) (.rd (.arr .C 4))) (.rd (.var .kf))),
  .ite (.rd (.var .T)) (.num 1000 0) (.var .Kc) (.sub (.add (.add (.neg (.num 25592638999999995 17)) (.mul (.neg (.num 25685320000000011 18)) (.rd (.var .logT)))) (.mul (.rd (.var .T)) (.add (.num 21031490464999999 19) (.mul (.rd (.var .T)) (.add (.neg (.num 73745316666666604 23)) (.mul (.rd (.var .T)) (.add (.num 22494234166666691 26) (.mul (.neg (.num 33385380500000056 30)) (.rd (.var .T)))))))))) (.div (.neg (.num 1799739014 5)) (.rd (.var .T)))) (.sub (.add (.add (.neg (.num 10167374799999993 16)) (.mul (.num 14779194999999934 17) (.rd (.var .logT)))) (.mul (.rd (.var .T)) (.add (.num 1334248405 12) (.mul (.rd (.var .T)) (.add (.neg (.num 21128901666666666 23)) (.mul (.rd (.var .T)) (.add (.num 21411634666666661 27) (.mul (.neg (.num 89999885000000004 32)) (.rd (.var .T)))))))))) (.div (.neg (.num 17973644413000002 12)) (.rd (.var .T)))),
  .ite (.rd (.var .T)) (.num 1385 0) (.var .Kc) (.add (.rd (.var .Kc)) (.sub (.add (.add (.num 4972006039 8) (.mul (.neg (.num 23678708899999998 16)) (.rd (.var .logT)))) (.mul (.rd (.var .T)) (.add (.num 68677673999999994 18) (.mul (.rd (.var .T)) (.add (.neg (.num 13734602633333332 21)) (.mul (.rd (.var .T)) (.add (.num 19701796833333333 25) (.mul (.neg (.num 123717966 21)) (.rd (.var .T)))))))))) (.div (.neg (.num 16766053899999999 12)) (.rd (.var .T))))) (.add (.rd (.var .Kc)) (.sub (.add (.add (.neg (.num 20377475980000003 14)) (.mul (.num 36968826800000002 15) (.rd (.var .logT)))) (.mul (.rd (.var .T)) (.add (.num 26935973200000001 18) (.mul (.rd (.var .T)) (.add (.neg (.num 30361877166666668 22)) (.mul (.rd (.var .T)) (.add (.num 23397875249999998 26) (.mul (.neg (.num 81054210000000005 31)) (.rd (.var .T)))))))))) (.div (.neg (.num 31214498800000001 12)) (.rd (.var .T))))),
  .ite (.rd (.var .T)) (.num 1391 0) (.var .Kc) (.add (.rd (.var .Kc)) (.sub (.add (.add (.neg (.num 5272127854 8)) (.mul (.num 36218159399999998 16) (.rd (.var .logT)))) (.mul (.rd (.var .T)) (.add (.neg (.num 73618855499999997 18)) (.mul (.rd (.var .T)) (.add (.num 15732837849999999 21) (.mul (.rd (.var .T)) (.add (.neg (.num 25620105666666666 25)) (.mul (.num 20180111500000002 29) (.rd (.var .T)))))))))) (.div (.num 40065425300000003 12) (.rd (.var .T))))) (.add (.rd (.var .Kc)) (.sub (.add (.add (.num 2111804257 7) (.mul (.neg (.num 37509503700000003 15)) (.rd (.var .logT)))) (.mul (.rd (.var .T)) (.add (.neg (.num 28177502399999999 18)) (.mul (.rd (.var .T)) (.add (.num 31915533333333334 22) (.mul (.rd (.var .T)) (.add (.neg (.num 24668738499999999 26)) (.mul (.num 85622075000000004 31) (.rd (.var .T)))))))))) (.div (.num 548843465 4) (.rd (.var .T))))),
  .set (.var .Kc) (.mul (.num 1 0) (.exp (.rd (.var .Kc)))),
  .set (.arr .rev 244) (.div (.mul (.mul (.rd (.arr .C 46)) (.rd (.arr .C 7))) (.rd (.var .kf))) (.rd (.var .Kc)))]

/-- utilities/mechanisms/yao/lib/src/rxn_rates.c:3510-3533 -/
def rate247 : List CStmt := [
  .set (.var .kf) (.exp (.sub (.add (.num 44830025520138834 16) (.mul (.num 26 1) (.rd (.var .logT)))) (.div (.num 69997841471909524 13) (.rd (.var .T))))),
  .set (.arr .fwd 247) (.mul (.mul (.rd (.arr .C 44)) (.rd (.arr .C 4))) (.rd (.var .kf))),
  .ite (.rd (.var .T)) (.num 1000 0) (.var .Kc) (.sub (.add (.add (.neg (.num 25592638999999995 17)) (.mul (.neg (.num 25685320000000011 18)) (.rd (.var .logT)))) (.mul (.rd (.var .T)) (.add (.num 21031490464999999 19) (.mul (.rd (.var .T)) (.add (.neg (.num 73745316666666604 23)) (.mul (.rd (.var .T)) (.add (.num 22494234166666691 26) (.mul (.neg (.num 33385380500000056 30)) (.rd (.var .T)))))))))) (.div (.neg (.num 1799739014 5)) (.rd (.var .T)))) (.sub (.add (.add (.neg (.num 10167374799999993 16)) (.mul (.num 14779194999999934 17) (.rd (.var .logT)))) (.mul (.rd (.var .T)) (.add (.num 1334248405 12) (.mul (.rd (.var .T)) (.add (.neg (.num 21128901666666666 23)) (.mul (.rd (.var .T)) (.add (.num 21411634666666661 27) (.mul (.neg (.num 89999885000000004 32)) (.rd (.var .T)))))))))) (.div (.neg (.num 17973644413000002 12)) (.rd (.var .T)))),
  .ite (.rd (.var .T)) (.num 1385 0) (.var .Kc) (.add (.rd (.var .Kc)) (.sub (.add (.add (.num 4972006039 8) (.mul (.neg (.num 23678708899999998 16)) (.rd (.var .logT)))) (.mul (.rd (.var .T)) (.add (.num 68677673999999994 18) (.mul (.rd (.var .T)) (.add (.neg (.num 13734602633333332 21)) (.mul (.rd (.var .T)) (.add (.num 19701796833333333 25) (.mul (.neg (.num 123717966 21)) (.rd (.var .T)))))))))) (.div (.neg (.num 16766053899999999 12)) (.rd (.var .T))))) (.add (.rd (.var .Kc)) (.sub (.add (.add (.neg (.num 20377475980000003 14)) (.mul (.num 36968826800000002 15) (.rd (.var .logT)))) (.mul (.rd (.var .T)) (.add (.num 26935973200000001 18) (.mul (.rd (.var .T)) (.add (.neg (.num 30361877166666668 22)) (.mul (.rd (.var .T)) (.add (.num 23397875249999998 26) (.mul (.neg (.num 81054210000000005 31)) (.rd (.var .T)))))))))) (.div (.neg (.num 31214498800000001 12)) (.rd (.var .T))))),
  .ite (.rd (.var .T)) (.num 1391 0) (.var .Kc) (.add (.rd (.var .Kc)) (.sub (.add (.add (.neg (.num 5272127854 8)) (.mul (.num 36218159399999998 16) (.rd (.var .logT)))) (.mul (.rd (.var .T)) (.add (.neg (.num 73618855499999997 18)) (.mul (.rd (.var .T)) (.add (.num 15732837849999999 21) (.mul (.rd (.var .T)) (.add (.neg (.num 25620105666666666 25)) (.mul (.num 20180111500000002 29) (.rd (.var .T)))))))))) (.div (.num 40065425300000003 12) (.rd (.var .T))))) (.add (.rd (.var .Kc)) (.sub (.add (.add (.num 2111804257 7) (.mul (.neg (.num 37509503700000003 15)) (.rd (.var .logT)))) (.mul (.rd (.var .T)) (.add (.neg (.num 28177502399999999 18)) (.mul (.rd (.var .T)) (.add (.num 31915533333333334 22) (.mul (.rd (.var .T)) (.add (.neg (.num 24668738499999999 26)) (.mul (.num 85622075000000004 31) (.rd (.var .T)))))))))) (.div (.num 548843465 4) (.rd (.var .T))))),
  .set (.var .Kc) (.mul (.num 1 0) (.exp (.rd (.var .Kc)))),
  .set (.arr .rev 245) (.div (.mul (.mul (.rd (.arr .C 7)) (.rd (.arr .C 47))) (.rd (.var .kf))) (.rd (.var .Kc)))]

/-- utilities/mechanisms/yao/lib/src/rxn_rates.c:3534-3557 -/
def rate248 : List CStmt := [
  .set (.var .kf) (.exp (.sub (.add (.neg (.num 63144284337044025 16)) (.mul (.num 365 2) (.rd (.var .logT)))) (.div (.num 35995295474375903 13) (.rd (.var .T))))),
  .set (.arr .fwd 248) (.mul (.mul (.rd (.arr .C 11)) (.rd (.arr .C 44))) (.rd (.var .kf))),
  .ite (.rd (.var .T)) (.num 1000 0) (.var .Kc) (.sub (.add (.add (.neg (.num 77221538199999991 16)) (.mul (.num 14762857299999999 16) (.rd (.var .logT)))) (.mul (.rd (.var .T)) (.add (.neg (.num 78409652750000003 19)) (.mul (.rd (.var .T)) (.add (.num 72416402233333339 22) (.mul (.rd (.var .T)) (.add (.neg (.num 34669273625000003 25)) (.mul (.num 70627691300000001 29) (.rd (.var .T)))))))))) (.div (.neg (.num 26691646400000001 12)) (.rd (.var .T)))) (.sub (.add (.add (.num 12168112435000001 15) (.mul (.neg (.num 22108662250000002 16)) (.rd (.var .logT)))) (.mul (.rd (.var .T)) (.add (.num 30755231649999999 19) (.mul (.rd (.var .T)) (.add (.neg (.num 45761910166666661 23)) (.mul (.rd (.var .T)) (.add (.num 52270058833333329 27) (.mul (.neg (.num 27549895300000003 31)) (.rd (.var .T)))))))))) (.div (.neg (.num 26243928889999999 12)) (.rd (.var .T)))),
  .ite (.rd (.var .T)) (.num 1390 0) (.var .Kc) (.add (.rd (.var .Kc)) (.sub (.add (.add (.num 51220529509999999 15) (.mul (.neg (.num 285028741 8)) (.rd (.var .logT)))) (.mul (.rd (.var .T)) (.add (.num 71335354000000004 18) (.mul (.rd (.var .T)) (.add (.neg (.num 15315275916666666 21)) (.mul (.rd (.var .T)) (.add (.num 25073616 16) (.mul (.neg (.num 19872715 20)) (.rd (.var .T)))))))))) (.div (.neg (.num 154530435 4)) (.rd (.var .T))))) (.add (.rd (.var .Kc)) (.sub (.add (.add (.neg (.num 20497492249999999 14)) (.mul (.num 37092188499999999 15) (.rd (.var .logT)))) (.mul (.rd (.var .T)) (.add (.num 27105392400000001 18) (.mul (.rd (.var .T)) (.add (.neg (.num 30700919500000003 22)) (.mul (.rd (.var .T)) (.add (.num 23730181083333333 26) (.mul (.neg (.num 82365874000000005 31)) (.rd (.var .T)))))))))) (.div (.neg (.num 298194375 4)) (.rd (.var .T))))),
  .ite (.rd (.var .T)) (.num 1391 0) (.var .Kc) (.add (.rd (.var .Kc)) (.sub (.add (.add (.neg (.num 5272127854 8)) (.mul (.num 36218159399999998 16) (.rd (.var .logT)))) (.mul (.rd (.var .T)) (.add (.neg (.num 73618855499999997 18)) (.mul (.rd (.var .T)) (.add (.num 15732837849999999 21) (.mul (.rd (.var .T)) (.add (.neg (.num 25620105666666666 25)) (.mul (.num 20180111500000002 29) (.rd (.var .T)))))))))) (.div (.num 40065425300000003 12) (.rd (.var .T))))) (.add (.rd (.var .Kc)) (.sub (.add (.add (.num 2111804257 7) (.mul (.neg (.num 37509503700000003 15)) (.rd (.var .logT)))) (.mul (.rd (.var .T)) (.add (.neg (.num 28177502399999999 18)) (.mul (.rd (.var .T)) (.add (.num 31915533333333334 22) (.mul (.rd (.var .T)) (.add (.neg (.num 24668738499999999 26)) (.mul (.num 85622075000000004 31) (.rd (.var .T)))))))))) (.div (.num 548843465 4) (.rd (.var .T))))),
  .set (.var .Kc) (.mul (.num 1 0) (.exp (.rd (.var .Kc)))),
  .set (.arr .rev 246) (.div (.mul (.mul (.rd (.arr .C 12)) (.rd (.arr .C 45))) (.rd (.var .kf))) (.rd (.var .Kc)))]

/-- utilities/mechanisms/yao/lib/src/rxn_rates.c:3558-3581 -/
def rate249 : List CStmt := [
  .set (.var .kf) (.exp (.sub (.add (.neg (.num 51159958097540823 16)) (.mul (.num 346 2) (.rd (.var .logT)))) (.div (.num 27576432154282111 13) (.rd (.var .T))))),
  .set (.arr .fwd 249) (.mul (.mul (.rd (.arr .C 11)) (.rd (.arr .C 44))) (.rd (.var .kf))),
  .ite (.rd (.var .T)) (.num 1000 0) (.var .Kc) (.sub (.add (.add (.neg (.num 77221538199999991 16)) (.mul (.num 14762857299999999 16) (.rd (.var .logT)))) (.mul (.rd (.var .T)) (.add (.neg (.num 78409652750000003 19)) (.mul (.rd (.var .T)) (.add (.num 72416402233333339 22) (.mul (.rd (.var .T)) (.add (.neg (.num 34669273625000003 25)) (.mul (.num 70627691300000001 29) (.rd (.var .T)))))))))) (.div (.neg (.num 26691646400000001 12)) (.rd (.var .T)))) (.sub (.add (.add (.num 12168112435000001 15) (.mul (.neg (.num 22108662250000002 16)) (.rd (.var .logT)))) (.mul (.rd (.var .T)) (.add (.num 30755231649999999 19) (.mul (.rd (.var .T)) (.add (.neg (.num 45761910166666661 23)) (.mul (.rd (.var .T)) (.add (.num 52270058833333329 27) (.mul (.neg (.num 27549895300000003 31)) (.rd (.var .T)))))))))) (.div (.neg (.num 26243928889999999 12)) (.rd (.var .T)))),
  .ite (.rd (.var .T)) (.num 1385 0) (.var .Kc) (.add (.rd (.var .Kc)) (.sub (.add (.add (.num 4972006039 8) (.mul (.neg (.num 23678708899999998 16)) (.rd (.var .logT)))) (.mul (.rd (.var .T)) (.add (.num 68677673999999994 18) (.mul (.rd (.var .T)) (.add (.neg (.num 13734602633333332 21)) (.mul (.rd (.var .T)) (.add (.num 19701796833333333 25) (.mul (.neg (.num 123717966 21)) (.rd (.var .T)))))))))) (.div (.neg (.num 16766053899999999 12)) (.rd (.var .T))))) (.add (.rd (.var .Kc)) (.sub (.add (.add (.neg (.num 20377475980000003 14)) (.mul (.num 36968826800000002 15) (.rd (.var .logT)))) (.mul (.rd (.var .T)) (.add (.num 26935973200000001 18) (.mul (.rd (.var .T)) (.add (.neg (.num 30361877166666668 22)) (.mul (.rd (.var .T)) (.add (.num 23397875249999998 26) (.mul (.neg (.num 81054210000000005 31)) (.rd (.var .T)))))))))) (.div (.neg (.num 31214498800000001 12)) (.rd (.var .T))))),
  .ite (.rd (.var .T)) (.num 1391 0) (.var .Kc) (.add (.rd (.var .Kc)) (.sub (.add (.add (.neg (.num 5272127854 8)) (.mul (.num 36218159399999998 16) (.rd (.var .logT)))) (.mul (.rd (.var .T)) (.add (.neg (.num 73618855499999997 18)) (.mul (.rd (.var .T)) (.add (.num 15732837849999999 21) (.mul (.rd (.var .T)) (.add (.neg (.num 25620105666666666 25)) (.mul (.num 20180111500000002 29) (.rd (.var .T)))))))))) (.div (.num 40065425300000003 12) (.rd (.var .T))))) (.add (.rd (.var .Kc)) (.sub (.add (.add (.num 2111804257 7) (.mul (.neg (.num 37509503700000003 15)) (.rd (.var .logT)))) (.mul (.rd (.var .T)) (.add (.neg (.num 28177502399999999 18)) (.mul (.rd (.var .T)) (.add (.num 31915533333333334 22) (.mul (.rd (.var .T)) (.add (.neg (.num 24668738499999999 26)) (.mul (.num 85622075000000004 31) (.rd (.var .T)))))))))) (.div (.num 548843465 4) (.rd (.var .T))))),
  .set (.var .Kc) (.mul (.num 1 0) (.exp (.rd (.var .Kc)))),
  .set (.arr .rev 247) (.div (.mul (.mul (.rd (.arr .C 12)) (.rd (.arr .C 46))) (.rd (.var .kf))) (.rd (.var .Kc)))]

/-- utilities/mechanisms/yao/lib/src/rxn_rates.c:3582-3605 -/
def rate250 : List CStmt := [
  .set (.var .kf) (.exp (.sub (.add (.neg (.num 47105307016459177 16)) (.mul (.num 346 2) (.rd (.var .logT)))) (.div (.num 27576432154282111 13) (.rd (.var .T))))),
  .set (.arr .fwd 250) (.mul (.mul (.rd (.arr .C 11)) (.rd (.arr .C 44))) (.rd (.var .kf))),
  .ite (.rd (.var .T)) (.num 1000 0) (.var .Kc) (.sub (.add (.add (.neg (.num 77221538199999991 16)) (.mul (.num 14762857299999999 16) (.rd (.var .logT)))) (.mul (.rd (.var .T)) (.add (.neg (.num 78409652750000003 19)) (.mul (.rd (.var .T)) (.add (.num 72416402233333339 22) (.mul (.rd (.var .T)) (.add (.neg (.num 34669273625000003 25)) (.mul (.num 70627691300000001 29) (.rd (.var .T)))))))))) (.div (.neg (.num 26691646400000001 12)) (.rd (.var .T)))) (.sub (.add (.add (.num 12168112435000001 15) (.mul (.neg (.num 22108662250000002 16)) (.rd (.var .logT)))) (.mul (.rd (.var .T)) (.add (.num 30755231649999999 19) (.mul (.rd (.var .T)) (.add (.neg (.num 45761910166666661 23)) (.mul (.rd (.var .T)) (.add (.num 52270058833333329 27) (.mul (.neg (.num 27549895300000003 31)) (.rd (.var .T)))))))))) (.div (.neg (.num 26243928889999999 12)) (.rd (.var .T)))),
  .ite (.rd (.var .T)) (.num 1385 0) (.var .Kc) (.add (.rd (.var .Kc)) (.sub (.add (.add (.num 4972006039 8) (.mul (.neg (.num 23678708899999998 16)) (.rd (.var .logT)))) (.mul (.rd (.var .T)) (.add (.num 68677673999999994 18) (.mul (.rd (.var .T)) (.add (.neg (.num 13734602633333332 21)) (.mul (.rd (.var .T)) (.add (.num 19701796833333333 25) (.mul (.neg (.num 123717966 21)) (.rd (.var .T)))))))))) (.div (.neg (.num 16766053899999999 12)) (.rd (.var .T))))) (.add (.rd (.var .Kc)) (.sub (.add (.add (.neg (.num 20377475980000003 14)) (.mul (.num 36968826800000002 15) (.rd (.var .logT)))) (.mul (.rd (.var .T)) (.add (.num 26935973200000001 18) (.mul (.rd (.var .T)) (.add (.neg (.num 30361877166666668 22)) (.mul (.rd (.var .T)) (.add (.num 23397875249999998 26) (.mul (.neg (.num 81054210000000005 31)) (.rd (.var .T)))))))))) (.div (.neg (.num 31214498800000001 12)) (.rd (.var .T))))),
  .ite (.rd (.var .T)) (.num 1391 0) (.var .Kc) (.add (.rd (.var .Kc)) (.sub (.add (.add (.neg (.num 5272127854 8)) (.mul (.num 36218159399999998 16) (.rd (.var .logT)))) (.mul (.rd (.var .T)) (.add (.neg (.num 73618855499999997 18)) (.mul (.rd (.var .T)) (.add (.num 15732837849999999 21) (.mul (.rd (.var .T)) (.add (.neg (.num 25620105666666666 25)) (.mul (.num 20180111500000002 29) (.rd (.var .T)))))))))) (.div (.num 40065425300000003 12) (.rd (.var .T))))) (.add (.rd (.var .Kc)) (.sub (.add (.add (.num 2111804257 7) (.mul (.neg (.num 37509503700000003 15)) (.rd (.var .logT)))) (.mul (.rd (.var .T)) (.add (.neg (.num 28177502399999999 18)) (.mul (.rd (.var .T)) (.add (.num 31915533333333334 22) (.mul (.rd (.var .T)) (.add (.neg (.num 24668738499999999 26)) (.mul (.num 85622075000000004 31) (.rd (.var .T)))))))))) (.div (.num 548843465 4) (.rd (.var .T))))),
  .set (.var .Kc) (.mul (.num 1 0) (.exp (.rd (.var .Kc)))),
  .set (.arr .rev 248) (.div (.mul (.mul (.rd (.arr .C 12)) (.rd (.arr .C 47))) (.rd (.var .kf))) (.rd (.var .Kc)))]

/-- utilities/mechanisms/yao/lib/src/rxn_rates.c:3606-3607 -/
def rate251 : List CStmt := [
  .set (.arr .fwd 251) (.mul (.mul (.rd (.arr .C 8)) (.rd (.arr .C 45))) (.num 50000000000 0))]

/-- utilities/mechanisms/yao/lib/src/rxn_rates.c:3608-3609 -/
def rate252 : List CStmt := [
  .set (.arr .fwd 252) (.mul (.rd (.arr .C 49)) (.exp (.sub (.num 30945207120601072 15) (.div (.num 13788216077141056 12) (.rd (.var .T))))))]

/-- utilities/mechanisms/yao/lib/src/rxn_rates.c:3610-3611 -/
def rate253 : List CStmt := [
  .set (.arr .fwd 253) (.mul (.mul (.rd (.arr .C 46)) (.rd (.arr .C 8))) (.num 50000000000 0))]

/-- utilities/mechanisms/yao/lib/src/rxn_rates.c:3612-3613 -/
def rate254 : List CStmt := [
  .set (.arr .fwd 254) (.mul (.rd (.arr .C 49)) (.exp (.sub (.num 30945207120601072 15) (.div (.num 13788216077141056 12) (.rd (.var .T))))))]

/-- utilities/mechanisms/yao/lib/src/rxn_rates.c:3614-3615 -/
def rate255 : List CStmt := [
  .set (.arr .fwd 255) (.mul (.mul (.rd (.arr .C 8)) (.rd (.arr .C 47))) (.num 50000000000 0))]

/-- utilities/mechanisms/yao/lib/src/rxn_rates.c:3616-3617 -/
def rate256 : List CStmt := [
  .set (.arr .fwd 256) (.mul (.rd (.arr .C 49)) (.exp (.sub (.num 30945207120601072 15) (.div (.num 13788216077141056 12) (.rd (.var .T))))))]

/-- utilities/mechanisms/yao/lib/src/rxn_rates.c:3618-3619 -/
def rate257 : List CStmt := [
  .set (.arr .fwd 257) (.mul (.rd (.arr .C 49)) (.exp (.sub (.num 28043130766755382 15) (.div (.num 956117173232409 11) (.rd (.var .T))))))]

/-- utilities/mechanisms/yao/lib/src/rxn_rates.c:3620-3621 -/
def rate258 : List CStmt := [
  .set (.arr .fwd 258) (.mul (.rd (.arr .C 50)) (.exp (.sub (.num 25328436022934504 15) (.div (.num 57870249958803706 13) (.rd (.var .T))))))]

/-- utilities/mechanisms/yao/lib/src/rxn_rates.c:3622-3623 -/
def rate259 : List CStmt := [
  .set (.arr .fwd 259) (.mul (.mul (.rd (.arr .C 8)) (.rd (.arr .C 45))) (.exp (.sub (.num 19673443712447732 15) (.div (.num 30193173891549759 13) (.rd (.var .T))))))]

/-- utilities/mechanisms/yao/lib/src/rxn_rates.c:3624-3625 -/
def rate260 : List CStmt := [
  .set (.arr .fwd 260) (.mul (.mul (.rd (.arr .C 48)) (.rd (.arr .C 4))) (.exp (.sub (.num 19571252771551187 15) (.div (.num 98127815147536712 13) (.rd (.var .T))))))]

/-- utilities/mechanisms/yao/lib/src/rxn_rates.c:3626-3627 -/
def rate261 : List CStmt := [
  .set (.arr .fwd 261) (.mul (.mul (.rd (.arr .C 46)) (.rd (.arr .C 8))) (.exp (.sub (.num 19673443712447732 15) (.div (.num 30193173891549759 13) (.rd (.var .T))))))]

/-- utilities/mechanisms/yao/lib/src/rxn_rates.c:3628-3629 -/
def rate262 : List CStmt := [
  .set (.arr .fwd 262) (.mul (.mul (.rd (.arr .C 48)) (.rd (.arr .C 4))) (.exp (.sub (.num 19571252771551187 15) (.div (.num 98127815147536712 13) (.rd (.var .T))))))]

/-- utilities/mechanisms/yao/lib/src/rxn_rates.c:3630-3631 -/
def rate263 : List CStmt := [
  .set (.arr .fwd 263) (.mul (.mul (.rd (.arr .C 8)) (.rd (.arr .C 47))) (.exp (.sub (.num 19673443712447732 15) (.div (.num 30193173891549759 13) (.rd (.var .T))))))]

/-- utilities/mechanisms/yao/lib/src/rxn_rates.c:3632-3633 -/
def rate264 : List CStmt := [
  .set (.arr .fwd 264) (.mul (.mul (.rd (.arr .C 48)) (.rd (.arr .C 4))) (.exp (.sub (.num 19571252771551187 15) (.div (.num 98127815147536712 13) (.rd (.var .T))))))]

/-- utilities/mechanisms/yao/lib/src/rxn_rates.c:3634-3635 -/
def rate265 : List CStmt := [
  .set (.arr .fwd 265) (.mul (.mul (.rd (.arr .C 50)) (.rd (.arr .C 8))) (.num 46000000 0))]

/-- utilities/mechanisms/yao/lib/src/rxn_rates.c:3636-3637 -/
def rate266 : List CStmt := [
  .set (.arr .fwd 266) (.mul (.rd (.arr .C 51)) (.exp (.sub (.num 30853888962066286 15) (.div (.num 13788216077141056 12) (.rd (.var .T))))))]

/-- utilities/mechanisms/yao/lib/src/rxn_rates.c:3638-3649 -/
def rate267 : List CStmt := [
  .set (.var .kf) (.exp (.sub (.num 25211902206678552 15) (.div (.num 85547326026057654 13) (.rd (.var .T))))),
  .set (.arr .fwd 267) (.mul (.rd (.arr .C 51)) (.rd (.var .kf))),
  .ite (.rd (.var .T)) (.num 1000 0) (.var .Kc) (.sub (.add (.add (.neg (.num 47642446570000004 15)) (.mul (.num 11450663609999999 15) (.rd (.var .logT)))) (.mul (.rd (.var .T)) (.add (.neg (.num 41591574695000008 18)) (.mul (.rd (.var .T)) (.add (.num 29327374484999999 21) (.mul (.rd (.var .T)) (.add (.neg (.num 13228811369166667 24)) (.mul (.num 25983946895000004 28) (.rd (.var .T)))))))))) (.div (.neg (.num 21467061880000008 12)) (.rd (.var .T)))) (.sub (.add (.add (.num 7423831186999999 14) (.mul (.neg (.num 9552871139999997 15)) (.rd (.var .logT)))) (.mul (.rd (.var .T)) (.add (.num 58183522400000014 19) (.mul (.rd (.var .T)) (.add (.neg (.num 96803045966666696 23)) (.mul (.rd (.var .T)) (.add (.num 92992655616666683 27) (.mul (.neg (.num 38010479379999987 31)) (.rd (.var .T)))))))))) (.div (.neg (.num 16839442259999996 12)) (.rd (.var .T)))),
  .set (.var .Kc) (.mul (.num 12186597134166982 15) (.exp (.rd (.var .Kc)))),
  .set (.arr .rev 249) (.div (.mul (.mul (.rd (.arr .C 52)) (.rd (.arr .C 3))) (.rd (.var .kf))) (.rd (.var .Kc)))]

/-- utilities/mechanisms/yao/lib/src/rxn_rates.c:3650-3651 -/
def rate268 : List CStmt := [
  .set (.arr .fwd 268) (.mul (.rd (.arr .C 52)) (.exp (.sub (.num 35126563059812803 15) (.div (.num 21167930995800678 12) (.rd (.var .T))))))]

/-- The blocks of `void eval_rxn_rates`, one per reaction: utilities/mechanisms/yao/lib/src/rxn_rates.c:3-3651 -/
def rateBlocks : List (List CStmt) := [
  rate0, rate1, rate2, rate3, rate4, rate5, rate6, rate7, rate8, rate9, rate10, rate11, rate12, rate13, rate14, rate15, rate16, rate17, rate18, rate19, rate20, rate21, rate22, rate23, rate24, rate25, rate26, rate27, rate28, rate29, rate30, rate31, rate32, rate33, rate34, rate35, rate36, rate37, rate38, rate39, rate40, rate41, rate42, rate43, rate44, rate45, rate46, rate47, rate48, rate49, rate50, rate51, rate52, rate53, rate54, rate55, rate56, rate57, rate58, rate59, rate60, rate61, rate62, rate63, rate64, rate65, rate66, rate67, rate68, rate69, rate70, rate71, rate72, rate73, rate74, rate75, rate76, rate77, rate78, rate79, rate80, rate81, rate82, rate83, rate84, rate85, rate86, rate87, rate88, rate89, rate90, rate91, rate92, rate93, rate94, rate95, rate96, rate97, rate98, rate99, rate100, rate101, rate102, rate103, rate104, rate105, rate106, rate107, rate108, rate109, rate110, rate111, rate112, rate113, rate114, rate115, rate116, rate117, rate118, rate119, rate120, rate121, rate122, rate123, rate124, rate125, rate126, rate127, rate128, rate129, rate130, rate131, rate132, rate133, rate134, rate135, rate136, rate137, rate138, rate139, rate140, rate141, rate142, rate143, rate144, rate145, rate146, rate147, rate148, rate149, rate150, rate151, rate152, rate153, rate154, rate155, rate156, rate157, rate158, rate159, rate160, rate161, rate162, rate163, rate164, rate165, rate166, rate167, rate168, rate169, rate170, rate171, rate172, rate173, rate174, rate175, rate176, rate177, rate178, rate179, rate180, rate181, rate182, rate183, rate184, rate185, rate186, rate187, rate188, rate189, rate190, rate191, rate192, rate193, rate194, rate195, rate196, rate197, rate198, rate199, rate200, rate201, rate202, rate203, rate204, rate205, rate206, rate207, rate208, rate209, rate210, rate211, rate212, rate213, rate214, rate215, rate216, rate217, rate218, rate219, rate220, rate221, rate222, rate223, rate224, rate225, rate226, rate227, rate228, rate229, rate230, rate231, rate232, rate233, rate234, rate235, rate236, rate237, rate238, rate239, rate240, rate241, rate242, rate243, rate244, rate245, rate246, rate247, rate248, rate249, rate250, rate251, rate252, rate253, rate254, rate255, rate256, rate257, rate258, rate259, rate260, rate261, rate262, rate263, rate264, rate265, rate266, rate267, rate268]

end DLB.Mech.Yao
