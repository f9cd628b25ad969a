/- Generated by tools/gen_mechanisms.py from utilities/mechanisms/gri30/lib/src/jacob.c. Do not edit. -/
import Verif.Model.CLang
set_option autoImplicit false

namespace DLB.Mech.Gri30
open DLB

/-- `m` and `logT`, utilities/mechanisms/gri30/lib/src/jacob.c:29-30 -/
def jacobPre : List CStmt := [
  .set (.var .m) (.div (.rd (.var .pres)) (.mul (.num 83144621 4) (.rd (.var .T)))),
  .set (.var .logT) (.log (.rd (.var .T))),
  .set (.var .jN) (.num 0 0)]

/-- the assignments to dBdT, utilities/mechanisms/gri30/lib/src/jacob.c:34-154 -/
def jacobDBdT : List CStmt := [
  .ite (.rd (.var .T)) (.num 1000 0) (.arr .dBdT 0) (.add (.add (.div (.add (.num 13443311200000001 16) (.div (.neg (.num 91793517299999996 14)) (.rd (.var .T)))) (.rd (.var .T))) (.num 39902603749999996 19)) (.mul (.rd (.var .T)) (.add (.neg (.num 64927169999999995 22)) (.mul (.rd (.var .T)) (.add (.num 50393023500000001 25) (.mul (.neg (.num 14752235220000002 28)) (.rd (.var .T)))))))) (.add (.add (.div (.add (.num 23372791999999998 16) (.div (.neg (.num 95015892199999996 14)) (.rd (.var .T)))) (.rd (.var .T))) (.neg (.num 24701236549999999 21))) (.mul (.rd (.var .T)) (.add (.num 16648559266666665 23) (.mul (.rd (.var .T)) (.add (.neg (.num 44891598500000001 27)) (.mul (.num 40051075199999998 31) (.rd (.var .T)))))))),
  .ite (.rd (.var .T)) (.num 1000 0) (.arr .dBdT 1) (.add (.add (.div (.add (.num 15 1) (.div (.num 25473659899999999 12) (.rd (.var .T)))) (.rd (.var .T))) (.num 35266640949999999 29)) (.mul (.rd (.var .T)) (.add (.neg (.num 66530654666666665 32)) (.mul (.rd (.var .T)) (.add (.num 57520407999999997 35) (.mul (.neg (.num 18554646640000001 38)) (.rd (.var .T)))))))) (.add (.add (.div (.add (.num 15000000099999999 16) (.div (.num 25473659899999999 12) (.rd (.var .T)))) (.rd (.var .T))) (.neg (.num 11542148649999999 27))) (.mul (.rd (.var .T)) (.add (.num 53853982666666673 31) (.mul (.rd (.var .T)) (.add (.neg (.num 11837880875000001 34)) (.mul (.num 99639471400000006 39) (.rd (.var .T)))))))),
  .ite (.rd (.var .T)) (.num 1000 0) (.arr .dBdT 2) (.add (.add (.div (.add (.num 21682671 7) (.div (.num 291222592 4) (.rd (.var .T)))) (.rd (.var .T))) (.neg (.num 163965942 11))) (.mul (.rd (.var .T)) (.add (.num 22143546533333334 22) (.mul (.rd (.var .T)) (.add (.neg (.num 153201656 17)) (.mul (.num 42253194199999998 29) (.rd (.var .T)))))))) (.add (.add (.div (.add (.num 15694207800000002 16) (.div (.num 29217579099999999 12) (.rd (.var .T)))) (.rd (.var .T))) (.neg (.num 42987056850000002 21))) (.mul (.rd (.var .T)) (.add (.num 13982819633333334 24) (.mul (.rd (.var .T)) (.add (.neg (.num 25044449749999998 28)) (.mul (.num 24566738199999997 32) (.rd (.var .T)))))))),
  .ite (.rd (.var .T)) (.num 1000 0) (.arr .dBdT 3) (.add (.add (.div (.add (.num 27824563599999999 16) (.div (.neg (.num 10639435599999999 13)) (.rd (.var .T)))) (.rd (.var .T))) (.neg (.num 14983670799999999 19))) (.mul (.rd (.var .T)) (.add (.num 32824340033333332 22) (.mul (.rd (.var .T)) (.add (.neg (.num 24203237725000002 25)) (.mul (.num 648745674 21) (.rd (.var .T)))))))) (.add (.add (.div (.add (.num 22825378399999998 16) (.div (.neg (.num 10884577200000001 13)) (.rd (.var .T)))) (.rd (.var .T))) (.num 74154376999999996 20)) (.mul (.rd (.var .T)) (.add (.neg (.num 25265555633333331 23)) (.mul (.rd (.var .T)) (.add (.num 52367638749999998 27) (.mul (.neg (.num 43343558799999996 31)) (.rd (.var .T)))))))),
  .ite (.rd (.var .T)) (.num 1000 0) (.arr .dBdT 4) (.add (.add (.div (.add (.num 29920154299999999 16) (.div (.num 36150805599999999 13) (.rd (.var .T)))) (.rd (.var .T))) (.neg (.num 12006587600000001 19))) (.mul (.rd (.var .T)) (.add (.num 15393128033333333 22) (.mul (.rd (.var .T)) (.add (.neg (.num 97028333249999999 26)) (.mul (.num 27282293999999999 29) (.rd (.var .T)))))))) (.add (.add (.div (.add (.num 20928876700000001 16) (.div (.num 38586570000000002 13) (.rd (.var .T)))) (.rd (.var .T))) (.num 27421485799999999 20)) (.mul (.rd (.var .T)) (.add (.num 42168409333333331 24) (.mul (.rd (.var .T)) (.add (.neg (.num 21986538899999999 27)) (.mul (.num 23482475199999999 31) (.rd (.var .T)))))))),
  .ite (.rd (.var .T)) (.num 1000 0) (.arr .dBdT 5) (.add (.add (.div (.add (.num 31986405600000003 16) (.div (.neg (.num 30293726699999999 12)) (.rd (.var .T)))) (.rd (.var .T))) (.neg (.num 10182170500000001 19))) (.mul (.rd (.var .T)) (.add (.num 217346737 14) (.mul (.rd (.var .T)) (.add (.neg (.num 13719926550000001 25)) (.mul (.num 354395634 21) (.rd (.var .T)))))))) (.add (.add (.div (.add (.num 20339924900000002 16) (.div (.neg (.num 300042971 4)) (.rd (.var .T)))) (.rd (.var .T))) (.num 10884590200000001 19)) (.mul (.rd (.var .T)) (.add (.neg (.num 54690839333333327 24)) (.mul (.rd (.var .T)) (.add (.neg (.num 2426049675 20)) (.mul (.num 33640198399999998 31) (.rd (.var .T)))))))),
  .ite (.rd (.var .T)) (.num 1000 0) (.arr .dBdT 6) (.add (.add (.div (.add (.num 33017980099999997 16) (.div (.num 29480804000000001 14) (.rd (.var .T)))) (.rd (.var .T))) (.neg (.num 23745602549999998 19))) (.mul (.rd (.var .T)) (.add (.num 70527630333333326 22) (.mul (.rd (.var .T)) (.add (.neg (.num 606909735 17)) (.mul (.num 18584502480000002 28) (.rd (.var .T)))))))) (.add (.add (.div (.add (.num 30172109000000003 16) (.div (.num 111856713 6) (.rd (.var .T)))) (.rd (.var .T))) (.num 1119910065 12)) (.mul (.rd (.var .T)) (.add (.neg (.num 21121938333333332 23)) (.mul (.rd (.var .T)) (.add (.num 28561592500000001 27) (.mul (.neg (.num 21581707 22)) (.rd (.var .T)))))))),
  .ite (.rd (.var .T)) (.num 1000 0) (.arr .dBdT 7) (.add (.add (.div (.add (.num 32761126899999997 16) (.div (.neg (.num 177025821 4)) (.rd (.var .T)))) (.rd (.var .T))) (.neg (.num 27141120849999997 20))) (.mul (.rd (.var .T)) (.add (.num 55778567000000005 22) (.mul (.rd (.var .T)) (.add (.neg (.num 53942703249999999 25)) (.mul (.num 1724908726 21) (.rd (.var .T)))))))) (.add (.add (.div (.add (.num 31650028499999996 16) (.div (.neg (.num 17861787700000001 12)) (.rd (.var .T)))) (.rd (.var .T))) (.num 245415847 11)) (.mul (.rd (.var .T)) (.add (.neg (.num 63379741666666662 23)) (.mul (.rd (.var .T)) (.add (.num 92796496499999996 27) (.mul (.neg (.num 57581661000000002 31)) (.rd (.var .T)))))))),
  .ite (.rd (.var .T)) (.num 1000 0) (.arr .dBdT 8) (.add (.add (.div (.add (.num 15542395500000001 16) (.div (.num 85443883199999997 12) (.rd (.var .T)))) (.rd (.var .T))) (.neg (.num 16076886199999999 20))) (.mul (.rd (.var .T)) (.add (.num 244597415 15) (.mul (.rd (.var .T)) (.add (.neg (.num 18305872225 20)) (.mul (.num 53304289200000002 30) (.rd (.var .T)))))))) (.add (.add (.div (.add (.num 14926688800000001 16) (.div (.num 85451295299999998 12) (.rd (.var .T)))) (.rd (.var .T))) (.num 239944642 13)) (.mul (.rd (.var .T)) (.add (.neg (.num 2414450066666667 23)) (.mul (.rd (.var .T)) (.add (.num 93572757250000007 28) (.mul (.neg (.num 97455578599999989 32)) (.rd (.var .T)))))))),
  .ite (.rd (.var .T)) (.num 1000 0) (.arr .dBdT 9) (.add (.add (.div (.add (.num 24898166499999999 16) (.div (.num 70797293399999995 12) (.rd (.var .T)))) (.rd (.var .T))) (.num 16191777050000001 20)) (.mul (.rd (.var .T)) (.add (.neg (.num 56299688333333337 23)) (.mul (.rd (.var .T)) (.add (.num 79054331749999998 26) (.mul (.neg (.num 28121813400000003 29)) (.rd (.var .T)))))))) (.add (.add (.div (.add (.num 18784647300000001 16) (.div (.num 71012436400000006 12) (.rd (.var .T)))) (.rd (.var .T))) (.num 4854568405 13)) (.mul (.rd (.var .T)) (.add (.num 4814855166666666 23) (.mul (.rd (.var .T)) (.add (.neg (.num 32671962250000002 27)) (.mul (.num 35215876599999997 31) (.rd (.var .T)))))))),
  .ite (.rd (.var .T)) (.num 1000 0) (.arr .dBdT 10) (.add (.add (.div (.add (.num 27626786700000001 16) (.div (.num 46004040099999998 12) (.rd (.var .T)))) (.rd (.var .T))) (.num 48443607150000002 20)) (.mul (.rd (.var .T)) (.add (.num 93163280333333339 23) (.mul (.rd (.var .T)) (.add (.neg (.num 96272788250000007 26)) (.mul (.num 33748343799999999 29) (.rd (.var .T)))))))) (.add (.add (.div (.add (.num 18741011300000001 16) (.div (.num 46263603999999999 12) (.rd (.var .T)))) (.rd (.var .T))) (.num 18281964599999999 19)) (.mul (.rd (.var .T)) (.add (.neg (.num 46964865666666667 23)) (.mul (.rd (.var .T)) (.add (.num 65044887249999998 27) (.mul (.neg (.num 375455134 23)) (.rd (.var .T)))))))),
  .ite (.rd (.var .T)) (.num 1000 0) (.arr .dBdT 11) (.add (.add (.div (.add (.num 31986041099999998 16) (.div (.num 50496816299999999 12) (.rd (.var .T)))) (.rd (.var .T))) (.neg (.num 1183307095 12))) (.mul (.rd (.var .T)) (.add (.num 27443207333333332 22) (.mul (.rd (.var .T)) (.add (.neg (.num 16720399525000001 25)) (.mul (.num 38862947400000001 29) (.rd (.var .T)))))))) (.add (.add (.div (.add (.num 12920384199999999 16) (.div (.num 509259997 4) (.rd (.var .T)))) (.rd (.var .T))) (.num 2327943185 12)) (.mul (.rd (.var .T)) (.add (.neg (.num 67063982333333332 23)) (.mul (.rd (.var .T)) (.add (.num 10447650000000001 26) (.mul (.neg (.num 67943272999999998 31)) (.rd (.var .T)))))))),
  .ite (.rd (.var .T)) (.num 1000 0) (.arr .dBdT 12) (.add (.add (.div (.add (.num 26735904000000001 16) (.div (.num 16444998800000001 12) (.rd (.var .T)))) (.rd (.var .T))) (.num 1005475875 12)) (.mul (.rd (.var .T)) (.add (.num 19100728533333335 22) (.mul (.rd (.var .T)) (.add (.neg (.num 17177935625 19)) (.mul (.num 50877146800000003 29) (.rd (.var .T)))))))) (.add (.add (.div (.add (.num 12857177200000001 16) (.div (.num 16775584299999999 12) (.rd (.var .T)))) (.rd (.var .T))) (.num 36199501849999999 19)) (.mul (.rd (.var .T)) (.add (.neg (.num 99571449333333331 23)) (.mul (.rd (.var .T)) (.add (.num 14892116100000001 26) (.mul (.neg (.num 93430878800000005 31)) (.rd (.var .T)))))))),
  .ite (.rd (.var .T)) (.num 1000 0) (.arr .dBdT 13) (.add (.add (.div (.add (.num 414987613 8) (.div (.neg (.num 102466476 4)) (.rd (.var .T)))) (.rd (.var .T))) (.neg (.num 68354894000000003 19))) (.mul (.rd (.var .T)) (.add (.num 16393353300000001 21) (.mul (.rd (.var .T)) (.add (.neg (.num 1211857565 17)) (.mul (.num 333387912 20) (.rd (.var .T)))))))) (.add (.add (.div (.add (.neg (.num 92514850500000001 17)) (.div (.neg (.num 94683445900000006 13)) (.rd (.var .T)))) (.rd (.var .T))) (.num 66954733499999999 19)) (.mul (.rd (.var .T)) (.add (.neg (.num 19109526966666665 22)) (.mul (.rd (.var .T)) (.add (.num 3057313375 19) (.mul (.neg (.num 20363046000000002 30)) (.rd (.var .T)))))))),
  .ite (.rd (.var .T)) (.num 1000 0) (.arr .dBdT 14) (.add (.add (.div (.add (.num 25795334699999999 16) (.div (.neg (.num 14344085999999999 12)) (.rd (.var .T)))) (.rd (.var .T))) (.neg (.num 30517684 11))) (.mul (.rd (.var .T)) (.add (.num 33893811000000002 23) (.mul (.rd (.var .T)) (.add (.num 226751471 18) (.mul (.neg (.num 18088489979999999 29)) (.rd (.var .T)))))))) (.add (.add (.div (.add (.num 17151856099999998 16) (.div (.neg (.num 141518724 4)) (.rd (.var .T)))) (.rd (.var .T))) (.num 10312637150000001 19)) (.mul (.rd (.var .T)) (.add (.neg (.num 33294192366666671 23)) (.mul (.rd (.var .T)) (.add (.num 57513252 18) (.mul (.neg (.num 40729543200000001 31)) (.rd (.var .T)))))))),
  .ite (.rd (.var .T)) (.num 1000 0) (.arr .dBdT 15) (.add (.add (.div (.add (.num 135677352 8) (.div (.neg (.num 48371969700000001 12)) (.rd (.var .T)))) (.rd (.var .T))) (.num 44922983850000002 19)) (.mul (.rd (.var .T)) (.add (.neg (.num 23745208966666665 22)) (.mul (.rd (.var .T)) (.add (.num 61479755499999995 26) (.mul (.neg (.num 28739909599999997 30)) (.rd (.var .T)))))))) (.add (.add (.div (.add (.num 28574602900000001 16) (.div (.neg (.num 48759165999999997 12)) (.rd (.var .T)))) (.rd (.var .T))) (.num 22071851299999999 19)) (.mul (.rd (.var .T)) (.add (.neg (.num 73827134666666672 23)) (.mul (.rd (.var .T)) (.add (.num 13087254700000001 26) (.mul (.neg (.num 94416832800000002 31)) (.rd (.var .T)))))))),
  .ite (.rd (.var .T)) (.num 1000 0) (.arr .dBdT 16) (.add (.add (.div (.add (.num 32211858400000004 16) (.div (.num 38395649600000002 13) (.rd (.var .T)))) (.rd (.var .T))) (.neg (.num 162196266 11))) (.mul (.rd (.var .T)) (.add (.num 45933148666666667 22) (.mul (.rd (.var .T)) (.add (.neg (.num 33286023250000002 25)) (.mul (.num 86753773 20) (.rd (.var .T)))))))) (.add (.add (.div (.add (.num 177217438 8) (.div (.num 401191815 5) (.rd (.var .T)))) (.rd (.var .T))) (.num 24784776299999998 19)) (.mul (.rd (.var .T)) (.add (.neg (.num 82815204333333337 23)) (.mul (.rd (.var .T)) (.add (.num 14729044450000001 26) (.mul (.neg (.num 1067017422 23)) (.rd (.var .T)))))))),
  .ite (.rd (.var .T)) (.num 1000 0) (.arr .dBdT 17) (.add (.add (.div (.add (.num 37937231499999999 16) (.div (.neg (.num 14308956700000001 12)) (.rd (.var .T)))) (.rd (.var .T))) (.neg (.num 4954166845 12))) (.mul (.rd (.var .T)) (.add (.num 12440666933333332 21) (.mul (.rd (.var .T)) (.add (.neg (.num 94821315249999995 25)) (.mul (.num 26354530400000001 28) (.rd (.var .T)))))))) (.add (.add (.div (.add (.num 76069008000000005 17) (.div (.neg (.num 139958323 4)) (.rd (.var .T)))) (.rd (.var .T))) (.num 460000041 11)) (.mul (.rd (.var .T)) (.add (.neg (.num 14741960433333332 22)) (.mul (.rd (.var .T)) (.add (.num 25160302999999999 26) (.mul (.neg (.num 17677112800000002 30)) (.rd (.var .T)))))))),
  .ite (.rd (.var .T)) (.num 1000 0) (.arr .dBdT 18) (.add (.add (.div (.add (.num 28638891800000001 16) (.div (.neg (.num 31939136699999999 13)) (.rd (.var .T)))) (.rd (.var .T))) (.num 27983615200000002 19)) (.mul (.rd (.var .T)) (.add (.num 19775726366666668 22) (.mul (.rd (.var .T)) (.add (.neg (.num 26133003000000002 25)) (.mul (.num 87393455600000001 29) (.rd (.var .T)))))))) (.add (.add (.div (.add (.num 26926656900000001 16) (.div (.neg (.num 32425062699999999 13)) (.rd (.var .T)))) (.rd (.var .T))) (.num 43228839850000004 19)) (.mul (.rd (.var .T)) (.add (.neg (.num 12503370666666667 22)) (.mul (.rd (.var .T)) (.add (.num 196808659 18) (.mul (.neg (.num 12971084020000001 30)) (.rd (.var .T)))))))),
  .ite (.rd (.var .T)) (.num 1000 0) (.arr .dBdT 19) (.add (.add (.div (.add (.num 1106204 6) (.div (.num 97860109999999997 14) (.rd (.var .T)))) (.rd (.var .T))) (.num 36082975000000001 19)) (.mul (.rd (.var .T)) (.add (.num 17794906666666667 22) (.mul (.rd (.var .T)) (.add (.neg (.num 18444089999999999 25)) (.mul (.num 415122 18) (.rd (.var .T)))))))) (.add (.add (.div (.add (.num 27707989999999998 16) (.div (.num 12783252 5) (.rd (.var .T)))) (.rd (.var .T))) (.num 39357484999999999 19)) (.mul (.rd (.var .T)) (.add (.neg (.num 88546133333333336 23)) (.mul (.rd (.var .T)) (.add (.num 98610774999999998 27) (.mul (.neg (.num 42252319999999999 31)) (.rd (.var .T)))))))),
  .ite (.rd (.var .T)) (.num 1000 0) (.arr .dBdT 20) (.add (.add (.div (.add (.num 47153958200000003 16) (.div (.neg (.num 25642765599999999 12)) (.rd (.var .T)))) (.rd (.var .T))) (.neg (.num 76154564500000004 19))) (.mul (.rd (.var .T)) (.add (.num 21748038500000001 21) (.mul (.rd (.var .T)) (.add (.neg (.num 17770172225 18)) (.mul (.num 52270539599999996 28) (.rd (.var .T)))))))) (.add (.add (.div (.add (.num 78970790999999996 17) (.div (.neg (.num 253748747 4)) (.rd (.var .T)))) (.rd (.var .T))) (.num 70469145999999998 19)) (.mul (.rd (.var .T)) (.add (.neg (.num 21216694499999999 22)) (.mul (.rd (.var .T)) (.add (.num 34542771250000001 26) (.mul (.neg (.num 23412043999999999 30)) (.rd (.var .T)))))))),
  .ite (.rd (.var .T)) (.num 1000 0) (.arr .dBdT 21) (.add (.add (.div (.add (.num 18896573299999999 16) (.div (.num 66839393200000006 12) (.rd (.var .T)))) (.rd (.var .T))) (.num 67049805499999997 19)) (.mul (.rd (.var .T)) (.add (.neg (.num 94923167000000006 22)) (.mul (.rd (.var .T)) (.add (.num 73697761250000002 25) (.mul (.neg (.num 21866302199999998 28)) (.rd (.var .T)))))))) (.add (.add (.div (.add (.num 21678065200000001 16) (.div (.num 67121065000000002 12) (.rd (.var .T)))) (.rd (.var .T))) (.num 23761095100000001 19)) (.mul (.rd (.var .T)) (.add (.neg (.num 61262358999999999 23)) (.mul (.rd (.var .T)) (.add (.num 76047562999999994 27) (.mul (.neg (.num 35446553999999999 31)) (.rd (.var .T)))))))),
  .ite (.rd (.var .T)) (.num 1000 0) (.arr .dBdT 22) (.add (.add (.div (.add (.neg (.num 19131890600000001 17)) (.div (.num 264289807 4) (.rd (.var .T)))) (.rd (.var .T))) (.num 1168078145 11)) (.mul (.rd (.var .T)) (.add (.neg (.num 118390605 13)) (.mul (.rd (.var .T)) (.add (.num 70038109249999999 25) (.mul (.neg (.num 17001459479999999 28)) (.rd (.var .T)))))))) (.add (.add (.div (.add (.num 31475696400000004 16) (.div (.num 25935999199999998 12) (.rd (.var .T)))) (.rd (.var .T))) (.num 298083332 11)) (.mul (.rd (.var .T)) (.add (.neg (.num 79098284000000004 23)) (.mul (.rd (.var .T)) (.add (.num 11685304275000001 26) (.mul (.neg (.num 72247042600000001 31)) (.rd (.var .T)))))))),
  .ite (.rd (.var .T)) (.num 1000 0) (.arr .dBdT 23) (.add (.add (.div (.add (.num 221246645 8) (.div (.num 34859846799999999 12) (.rd (.var .T)))) (.rd (.var .T))) (.num 75739581000000002 20)) (.mul (.rd (.var .T)) (.add (.num 86403137333333327 22) (.mul (.rd (.var .T)) (.add (.neg (.num 8941446175 18)) (.mul (.num 29430174599999999 28) (.rd (.var .T)))))))) (.add (.add (.div (.add (.num 2016724 6) (.div (.num 34612873899999999 12) (.rd (.var .T)))) (.rd (.var .T))) (.num 51651146000000004 19)) (.mul (.rd (.var .T)) (.add (.neg (.num 15602744966666665 22)) (.mul (.rd (.var .T)) (.add (.num 25440821999999998 26) (.mul (.neg (.num 17252140819999999 30)) (.rd (.var .T)))))))),
  .ite (.rd (.var .T)) (.num 1000 0) (.arr .dBdT 24) (.add (.add (.div (.add (.num 29592014799999999 16) (.div (.num 50897759299999998 13) (.rd (.var .T)))) (.rd (.var .T))) (.neg (.num 37852612350000002 19))) (.mul (.rd (.var .T)) (.add (.num 19033009733333333 21) (.mul (.rd (.var .T)) (.add (.neg (.num 17289718825 18)) (.mul (.num 53976874600000004 28) (.rd (.var .T)))))))) (.add (.add (.div (.add (.num 10361111599999999 16) (.div (.num 49398861399999996 13) (.rd (.var .T)))) (.rd (.var .T))) (.num 73227075499999999 19)) (.mul (.rd (.var .T)) (.add (.neg (.num 22369263833333335 22)) (.mul (.rd (.var .T)) (.add (.num 36805730750000002 26) (.mul (.neg (.num 251412122 22)) (.rd (.var .T)))))))),
  .ite (.rd (.var .T)) (.num 1000 0) (.arr .dBdT 25) (.add (.add (.div (.add (.num 33064656799999996 16) (.div (.num 128416265 4) (.rd (.var .T)))) (.rd (.var .T))) (.neg (.num 20932944600000002 19))) (.mul (.rd (.var .T)) (.add (.num 16571426900000001 21) (.mul (.rd (.var .T)) (.add (.neg (.num 14978165149999999 24)) (.mul (.num 46101800800000003 28) (.rd (.var .T)))))))) (.add (.add (.div (.add (.num 95465642000000006 17) (.div (.num 1285752 2) (.rd (.var .T)))) (.rd (.var .T))) (.num 86986361000000005 19)) (.mul (.rd (.var .T)) (.add (.neg (.num 26606888933333333 22)) (.mul (.rd (.var .T)) (.add (.num 43804422250000001 26) (.mul (.neg (.num 29928315199999999 30)) (.rd (.var .T)))))))),
  .ite (.rd (.var .T)) (.num 1000 0) (.arr .dBdT 26) (.add (.add (.div (.add (.num 32914249199999999 16) (.div (.neg (.num 115222055 4)) (.rd (.var .T)))) (.rd (.var .T))) (.neg (.num 27507713499999998 19))) (.mul (.rd (.var .T)) (.add (.num 19981276266666669 21) (.mul (.rd (.var .T)) (.add (.neg (.num 17711657125 18)) (.mul (.num 53737154200000002 28) (.rd (.var .T)))))))) (.add (.add (.div (.add (.num 71881499999999932 18) (.div (.neg (.num 114263932 4)) (.rd (.var .T)))) (.rd (.var .T))) (.num 1084263385 11)) (.mul (.rd (.var .T)) (.add (.neg (.num 33418689 13)) (.mul (.rd (.var .T)) (.add (.num 55353000250000001 26) (.mul (.neg (.num 38000577999999999 30)) (.rd (.var .T)))))))),
  .ite (.rd (.var .T)) (.num 1000 0) (.arr .dBdT 27) (.add (.add (.div (.add (.num 12517214000000001 16) (.div (.num 20059449000000001 12) (.rd (.var .T)))) (.rd (.var .T))) (.num 88275105 10)) (.mul (.rd (.var .T)) (.add (.neg (.num 7909700333333333 21)) (.mul (.rd (.var .T)) (.add (.num 43189397500000003 25) (.mul (.neg (.num 10132962200000001 28)) (.rd (.var .T)))))))) (.add (.add (.div (.add (.num 46282057999999999 16) (.div (.num 19327215 3) (.rd (.var .T)))) (.rd (.var .T))) (.num 20426700500000001 19)) (.mul (.rd (.var .T)) (.add (.neg (.num 53115156666666666 23)) (.mul (.rd (.var .T)) (.add (.num 71565129999999998 27) (.mul (.neg (.num 38815663999999995 31)) (.rd (.var .T)))))))),
  .ite (.rd (.var .T)) (.num 1000 0) (.arr .dBdT 28) (.add (.add (.div (.add (.num 11358362999999998 16) (.div (.neg (.num 70429180399999996 13)) (.rd (.var .T)))) (.rd (.var .T))) (.num 90594360499999995 19)) (.mul (.rd (.var .T)) (.add (.neg (.num 57982491333333329 22)) (.mul (.rd (.var .T)) (.add (.num 233599392 17) (.mul (.neg (.num 40291522999999998 29)) (.rd (.var .T)))))))) (.add (.add (.div (.add (.num 35112973199999997 16) (.div (.neg (.num 75510531099999998 13)) (.rd (.var .T)))) (.rd (.var .T))) (.num 45017987249999997 19)) (.mul (.rd (.var .T)) (.add (.neg (.num 13897987833333332 22)) (.mul (.rd (.var .T)) (.add (.num 23083647049999999 26) (.mul (.neg (.num 15896764019999999 30)) (.rd (.var .T)))))))),
  .ite (.rd (.var .T)) (.num 1000 0) (.arr .dBdT 29) (.add (.add (.div (.add (.num 2423732999999999 16) (.div (.num 80316143000000002 13) (.rd (.var .T)))) (.rd (.var .T))) (.num 155361005 10)) (.mul (.rd (.var .T)) (.add (.neg (.num 16955621333333335 21)) (.mul (.rd (.var .T)) (.add (.num 10784282750000001 24) (.mul (.neg (.num 28029188000000001 28)) (.rd (.var .T)))))))) (.add (.add (.div (.add (.num 49238290999999998 16) (.div (.num 72646260000000002 13) (.rd (.var .T)))) (.rd (.var .T))) (.num 33961799999999999 19)) (.mul (.rd (.var .T)) (.add (.neg (.num 8552854666666667 22)) (.mul (.rd (.var .T)) (.add (.num 1124696025 19) (.mul (.neg (.num 59880201999999998 31)) (.rd (.var .T)))))))),
  .ite (.rd (.var .T)) (.num 1000 0) (.arr .dBdT 30) (.add (.add (.div (.add (.num 15 1) (.div (.num 56104637000000002 12) (.rd (.var .T)))) (.rd (.var .T))) (.num 0 0)) (.mul (.rd (.var .T)) (.add (.num 0 0) (.mul (.rd (.var .T)) (.add (.num 0 0) (.mul (.num 0 0) (.rd (.var .T)))))))) (.add (.add (.div (.add (.num 14159429000000001 16) (.div (.num 56133773000000001 12) (.rd (.var .T)))) (.rd (.var .T))) (.num 87445325000000003 21)) (.mul (.rd (.var .T)) (.add (.neg (.num 39674563333333332 24)) (.mul (.rd (.var .T)) (.add (.num 75565612499999998 28) (.mul (.neg (.num 40721964 23)) (.rd (.var .T)))))))),
  .ite (.rd (.var .T)) (.num 1000 0) (.arr .dBdT 31) (.add (.add (.div (.add (.num 24929085 7) (.div (.num 41880629000000001 12) (.rd (.var .T)))) (.rd (.var .T))) (.num 15589599 11)) (.mul (.rd (.var .T)) (.add (.neg (.num 49634946666666669 23)) (.mul (.rd (.var .T)) (.add (.num 62041104999999995 26) (.mul (.neg (.num 20713934000000001 29)) (.rd (.var .T)))))))) (.add (.add (.div (.add (.num 17836927999999999 16) (.div (.num 42120847999999998 12) (.rd (.var .T)))) (.rd (.var .T))) (.num 66492150000000002 20)) (.mul (.rd (.var .T)) (.add (.neg (.num 14159348999999999 23)) (.mul (.rd (.var .T)) (.add (.num 1958712525 20) (.mul (.neg (.num 11008894000000001 31)) (.rd (.var .T)))))))),
  .ite (.rd (.var .T)) (.num 1000 0) (.arr .dBdT 32) (.add (.add (.div (.add (.num 32040028999999999 16) (.div (.num 2188591 2) (.rd (.var .T)))) (.rd (.var .T))) (.neg (.num 10530692500000001 19))) (.mul (.rd (.var .T)) (.add (.num 23689449333333334 22) (.mul (.rd (.var .T)) (.add (.neg (.num 1402879925 18)) (.mul (.num 32881433999999999 29) (.rd (.var .T)))))))) (.add (.add (.div (.add (.num 18347421000000002 16) (.div (.num 22171956999999999 12) (.rd (.var .T)))) (.rd (.var .T))) (.num 16036541 10)) (.mul (.rd (.var .T)) (.add (.neg (.num 31130268000000002 23)) (.mul (.rd (.var .T)) (.add (.num 34257382499999998 27) (.mul (.neg (.num 15841228800000001 31)) (.rd (.var .T)))))))),
  .ite (.rd (.var .T)) (.num 1000 0) (.arr .dBdT 33) (.add (.add (.div (.add (.num 32860274 7) (.div (.neg (.num 67417285000000002 13)) (.rd (.var .T)))) (.rd (.var .T))) (.neg (.num 23302614999999999 19))) (.mul (.rd (.var .T)) (.add (.num 7239504333333334 21) (.mul (.rd (.var .T)) (.add (.neg (.num 57022217499999999 25)) (.mul (.num 165276092 20) (.rd (.var .T)))))))) (.add (.add (.div (.add (.num 16344520999999999 16) (.div (.neg (.num 65446958000000004 13)) (.rd (.var .T)))) (.rd (.var .T))) (.num 28331279999999999 19)) (.mul (.rd (.var .T)) (.add (.neg (.num 57595586666666667 23)) (.mul (.rd (.var .T)) (.add (.num 596679025 19) (.mul (.neg (.num 25157571999999998 31)) (.rd (.var .T)))))))),
  .ite (.rd (.var .T)) (.num 1000 0) (.arr .dBdT 34) (.add (.add (.div (.add (.num 33446927000000004 16) (.div (.num 28791973000000002 12) (.rd (.var .T)))) (.rd (.var .T))) (.neg (.num 24248536 10))) (.mul (.rd (.var .T)) (.add (.num 66864863333333334 22) (.mul (.rd (.var .T)) (.add (.neg (.num 54316160000000003 25)) (.mul (.num 158939078 20) (.rd (.var .T)))))))) (.add (.add (.div (.add (.num 27667543999999999 16) (.div (.num 28650697 3) (.rd (.var .T)))) (.rd (.var .T))) (.num 14457541000000001 19)) (.mul (.rd (.var .T)) (.add (.neg (.num 34722066666666664 23)) (.mul (.rd (.var .T)) (.add (.num 42106484999999997 27) (.mul (.neg (.num 20183792 22)) (.rd (.var .T)))))))),
  .ite (.rd (.var .T)) (.num 1000 0) (.arr .dBdT 35) (.add (.add (.div (.add (.num 32184762999999998 16) (.div (.num 98446229999999996 13) (.rd (.var .T)))) (.rd (.var .T))) (.neg (.num 23194880000000002 19))) (.mul (.rd (.var .T)) (.add (.num 36803406666666667 22) (.mul (.rd (.var .T)) (.add (.neg (.num 233403385 17)) (.mul (.num 56071540000000003 29) (.rd (.var .T)))))))) (.add (.add (.div (.add (.num 22606055999999999 16) (.div (.num 99209745999999996 13) (.rd (.var .T)))) (.rd (.var .T))) (.num 59555215 11)) (.mul (.rd (.var .T)) (.add (.neg (.num 14305682666666666 23)) (.mul (.rd (.var .T)) (.add (.num 17364417250000001 27) (.mul (.neg (.num 80672197999999996 32)) (.rd (.var .T)))))))),
  .ite (.rd (.var .T)) (.num 1000 0) (.arr .dBdT 36) (.add (.add (.div (.add (.num 29440312 7) (.div (.num 28966179000000002 13) (.rd (.var .T)))) (.rd (.var .T))) (.neg (.num 79271449999999998 20))) (.mul (.rd (.var .T)) (.add (.num 55526040000000001 22) (.mul (.rd (.var .T)) (.add (.neg (.num 51188565 16)) (.mul (.num 156701128 20) (.rd (.var .T)))))))) (.add (.add (.div (.add (.num 38847541999999997 16) (.div (.num 23164983000000002 13) (.rd (.var .T)))) (.rd (.var .T))) (.num 10861978 10)) (.mul (.rd (.var .T)) (.add (.neg (.num 27602302 14)) (.mul (.rd (.var .T)) (.add (.num 39368774999999999 27) (.mul (.neg (.num 2102179 21)) (.rd (.var .T)))))))),
  .ite (.rd (.var .T)) (.num 1000 0) (.arr .dBdT 37) (.add (.add (.div (.add (.num 12571501999999999 16) (.div (.num 87417744000000002 13) (.rd (.var .T)))) (.rd (.var .T))) (.num 5652364 9)) (.mul (.rd (.var .T)) (.add (.neg (.num 45571063333333328 22)) (.mul (.rd (.var .T)) (.add (.num 24204951500000002 25) (.mul (.neg (.num 58614363999999997 29)) (.rd (.var .T)))))))) (.add (.add (.div (.add (.num 38230728999999997 16) (.div (.num 80734048000000003 13) (.rd (.var .T)))) (.rd (.var .T))) (.num 13135125499999999 19)) (.mul (.rd (.var .T)) (.add (.neg (.num 3195029133333333 22)) (.mul (.rd (.var .T)) (.add (.num 40001779999999998 27) (.mul (.neg (.num 195504606 23)) (.rd (.var .T)))))))),
  .ite (.rd (.var .T)) (.num 1000 0) (.arr .dBdT 38) (.add (.add (.div (.add (.num 35334915999999996 16) (.div (.num 11548297 3) (.rd (.var .T)))) (.rd (.var .T))) (.neg (.num 28348085499999998 19))) (.mul (.rd (.var .T)) (.add (.num 61577356666666665 22) (.mul (.rd (.var .T)) (.add (.neg (.num 42842735 16)) (.mul (.num 110909146 20) (.rd (.var .T)))))))) (.add (.add (.div (.add (.num 19792508999999998 16) (.div (.num 11750582 3) (.rd (.var .T)))) (.rd (.var .T))) (.num 17472029500000001 19)) (.mul (.rd (.var .T)) (.add (.neg (.num 26183259333333334 23)) (.mul (.rd (.var .T)) (.add (.num 14369898500000001 27) (.mul (.neg (.num 38671832000000001 33)) (.rd (.var .T)))))))),
  .ite (.rd (.var .T)) (.num 1000 0) (.arr .dBdT 39) (.add (.add (.div (.add (.num 26129351000000001 16) (.div (.num 51708339999999997 12) (.rd (.var .T)))) (.rd (.var .T))) (.neg (.num 47775663499999998 20))) (.mul (.rd (.var .T)) (.add (.num 71476589999999999 23) (.mul (.rd (.var .T)) (.add (.neg (.num 78790807499999998 27)) (.mul (.neg (.num 92860711999999993 30)) (.rd (.var .T)))))))) (.add (.add (.div (.add (.num 27459804999999999 16) (.div (.num 51536188000000002 12) (.rd (.var .T)))) (.rd (.var .T))) (.num 217253875 13)) (.mul (.rd (.var .T)) (.add (.num 99019946666666663 24) (.mul (.rd (.var .T)) (.add (.neg (.num 171629515 19)) (.mul (.num 88268346000000005 32) (.rd (.var .T)))))))),
  .ite (.rd (.var .T)) (.num 1000 0) (.arr .dBdT 40) (.add (.add (.div (.add (.num 12589885999999999 16) (.div (.num 14712633 3) (.rd (.var .T)))) (.rd (.var .T))) (.num 50255849999999999 19)) (.mul (.rd (.var .T)) (.add (.neg (.num 44505876666666668 22)) (.mul (.rd (.var .T)) (.add (.num 25230872500000002 25) (.mul (.neg (.num 60178055999999999 29)) (.rd (.var .T)))))))) (.add (.add (.div (.add (.num 28022391999999998 16) (.div (.num 14407291999999999 12) (.rd (.var .T)))) (.rd (.var .T))) (.num 15732114000000001 19)) (.mul (.rd (.var .T)) (.add (.neg (.num 35440616666666668 23)) (.mul (.rd (.var .T)) (.add (.num 41549392500000003 27) (.mul (.neg (.num 19599514 22)) (.rd (.var .T)))))))),
  .ite (.rd (.var .T)) (.num 1000 0) (.arr .dBdT 41) (.add (.add (.div (.add (.num 1851661 6) (.div (.num 2863782 2) (.rd (.var .T)))) (.rd (.var .T))) (.num 28476165499999998 19)) (.mul (.rd (.var .T)) (.add (.num 35704666666666666 23) (.mul (.rd (.var .T)) (.add (.neg (.num 40565300000000002 26)) (.mul (.neg (.num 47022162 21)) (.rd (.var .T)))))))) (.add (.add (.div (.add (.num 42097030000000002 16) (.div (.num 27677109 3) (.rd (.var .T)))) (.rd (.var .T))) (.num 14846455499999999 19)) (.mul (.rd (.var .T)) (.add (.neg (.num 95186303333333329 24)) (.mul (.rd (.var .T)) (.add (.neg (.num 40888750000000003 27)) (.mul (.num 60865177999999998 31) (.rd (.var .T)))))))),
  .ite (.rd (.var .T)) (.num 1000 0) (.arr .dBdT 42) (.add (.add (.div (.add (.num 15243194 7) (.div (.num 54261983999999997 12) (.rd (.var .T)))) (.rd (.var .T))) (.num 79803094999999994 19)) (.mul (.rd (.var .T)) (.add (.neg (.num 62721179999999997 22)) (.mul (.rd (.var .T)) (.add (.num 30313849999999999 25) (.mul (.neg (.num 64714756000000001 29)) (.rd (.var .T)))))))) (.add (.add (.div (.add (.num 48946361999999999 16) (.div (.num 53452940999999999 12) (.rd (.var .T)))) (.rd (.var .T))) (.num 19947979500000001 19)) (.mul (.rd (.var .T)) (.add (.neg (.num 532746 12)) (.mul (.rd (.var .T)) (.add (.num 73123487500000002 27) (.mul (.neg (.num 40189372000000003 31)) (.rd (.var .T)))))))),
  .ite (.rd (.var .T)) (.num 1000 0) (.arr .dBdT 46) (.add (.add (.div (.add (.num 18269308 7) (.div (.num 14682477000000001 12) (.rd (.var .T)))) (.rd (.var .T))) (.num 44025844000000003 19)) (.mul (.rd (.var .T)) (.add (.neg (.num 27955378000000001 22)) (.mul (.rd (.var .T)) (.add (.num 12004240999999999 25) (.mul (.neg (.num 26627190000000002 29)) (.rd (.var .T)))))))) (.add (.add (.div (.add (.num 41521844999999997 16) (.div (.num 14004123 3) (.rd (.var .T)))) (.rd (.var .T))) (.num 115258805 11)) (.mul (.rd (.var .T)) (.add (.neg (.num 29344384333333333 23)) (.mul (.rd (.var .T)) (.add (.num 36972744999999997 27) (.mul (.neg (.num 18195599199999999 31)) (.rd (.var .T)))))))),
  .ite (.rd (.var .T)) (.num 1000 0) (.arr .dBdT 47) (.add (.add (.div (.add (.num 15 1) (.div (.neg (.num 745375 3)) (.rd (.var .T)))) (.rd (.var .T))) (.num 0 0)) (.mul (.rd (.var .T)) (.add (.num 0 0) (.mul (.rd (.var .T)) (.add (.num 0 0) (.mul (.num 0 0) (.rd (.var .T)))))))) (.add (.add (.div (.add (.num 15 1) (.div (.neg (.num 745375 3)) (.rd (.var .T)))) (.rd (.var .T))) (.num 0 0)) (.mul (.rd (.var .T)) (.add (.num 0 0) (.mul (.rd (.var .T)) (.add (.num 0 0) (.mul (.num 0 0) (.rd (.var .T)))))))),
  .ite (.rd (.var .T)) (.num 1000 0) (.arr .dBdT 48) (.add (.add (.div (.add (.num 51551799999999925 18) (.div (.num 10631862999999999 12) (.rd (.var .T)))) (.rd (.var .T))) (.num 12995990000000001 18)) (.mul (.rd (.var .T)) (.add (.num 79335133333333326 23) (.mul (.rd (.var .T)) (.add (.neg (.num 490239225 17)) (.mul (.num 18746494 19) (.rd (.var .T)))))))) (.add (.add (.div (.add (.num 67026987 7) (.div (.num 82984336000000003 13) (.rd (.var .T)))) (.rd (.var .T))) (.num 80221015 10)) (.mul (.rd (.var .T)) (.add (.neg (.num 17611073333333333 22)) (.mul (.rd (.var .T)) (.add (.num 190746475 18) (.mul (.neg (.num 78784568000000004 31)) (.rd (.var .T)))))))),
  .ite (.rd (.var .T)) (.num 1000 0) (.arr .dBdT 49) (.add (.add (.div (.add (.neg (.num 66446189999999961 18)) (.div (.neg (.num 1395852 2)) (.rd (.var .T)))) (.rd (.var .T))) (.num 132122895 10)) (.mul (.rd (.var .T)) (.add (.num 20353242333333332 22) (.mul (.rd (.var .T)) (.add (.neg (.num 54943747499999998 25)) (.mul (.num 19029850599999998 28) (.rd (.var .T)))))))) (.add (.add (.div (.add (.num 65341367999999997 16) (.div (.neg (.num 16467516 3)) (.rd (.var .T)))) (.rd (.var .T))) (.num 94361194999999995 19)) (.mul (.rd (.var .T)) (.add (.neg (.num 20906163666666664 22)) (.mul (.rd (.var .T)) (.add (.num 22868912250000001 26) (.mul (.neg (.num 9567613800000001 30)) (.rd (.var .T)))))))),
  .ite (.rd (.var .T)) (.num 1000 0) (.arr .dBdT 50) (.add (.add (.div (.add (.num 2409062 6) (.div (.num 15214766 4) (.rd (.var .T)))) (.rd (.var .T))) (.num 53692870000000004 19)) (.mul (.rd (.var .T)) (.add (.num 6304973333333333 22) (.mul (.rd (.var .T)) (.add (.neg (.num 178964575 17)) (.mul (.num 57347699999999998 29) (.rd (.var .T)))))))) (.add (.add (.div (.add (.num 497567 5) (.div (.num 4903218 4) (.rd (.var .T)))) (.rd (.var .T))) (.num 40652954999999998 19)) (.mul (.rd (.var .T)) (.add (.neg (.num 91454133333333341 23)) (.mul (.rd (.var .T)) (.add (.num 1017576 16) (.mul (.neg (.num 43520339999999999 31)) (.rd (.var .T)))))))),
  .ite (.rd (.var .T)) (.num 1000 0) (.arr .dBdT 51) (.add (.add (.div (.add (.num 37294594999999999 16) (.div (.neg (.num 21572878000000001 12)) (.rd (.var .T)))) (.rd (.var .T))) (.neg (.num 15966429 10))) (.mul (.rd (.var .T)) (.add (.num 15844973666666667 21) (.mul (.rd (.var .T)) (.add (.neg (.num 14364652749999999 24)) (.mul (.num 43862224 19) (.rd (.var .T)))))))) (.add (.add (.div (.add (.num 44041107999999998 16) (.div (.neg (.num 22593121999999999 12)) (.rd (.var .T)))) (.rd (.var .T))) (.num 58615294999999996 19)) (.mul (.rd (.var .T)) (.add (.neg (.num 14087712333333332 22)) (.mul (.rd (.var .T)) (.add (.num 17093112750000001 26) (.mul (.neg (.num 81969725999999999 31)) (.rd (.var .T)))))))),
  .ite (.rd (.var .T)) (.num 1000 0) (.arr .dBdT 52) (.add (.add (.div (.add (.num 22986770000000001 16) (.div (.neg (.num 10208999 4)) (.rd (.var .T)))) (.rd (.var .T))) (.num 70412019999999999 20)) (.mul (.rd (.var .T)) (.add (.neg (.num 13210739999999999 22)) (.mul (.rd (.var .T)) (.add (.num 14103787500000001 25) (.mul (.neg (.num 48897079999999994 29)) (.rd (.var .T)))))))) (.add (.add (.div (.add (.num 19266399999999999 16) (.div (.neg (.num 92279769999999996 14)) (.rd (.var .T)))) (.rd (.var .T))) (.num 74398840000000003 20)) (.mul (.rd (.var .T)) (.add (.neg (.num 18949200000000001 23)) (.mul (.rd (.var .T)) (.add (.num 25242595 18) (.mul (.neg (.num 13506701999999999 31)) (.rd (.var .T)))))))),
  .ite (.rd (.var .T)) (.num 1368 0) (.arr .dBdT 44) (.add (.add (.div (.add (.num 27860495200000002 16) (.div (.neg (.num 28269839999999999 13)) (.rd (.var .T)))) (.rd (.var .T))) (.num 34433396099999999 19)) (.mul (.rd (.var .T)) (.add (.neg (.num 10716262133333332 22)) (.mul (.rd (.var .T)) (.add (.num 12929894174999999 26) (.mul (.num 23872157600000001 31) (.rd (.var .T)))))))) (.add (.add (.div (.add (.num 48978488499999999 16) (.div (.neg (.num 37065333099999998 13)) (.rd (.var .T)))) (.rd (.var .T))) (.num 1583946965 12)) (.mul (.rd (.var .T)) (.add (.neg (.num 37267021333333335 23)) (.mul (.rd (.var .T)) (.add (.num 44310786000000001 27) (.mul (.neg (.num 20867835399999997 31)) (.rd (.var .T)))))))),
  .ite (.rd (.var .T)) (.num 1382 0) (.arr .dBdT 43) (.add (.add (.div (.add (.num 16472798900000001 16) (.div (.num 192990252 4) (.rd (.var .T)))) (.rd (.var .T))) (.num 63752671 10)) (.mul (.rd (.var .T)) (.add (.neg (.num 34931411999999996 22)) (.mul (.rd (.var .T)) (.add (.num 110358209 17) (.mul (.neg (.num 15150429320000001 29)) (.rd (.var .T)))))))) (.add (.add (.div (.add (.num 55986045600000001 16) (.div (.num 17966133900000001 12) (.rd (.var .T)))) (.rd (.var .T))) (.num 151389313 11)) (.mul (.rd (.var .T)) (.add (.neg (.num 35901448666666666 23)) (.mul (.rd (.var .T)) (.add (.num 42916632 18) (.mul (.neg (.num 202878782 23)) (.rd (.var .T)))))))),
  .ite (.rd (.var .T)) (.num 1478 0) (.arr .dBdT 45) (.add (.add (.div (.add (.num 26309631699999998 16) (.div (.neg (.num 15587363600000001 12)) (.rd (.var .T)))) (.rd (.var .T))) (.num 36514117850000001 19)) (.mul (.rd (.var .T)) (.add (.neg (.num 76016667666666667 23)) (.mul (.rd (.var .T)) (.add (.neg (.num 16531782450000001 26)) (.mul (.num 72447150399999992 30) (.rd (.var .T)))))))) (.add (.add (.div (.add (.num 52239513400000002 16) (.div (.neg (.num 16659934399999998 12)) (.rd (.var .T)))) (.rd (.var .T))) (.num 15893200200000001 19)) (.mul (.rd (.var .T)) (.add (.neg (.num 36459585 14)) (.mul (.rd (.var .T)) (.add (.num 42683790750000001 27) (.mul (.neg (.num 199004391 23)) (.rd (.var .T))))))))]

/-- `cp_avg`, `jac[0]` and `working_temp`, utilities/mechanisms/gri30/lib/src/jacob.c:175-189 -/
def jacobCpAvg : List CStmt := [
  .set (.var .cpAvg) (.add (.add (.add (.add (.add (.add (.add (.add (.add (.add (.add (.add (.add (.add (.add (.add (.add (.add (.add (.add (.add (.add (.add (.add (.add (.add (.add (.add (.add (.add (.add (.add (.add (.add (.add (.add (.add (.add (.add (.add (.add (.add (.add (.add (.add (.add (.add (.add (.add (.add (.add (.add (.mul (.rd (.arr .y 1)) (.rd (.arr .cp 0))) (.mul (.rd (.arr .y 2)) (.rd (.arr .cp 1)))) (.mul (.rd (.arr .y 3)) (.rd (.arr .cp 2)))) (.mul (.rd (.arr .y 4)) (.rd (.arr .cp 3)))) (.mul (.rd (.arr .y 5)) (.rd (.arr .cp 4)))) (.mul (.rd (.arr .y 6)) (.rd (.arr .cp 5)))) (.mul (.rd (.arr .y 7)) (.rd (.arr .cp 6)))) (.mul (.rd (.arr .y 8)) (.rd (.arr .cp 7)))) (.mul (.rd (.arr .y 9)) (.rd (.arr .cp 8)))) (.mul (.rd (.arr .y 10)) (.rd (.arr .cp 9)))) (.mul (.rd (.arr .y 11)) (.rd (.arr .cp 10)))) (.mul (.rd (.arr .y 12)) (.rd (.arr .cp 11)))) (.mul (.rd (.arr .y 13)) (.rd (.arr .cp 12)))) (.mul (.rd (.arr .y 14)) (.rd (.arr .cp 13)))) (.mul (.rd (.arr .y 15)) (.rd (.arr .cp 14)))) (.mul (.rd (.arr .y 16)) (.rd (.arr .cp 15)))) (.mul (.rd (.arr .y 17)) (.rd (.arr .cp 16)))) (.mul (.rd (.arr .y 18)) (.rd (.arr .cp 17)))) (.mul (.rd (.arr .y 19)) (.rd (.arr .cp 18)))) (.mul (.rd (.arr .y 20)) (.rd (.arr .cp 19)))) (.mul (.rd (.arr .y 21)) (.rd (.arr .cp 20)))) (.mul (.rd (.arr .y 22)) (.rd (.arr .cp 21)))) (.mul (.rd (.arr .y 23)) (.rd (.arr .cp 22)))) (.mul (.rd (.arr .y 24)) (.rd (.arr .cp 23)))) (.mul (.rd (.arr .y 25)) (.rd (.arr .cp 24)))) (.mul (.rd (.arr .y 26)) (.rd (.arr .cp 25)))) (.mul (.rd (.arr .y 27)) (.rd (.arr .cp 26)))) (.mul (.rd (.arr .y 28)) (.rd (.arr .cp 27)))) (.mul (.rd (.arr .y 29)) (.rd (.arr .cp 28)))) (.mul (.rd (.arr .y 30)) (.rd (.arr .cp 29)))) (.mul (.rd (.arr .y 31)) (.rd (.arr .cp 30)))) (.mul (.rd (.arr .y 32)) (.rd (.arr .cp 31)))) (.mul (.rd (.arr .y 33)) (.rd (.arr .cp 32)))) (.mul (.rd (.arr .y 34)) (.rd (.arr .cp 33)))) (.mul (.rd (.arr .y 35)) (.rd (.arr .cp 34)))) (.mul (.rd (.arr .y 36)) (.rd (.arr .cp 35)))) (.mul (.rd (.arr .y 37)) (.rd (.arr .cp 36)))) (.mul (.rd (.arr .y 38)) (.rd (.arr .cp 37)))) (.mul (.rd (.arr .y 39)) (.rd (.arr .cp 38)))) (.mul (.rd (.arr .y 40)) (.rd (.arr .cp 39)))) (.mul (.rd (.arr .y 41)) (.rd (.arr .cp 40)))) (.mul (.rd (.arr .y 42)) (.rd (.arr .cp 41)))) (.mul (.rd (.arr .y 43)) (.rd (.arr .cp 42)))) (.mul (.rd (.arr .y 44)) (.rd (.arr .cp 43)))) (.mul (.rd (.arr .y 45)) (.rd (.arr .cp 44)))) (.mul (.rd (.arr .y 46)) (.rd (.arr .cp 45)))) (.mul (.rd (.arr .y 47)) (.rd (.arr .cp 46)))) (.mul (.rd (.arr .y 48)) (.rd (.arr .cp 47)))) (.mul (.rd (.arr .y 49)) (.rd (.arr .cp 48)))) (.mul (.rd (.arr .y 50)) (.rd (.arr .cp 49)))) (.mul (.rd (.arr .y 51)) (.rd (.arr .cp 50)))) (.mul (.rd (.arr .y 52)) (.rd (.arr .cp 51)))) (.mul (.rd (.var .yN)) (.rd (.arr .cp 52)))),
  .set (.arr .jac 0) (.num 0 0),
  .set (.var .workTemp) (.num 0 0)]

/-- `working_temp` and `jac[0]`, utilities/mechanisms/gri30/lib/src/jacob.c:194-370 -/
def jacobLast : List CStmt := [
  .ite (.rd (.var .T)) (.num 1000 0) (.var .workTemp) (.add (.add (.add (.add (.add (.add (.add (.add (.add (.add (.add (.add (.add (.add (.add (.add (.add (.add (.add (.add (.add (.add (.add (.add (.add (.add (.add (.add (.add (.add (.add (.add (.add (.add (.add (.add (.add (.add (.add (.add (.add (.add (.add (.add (.add (.add (.add (.add (.add (.mul (.mul (.rd (.arr .y 1)) (.num 41244826576978785 13)) (.add (.num 79805207499999992 19) (.mul (.rd (.var .T)) (.add (.neg (.num 38956301999999997 21)) (.mul (.rd (.var .T)) (.add (.num 60471628200000004 24) (.mul (.neg (.num 29504470440000002 27)) (.rd (.var .T))))))))) (.mul (.mul (.rd (.arr .y 2)) (.num 8248965315395757 12)) (.add (.num 70533281899999999 29) (.mul (.rd (.var .T)) (.add (.neg (.num 39918392799999999 31)) (.mul (.rd (.var .T)) (.add (.num 69024489599999992 34) (.mul (.neg (.num 37109293280000002 37)) (.rd (.var .T)))))))))) (.mul (.mul (.rd (.arr .y 3)) (.num 51967336900133762 14)) (.add (.neg (.num 32793188399999999 19)) (.mul (.rd (.var .T)) (.add (.num 13286127919999999 21) (.mul (.rd (.var .T)) (.add (.neg (.num 1838419872 17)) (.mul (.num 84506388399999997 28) (.rd (.var .T)))))))))) (.mul (.mul (.rd (.arr .y 4)) (.num 25983668450066881 14)) (.add (.neg (.num 29967341599999998 19)) (.mul (.rd (.var .T)) (.add (.num 1969460402 14) (.mul (.rd (.var .T)) (.add (.neg (.num 29043885270000002 24)) (.mul (.num 1297491348 20) (.rd (.var .T)))))))))) (.mul (.mul (.rd (.arr .y 5)) (.num 48887492694330808 14)) (.add (.neg (.num 24013175200000001 19)) (.mul (.rd (.var .T)) (.add (.num 92358768199999993 22) (.mul (.rd (.var .T)) (.add (.neg (.num 11643399990000001 24)) (.mul (.num 54564588000000001 28) (.rd (.var .T)))))))))) (.mul (.mul (.rd (.arr .y 6)) (.num 4615227795515807 13)) (.add (.neg (.num 20364341000000002 19)) (.mul (.rd (.var .T)) (.add (.num 13040804219999999 21) (.mul (.rd (.var .T)) (.add (.neg (.num 16463911860000002 24)) (.mul (.num 708791268 20) (.rd (.var .T)))))))))) (.mul (.mul (.rd (.arr .y 7)) (.num 25190194790518544 14)) (.add (.neg (.num 47491205099999996 19)) (.mul (.rd (.var .T)) (.add (.num 42316578199999997 21) (.mul (.rd (.var .T)) (.add (.neg (.num 72829168200000001 24)) (.mul (.num 37169004960000001 27) (.rd (.var .T)))))))))) (.mul (.mul (.rd (.arr .y 8)) (.num 24443746347165404 14)) (.add (.neg (.num 54282241699999995 20)) (.mul (.rd (.var .T)) (.add (.num 33467140200000003 21) (.mul (.rd (.var .T)) (.add (.neg (.num 64731243900000002 24)) (.mul (.num 34498174519999999 27) (.rd (.var .T)))))))))) (.mul (.mul (.rd (.arr .y 9)) (.num 6922372908167514 13)) (.add (.neg (.num 32153772399999997 20)) (.mul (.rd (.var .T)) (.add (.num 146758449 14) (.mul (.rd (.var .T)) (.add (.neg (.num 2196704667 18)) (.mul (.num 10660857840000001 28) (.rd (.var .T)))))))))) (.mul (.mul (.rd (.arr .y 10)) (.num 6386435531617783 13)) (.add (.num 32383554100000003 20) (.mul (.rd (.var .T)) (.add (.neg (.num 33779813 13)) (.mul (.rd (.var .T)) (.add (.num 94865198099999998 25) (.mul (.neg (.num 56243626800000003 28)) (.rd (.var .T)))))))))) (.mul (.mul (.rd (.arr .y 11)) (.num 59275206603321635 14)) (.add (.num 96887214300000004 20) (.mul (.rd (.var .T)) (.add (.num 55897968200000002 22) (.mul (.rd (.var .T)) (.add (.neg (.num 11552734590000001 24)) (.mul (.num 674966876 20) (.rd (.var .T)))))))))) (.mul (.mul (.rd (.arr .y 12)) (.num 59275206603321635 14)) (.add (.neg (.num 23666141900000001 19)) (.mul (.rd (.var .T)) (.add (.num 164659244 13) (.mul (.rd (.var .T)) (.add (.neg (.num 20064479430000002 24)) (.mul (.num 77725894800000005 28) (.rd (.var .T)))))))))) (.mul (.mul (.rd (.arr .y 13)) (.num 55301374409537334 14)) (.add (.num 201095175 11) (.mul (.rd (.var .T)) (.add (.num 1146043712 14) (.mul (.rd (.var .T)) (.add (.neg (.num 20613522750000001 24)) (.mul (.num 1017542936 20) (.rd (.var .T)))))))))) (.mul (.mul (.rd (.arr .y 14)) (.num 5182688078609915 13)) (.add (.neg (.num 13670978800000001 18)) (.mul (.rd (.var .T)) (.add (.num 98360119799999999 21) (.mul (.rd (.var .T)) (.add (.neg (.num 14542290780000001 23)) (.mul (.num 66677582399999996 27) (.rd (.var .T)))))))))) (.mul (.mul (.rd (.arr .y 15)) (.num 29683482206608977 14)) (.add (.neg (.num 61035368 11)) (.mul (.rd (.var .T)) (.add (.num 20336286600000001 22) (.mul (.rd (.var .T)) (.add (.num 27210176520000001 25) (.mul (.neg (.num 3617697996 21)) (.rd (.var .T)))))))))) (.mul (.mul (.rd (.arr .y 16)) (.num 18892296942953618 14)) (.add (.num 89845967700000005 19) (.mul (.rd (.var .T)) (.add (.neg (.num 1424712538 14)) (.mul (.rd (.var .T)) (.add (.num 73775706599999994 25) (.mul (.neg (.num 57479819199999996 29)) (.rd (.var .T)))))))))) (.mul (.mul (.rd (.arr .y 17)) (.num 2865243876803429 13)) (.add (.neg (.num 324392532 11)) (.mul (.rd (.var .T)) (.add (.num 275598892 13) (.mul (.rd (.var .T)) (.add (.neg (.num 39943227900000001 24)) (.mul (.num 173507546 19) (.rd (.var .T)))))))))) (.mul (.mul (.rd (.arr .y 18)) (.num 2769061668644934 13)) (.add (.neg (.num 99083336899999999 19)) (.mul (.rd (.var .T)) (.add (.num 74644001599999998 21) (.mul (.rd (.var .T)) (.add (.neg (.num 1137855783 16)) (.mul (.num 52709060799999999 27) (.rd (.var .T)))))))))) (.mul (.mul (.rd (.arr .y 19)) (.num 26791271377208773 14)) (.add (.num 55967230400000003 19) (.mul (.rd (.var .T)) (.add (.num 1186543582 14) (.mul (.rd (.var .T)) (.add (.neg (.num 31359603600000004 24)) (.mul (.num 17478691120000001 27) (.rd (.var .T)))))))))) (.mul (.mul (.rd (.arr .y 20)) (.num 26791271377208773 14)) (.add (.num 72165950000000001 19) (.mul (.rd (.var .T)) (.add (.num 10676944 12) (.mul (.rd (.var .T)) (.add (.neg (.num 22132908000000001 24)) (.mul (.num 83024399999999995 28) (.rd (.var .T)))))))))) (.mul (.mul (.rd (.arr .y 21)) (.num 25948506904653124 14)) (.add (.neg (.num 15230912900000001 18)) (.mul (.rd (.var .T)) (.add (.num 130488231 12) (.mul (.rd (.var .T)) (.add (.neg (.num 21324206669999999 23)) (.mul (.num 1045410792 19) (.rd (.var .T)))))))))) (.mul (.mul (.rd (.arr .y 22)) (.num 33218066443627117 14)) (.add (.num 13409961099999999 18) (.mul (.rd (.var .T)) (.add (.neg (.num 569539002 13)) (.mul (.rd (.var .T)) (.add (.num 88437313499999999 24) (.mul (.neg (.num 43732604399999998 27)) (.rd (.var .T)))))))))) (.mul (.mul (.rd (.arr .y 23)) (.num 31932177658088915 14)) (.add (.num 23361562900000001 18) (.mul (.rd (.var .T)) (.add (.neg (.num 71034362999999998 21)) (.mul (.rd (.var .T)) (.add (.num 84045731099999996 24) (.mul (.neg (.num 34002918959999999 27)) (.rd (.var .T)))))))))) (.mul (.mul (.rd (.arr .y 24)) (.num 30742133534867867 14)) (.add (.num 151479162 11) (.mul (.rd (.var .T)) (.add (.num 518418824 13) (.mul (.rd (.var .T)) (.add (.neg (.num 10729735409999999 23)) (.mul (.num 58860349199999999 27) (.rd (.var .T)))))))))) (.mul (.mul (.rd (.arr .y 25)) (.num 29637603301660818 14)) (.add (.neg (.num 75705224700000004 19)) (.mul (.rd (.var .T)) (.add (.num 1141980584 13) (.mul (.rd (.var .T)) (.add (.neg (.num 2074766259 16)) (.mul (.num 10795374920000001 26) (.rd (.var .T)))))))))) (.mul (.mul (.rd (.arr .y 26)) (.num 28609689384998131 14)) (.add (.neg (.num 41865889200000004 19)) (.mul (.rd (.var .T)) (.add (.num 99428561399999998 21) (.mul (.rd (.var .T)) (.add (.neg (.num 17973798179999999 23)) (.mul (.num 922036016 19) (.rd (.var .T)))))))))) (.mul (.mul (.rd (.arr .y 27)) (.num 27650687204768667 14)) (.add (.neg (.num 55015426999999997 19)) (.mul (.rd (.var .T)) (.add (.num 11988765760000001 20) (.mul (.rd (.var .T)) (.add (.neg (.num 2125398855 16)) (.mul (.num 1074743084 19) (.rd (.var .T)))))))))) (.mul (.mul (.rd (.arr .y 28)) (.num 2026467425505748 13)) (.add (.num 17655021 9) (.mul (.rd (.var .T)) (.add (.neg (.num 47458201999999998 21)) (.mul (.rd (.var .T)) (.add (.num 51827277000000004 24) (.mul (.neg (.num 20265924400000001 27)) (.rd (.var .T)))))))))) (.mul (.mul (.rd (.arr .y 29)) (.num 19778782309416789 14)) (.add (.num 18118872099999999 18) (.mul (.rd (.var .T)) (.add (.neg (.num 34789494799999999 21)) (.mul (.rd (.var .T)) (.add (.num 28031927040000002 24) (.mul (.neg (.num 80583045999999995 28)) (.rd (.var .T)))))))))) (.mul (.mul (.rd (.arr .y 30)) (.num 19778782309416789 14)) (.add (.num 31072201000000001 18) (.mul (.rd (.var .T)) (.add (.neg (.num 101733728 12)) (.mul (.rd (.var .T)) (.add (.num 12941139300000002 23) (.mul (.neg (.num 56058375999999998 27)) (.rd (.var .T)))))))))) (.mul (.mul (.rd (.arr .y 31)) (.num 59360437189524475 14)) (.add (.num 0 0) (.mul (.rd (.var .T)) (.add (.num 0 0) (.mul (.rd (.var .T)) (.add (.num 0 0) (.mul (.num 0 0) (.rd (.var .T)))))))))) (.mul (.mul (.rd (.arr .y 32)) (.num 55375553125341332 14)) (.add (.num 31179198 11) (.mul (.rd (.var .T)) (.add (.neg (.num 29780968000000002 22)) (.mul (.rd (.var .T)) (.add (.num 74449325999999999 25) (.mul (.neg (.num 41427868000000001 28)) (.rd (.var .T)))))))))) (.mul (.mul (.rd (.arr .y 33)) (.num 51892025773562625 14)) (.add (.neg (.num 21061385000000002 19)) (.mul (.rd (.var .T)) (.add (.num 14213669600000001 21) (.mul (.rd (.var .T)) (.add (.neg (.num 16834559100000002 24)) (.mul (.num 65762868000000002 28) (.rd (.var .T)))))))))) (.mul (.mul (.rd (.arr .y 34)) (.num 48820837952480719 14)) (.add (.neg (.num 46605229999999997 19)) (.mul (.rd (.var .T)) (.add (.num 43437026000000002 21) (.mul (.rd (.var .T)) (.add (.neg (.num 68426660999999996 24)) (.mul (.num 33055218399999999 27) (.rd (.var .T)))))))))) (.mul (.mul (.rd (.arr .y 35)) (.num 28649397927461854 14)) (.add (.neg (.num 48497072 10)) (.mul (.rd (.var .T)) (.add (.num 40118918000000002 21) (.mul (.rd (.var .T)) (.add (.neg (.num 65179391999999997 24)) (.mul (.num 317878156 19) (.rd (.var .T)))))))))) (.mul (.mul (.rd (.arr .y 36)) (.num 27709202516551613 14)) (.add (.neg (.num 46389760000000004 19)) (.mul (.rd (.var .T)) (.add (.num 22082044 12) (.mul (.rd (.var .T)) (.add (.neg (.num 28008406200000002 24)) (.mul (.num 11214308 18) (.rd (.var .T)))))))))) (.mul (.mul (.rd (.arr .y 37)) (.num 1807274102205952 13)) (.add (.neg (.num 1585429 9)) (.mul (.rd (.var .T)) (.add (.num 33315624000000002 21) (.mul (.rd (.var .T)) (.add (.neg (.num 61426278 15)) (.mul (.num 313402256 19) (.rd (.var .T)))))))))) (.mul (.mul (.rd (.arr .y 38)) (.num 18890974869174661 14)) (.add (.num 11304728 9) (.mul (.rd (.var .T)) (.add (.neg (.num 27342637999999999 21)) (.mul (.rd (.var .T)) (.add (.num 29045941800000002 24) (.mul (.neg (.num 117228728 19)) (.rd (.var .T)))))))))) (.mul (.mul (.rd (.arr .y 39)) (.num 26808669159297972 14)) (.add (.neg (.num 56696170999999997 19)) (.mul (.rd (.var .T)) (.add (.num 36946414000000001 21) (.mul (.rd (.var .T)) (.add (.neg (.num 51411282 15)) (.mul (.num 22181829200000001 27) (.rd (.var .T)))))))))) (.mul (.mul (.rd (.arr .y 40)) (.num 31956895948687321 14)) (.add (.neg (.num 95551326999999996 20)) (.mul (.rd (.var .T)) (.add (.num 42885954000000002 22) (.mul (.rd (.var .T)) (.add (.neg (.num 94548968999999987 26)) (.mul (.neg (.num 18572142399999999 28)) (.rd (.var .T)))))))))) (.mul (.mul (.rd (.arr .y 41)) (.num 3076504309974809 13)) (.add (.num 1005117 8) (.mul (.rd (.var .T)) (.add (.neg (.num 26703526000000001 21)) (.mul (.rd (.var .T)) (.add (.num 30277046999999999 24) (.mul (.neg (.num 12035611199999999 27)) (.rd (.var .T)))))))))) (.mul (.mul (.rd (.arr .y 42)) (.num 29658895640306179 14)) (.add (.num 56952330999999997 19) (.mul (.rd (.var .T)) (.add (.num 21422800000000001 22) (.mul (.rd (.var .T)) (.add (.neg (.num 4867836 15)) (.mul (.neg (.num 94044323999999995 29)) (.rd (.var .T)))))))))) (.mul (.mul (.rd (.arr .y 43)) (.num 20263153135983694 14)) (.add (.num 15960618999999999 18) (.mul (.rd (.var .T)) (.add (.neg (.num 37632707999999998 21)) (.mul (.rd (.var .T)) (.add (.num 3637662 14) (.mul (.neg (.num 129429512 19)) (.rd (.var .T)))))))))) (.mul (.mul (.rd (.arr .y 47)) (.num 19788262837499175 14)) (.add (.num 88051688000000006 19) (.mul (.rd (.var .T)) (.add (.neg (.num 16773226800000001 21)) (.mul (.rd (.var .T)) (.add (.num 14405089199999999 24) (.mul (.neg (.num 5325438 18)) (.rd (.var .T)))))))))) (.mul (.mul (.rd (.arr .y 48)) (.num 20813212426154001 14)) (.add (.num 0 0) (.mul (.rd (.var .T)) (.add (.num 0 0) (.mul (.rd (.var .T)) (.add (.num 0 0) (.mul (.num 0 0) (.rd (.var .T)))))))))) (.mul (.mul (.rd (.arr .y 49)) (.num 19296208183235558 14)) (.add (.num 25991980000000001 18) (.mul (.rd (.var .T)) (.add (.num 47601079999999998 22) (.mul (.rd (.var .T)) (.add (.neg (.num 58828706999999999 24)) (.mul (.num 37492987999999997 27) (.rd (.var .T)))))))))) (.mul (.mul (.rd (.arr .y 50)) (.num 18855143444426002 14)) (.add (.num 26424579 9) (.mul (.rd (.var .T)) (.add (.num 122119454 13) (.mul (.rd (.var .T)) (.add (.neg (.num 65932497000000001 24)) (.mul (.num 38059701199999998 27) (.rd (.var .T)))))))))) (.mul (.mul (.rd (.arr .y 51)) (.num 19315645500243699 14)) (.add (.num 10738574000000001 18) (.mul (.rd (.var .T)) (.add (.num 3782984 12) (.mul (.rd (.var .T)) (.add (.neg (.num 21475748999999999 24)) (.mul (.num 1146954 17) (.rd (.var .T)))))))))) (.mul (.mul (.rd (.arr .y 52)) (.num 1887370190923875 13)) (.add (.neg (.num 31932858 10)) (.mul (.rd (.var .T)) (.add (.num 95069842000000004 21) (.mul (.rd (.var .T)) (.add (.neg (.num 17237583299999998 23)) (.mul (.num 87724448000000004 27) (.rd (.var .T)))))))))) (.mul (.mul (.rd (.var .yN)) (.num 29680218594762238 14)) (.add (.num 14082404 10) (.mul (.rd (.var .T)) (.add (.neg (.num 79264439999999996 22)) (.mul (.rd (.var .T)) (.add (.num 16924545000000002 24) (.mul (.neg (.num 97794159999999997 28)) (.rd (.var .T)))))))))) (.add (.add (.add (.add (.add (.add (.add (.add (.add (.add (.add (.add (.add (.add (.add (.add (.add (.add (.add (.add (.add (.add (.add (.add (.add (.add (.add (.add (.add (.add (.add (.add (.add (.add (.add (.add (.add (.add (.add (.add (.add (.add (.add (.add (.add (.add (.add (.add (.add (.mul (.mul (.rd (.arr .y 1)) (.num 41244826576978785 13)) (.add (.neg (.num 49402473099999998 21)) (.mul (.rd (.var .T)) (.add (.num 99891355599999992 23) (.mul (.rd (.var .T)) (.add (.neg (.num 53869918199999997 26)) (.mul (.num 80102150399999999 30) (.rd (.var .T))))))))) (.mul (.mul (.rd (.arr .y 2)) (.num 8248965315395757 12)) (.add (.neg (.num 23084297299999999 27)) (.mul (.rd (.var .T)) (.add (.num 32312389600000002 30) (.mul (.rd (.var .T)) (.add (.neg (.num 14205457050000002 33)) (.mul (.num 19927894280000001 37) (.rd (.var .T)))))))))) (.mul (.mul (.rd (.arr .y 3)) (.num 51967336900133762 14)) (.add (.neg (.num 85974113700000004 21)) (.mul (.rd (.var .T)) (.add (.num 83896917800000004 24) (.mul (.rd (.var .T)) (.add (.neg (.num 30053339700000001 27)) (.mul (.num 49133476399999997 31) (.rd (.var .T)))))))))) (.mul (.mul (.rd (.arr .y 4)) (.num 25983668450066881 14)) (.add (.num 14830875399999999 19) (.mul (.rd (.var .T)) (.add (.neg (.num 1515933338 15)) (.mul (.rd (.var .T)) (.add (.num 62841166499999998 26) (.mul (.neg (.num 86687117599999996 30)) (.rd (.var .T)))))))))) (.mul (.mul (.rd (.arr .y 5)) (.num 48887492694330808 14)) (.add (.num 54842971599999998 20) (.mul (.rd (.var .T)) (.add (.num 25301045599999997 23) (.mul (.rd (.var .T)) (.add (.neg (.num 2638384668 19)) (.mul (.num 46964950400000001 30) (.rd (.var .T)))))))))) (.mul (.mul (.rd (.arr .y 6)) (.num 4615227795515807 13)) (.add (.num 21769180400000002 19) (.mul (.rd (.var .T)) (.add (.neg (.num 32814503599999998 23)) (.mul (.rd (.var .T)) (.add (.neg (.num 291125961 18)) (.mul (.num 67280396799999996 30) (.rd (.var .T)))))))))) (.mul (.mul (.rd (.arr .y 7)) (.num 25190194790518544 14)) (.add (.num 22398201299999999 19) (.mul (.rd (.var .T)) (.add (.neg (.num 12673163 13)) (.mul (.rd (.var .T)) (.add (.num 34273911000000001 26) (.mul (.neg (.num 43163414 21)) (.rd (.var .T)))))))))) (.mul (.mul (.rd (.arr .y 8)) (.num 24443746347165404 14)) (.add (.num 490831694 11) (.mul (.rd (.var .T)) (.add (.neg (.num 38027844999999999 22)) (.mul (.rd (.var .T)) (.add (.num 11135579579999999 25) (.mul (.neg (.num 11516332200000001 29)) (.rd (.var .T)))))))))) (.mul (.mul (.rd (.arr .y 9)) (.num 6922372908167514 13)) (.add (.num 479889284 13) (.mul (.rd (.var .T)) (.add (.neg (.num 14486700400000001 23)) (.mul (.rd (.var .T)) (.add (.num 11228730870000001 26) (.mul (.neg (.num 19491115719999999 30)) (.rd (.var .T)))))))))) (.mul (.mul (.rd (.arr .y 10)) (.num 6386435531617783 13)) (.add (.num 970913681 12) (.mul (.rd (.var .T)) (.add (.num 28889130999999998 23) (.mul (.rd (.var .T)) (.add (.neg (.num 39206354700000005 26)) (.mul (.num 70431753199999996 30) (.rd (.var .T)))))))))) (.mul (.mul (.rd (.arr .y 11)) (.num 59275206603321635 14)) (.add (.num 36563929199999999 19) (.mul (.rd (.var .T)) (.add (.neg (.num 28178919400000001 22)) (.mul (.rd (.var .T)) (.add (.num 78053864700000003 26) (.mul (.neg (.num 75091026800000003 30)) (.rd (.var .T)))))))))) (.mul (.mul (.rd (.arr .y 12)) (.num 59275206603321635 14)) (.add (.num 465588637 11) (.mul (.rd (.var .T)) (.add (.neg (.num 40238389399999997 22)) (.mul (.rd (.var .T)) (.add (.num 12537180000000001 25) (.mul (.neg (.num 13588654599999999 29)) (.rd (.var .T)))))))))) (.mul (.mul (.rd (.arr .y 13)) (.num 55301374409537334 14)) (.add (.num 72399003699999999 19) (.mul (.rd (.var .T)) (.add (.neg (.num 59742869599999998 22)) (.mul (.rd (.var .T)) (.add (.num 17870539320000002 25) (.mul (.neg (.num 18686175760000001 29)) (.rd (.var .T)))))))))) (.mul (.mul (.rd (.arr .y 14)) (.num 5182688078609915 13)) (.add (.num 133909467 10) (.mul (.rd (.var .T)) (.add (.neg (.num 1146571618 14)) (.mul (.rd (.var .T)) (.add (.num 36687760500000002 25) (.mul (.neg (.num 40726092000000001 29)) (.rd (.var .T)))))))))) (.mul (.mul (.rd (.arr .y 15)) (.num 29683482206608977 14)) (.add (.num 20625274300000002 19) (.mul (.rd (.var .T)) (.add (.neg (.num 19976515420000001 22)) (.mul (.rd (.var .T)) (.add (.num 69015902399999998 26) (.mul (.neg (.num 81459086400000001 30)) (.rd (.var .T)))))))))) (.mul (.mul (.rd (.arr .y 16)) (.num 18892296942953618 14)) (.add (.num 44143702599999998 19) (.mul (.rd (.var .T)) (.add (.neg (.num 44296280800000001 22)) (.mul (.rd (.var .T)) (.add (.num 1570470564 18) (.mul (.neg (.num 18883366560000001 29)) (.rd (.var .T)))))))))) (.mul (.mul (.rd (.arr .y 17)) (.num 2865243876803429 13)) (.add (.num 49569552599999997 19) (.mul (.rd (.var .T)) (.add (.neg (.num 496891226 14)) (.mul (.rd (.var .T)) (.add (.num 17674853340000001 25) (.mul (.neg (.num 2134034844 22)) (.rd (.var .T)))))))))) (.mul (.mul (.rd (.arr .y 18)) (.num 2769061668644934 13)) (.add (.num 920000082 11) (.mul (.rd (.var .T)) (.add (.neg (.num 88451762599999995 22)) (.mul (.rd (.var .T)) (.add (.num 30192363599999999 25) (.mul (.neg (.num 35354225600000002 29)) (.rd (.var .T)))))))))) (.mul (.mul (.rd (.arr .y 19)) (.num 26791271377208773 14)) (.add (.num 86457679700000008 19) (.mul (.rd (.var .T)) (.add (.neg (.num 75020224000000003 22)) (.mul (.rd (.var .T)) (.add (.num 23617039080000002 25) (.mul (.neg (.num 25942168040000001 29)) (.rd (.var .T)))))))))) (.mul (.mul (.rd (.arr .y 20)) (.num 26791271377208773 14)) (.add (.num 78714969999999999 19) (.mul (.rd (.var .T)) (.add (.neg (.num 53127680000000002 22)) (.mul (.rd (.var .T)) (.add (.num 11833293000000001 25) (.mul (.neg (.num 84504640000000004 30)) (.rd (.var .T)))))))))) (.mul (.mul (.rd (.arr .y 21)) (.num 25948506904653124 14)) (.add (.num 140938292 10) (.mul (.rd (.var .T)) (.add (.neg (.num 127300167 13)) (.mul (.rd (.var .T)) (.add (.num 41451325500000001 25) (.mul (.neg (.num 46824087999999997 29)) (.rd (.var .T)))))))))) (.mul (.mul (.rd (.arr .y 22)) (.num 33218066443627117 14)) (.add (.num 47522190200000002 19) (.mul (.rd (.var .T)) (.add (.neg (.num 36757415400000001 22)) (.mul (.rd (.var .T)) (.add (.num 91257075599999998 26) (.mul (.neg (.num 70893107999999997 30)) (.rd (.var .T)))))))))) (.mul (.mul (.rd (.arr .y 23)) (.num 31932177658088915 14)) (.add (.num 59616666400000001 19) (.mul (.rd (.var .T)) (.add (.neg (.num 474589704 14)) (.mul (.rd (.var .T)) (.add (.num 14022365130000001 25) (.mul (.neg (.num 14449408520000001 29)) (.rd (.var .T)))))))))) (.mul (.mul (.rd (.arr .y 24)) (.num 30742133534867867 14)) (.add (.num 10330229200000001 18) (.mul (.rd (.var .T)) (.add (.neg (.num 93616469799999992 22)) (.mul (.rd (.var .T)) (.add (.num 30528986399999998 25) (.mul (.neg (.num 3450428164 22)) (.rd (.var .T)))))))))) (.mul (.mul (.rd (.arr .y 25)) (.num 29637603301660818 14)) (.add (.num 146454151 10) (.mul (.rd (.var .T)) (.add (.neg (.num 134215583 13)) (.mul (.rd (.var .T)) (.add (.num 44166876900000006 25) (.mul (.neg (.num 50282424399999999 29)) (.rd (.var .T)))))))))) (.mul (.mul (.rd (.arr .y 26)) (.num 28609689384998131 14)) (.add (.num 17397272200000001 18) (.mul (.rd (.var .T)) (.add (.neg (.num 15964133359999999 21)) (.mul (.rd (.var .T)) (.add (.num 52565306700000001 25) (.mul (.neg (.num 598566304 21)) (.rd (.var .T)))))))))) (.mul (.mul (.rd (.arr .y 27)) (.num 27650687204768667 14)) (.add (.num 216852677 10) (.mul (.rd (.var .T)) (.add (.neg (.num 20051213400000001 21)) (.mul (.rd (.var .T)) (.add (.num 66423600300000001 25) (.mul (.neg (.num 76001155999999998 29)) (.rd (.var .T)))))))))) (.mul (.mul (.rd (.arr .y 28)) (.num 2026467425505748 13)) (.add (.num 40853401000000003 19) (.mul (.rd (.var .T)) (.add (.neg (.num 31869094000000001 22)) (.mul (.rd (.var .T)) (.add (.num 85878155999999992 26) (.mul (.neg (.num 77631327999999994 30)) (.rd (.var .T)))))))))) (.mul (.mul (.rd (.arr .y 29)) (.num 19778782309416789 14)) (.add (.num 90035974499999994 19) (.mul (.rd (.var .T)) (.add (.neg (.num 83387926999999999 22)) (.mul (.rd (.var .T)) (.add (.num 2770037646 18) (.mul (.neg (.num 31793528039999999 29)) (.rd (.var .T)))))))))) (.mul (.mul (.rd (.arr .y 30)) (.num 19778782309416789 14)) (.add (.num 67923599999999999 19) (.mul (.rd (.var .T)) (.add (.neg (.num 51317128000000002 22)) (.mul (.rd (.var .T)) (.add (.num 134963523 17) (.mul (.neg (.num 11976040399999999 29)) (.rd (.var .T)))))))))) (.mul (.mul (.rd (.arr .y 31)) (.num 59360437189524475 14)) (.add (.num 17489065000000001 20) (.mul (.rd (.var .T)) (.add (.neg (.num 23804737999999999 23)) (.mul (.rd (.var .T)) (.add (.num 90678734999999991 27) (.mul (.neg (.num 81443928000000001 31)) (.rd (.var .T)))))))))) (.mul (.mul (.rd (.arr .y 32)) (.num 55375553125341332 14)) (.add (.num 1329843 9) (.mul (.rd (.var .T)) (.add (.neg (.num 84956093999999996 23)) (.mul (.rd (.var .T)) (.add (.num 23504550299999997 26) (.mul (.neg (.num 22017788000000001 30)) (.rd (.var .T)))))))))) (.mul (.mul (.rd (.arr .y 33)) (.num 51892025773562625 14)) (.add (.num 32073081999999999 19) (.mul (.rd (.var .T)) (.add (.neg (.num 186781608 14)) (.mul (.rd (.var .T)) (.add (.num 41108859 17) (.mul (.neg (.num 31682457600000003 30)) (.rd (.var .T)))))))))) (.mul (.mul (.rd (.arr .y 34)) (.num 48820837952480719 14)) (.add (.num 56662559999999997 19) (.mul (.rd (.var .T)) (.add (.neg (.num 34557352 13)) (.mul (.rd (.var .T)) (.add (.num 71601483 17) (.mul (.neg (.num 50315143999999997 30)) (.rd (.var .T)))))))))) (.mul (.mul (.rd (.arr .y 35)) (.num 28649397927461854 14)) (.add (.num 28915082000000002 19) (.mul (.rd (.var .T)) (.add (.neg (.num 20833239999999998 22)) (.mul (.rd (.var .T)) (.add (.num 50527781999999994 26) (.mul (.neg (.num 40367584000000002 30)) (.rd (.var .T)))))))))) (.mul (.mul (.rd (.arr .y 36)) (.num 27709202516551613 14)) (.add (.num 11911043 10) (.mul (.rd (.var .T)) (.add (.neg (.num 85834096000000004 23)) (.mul (.rd (.var .T)) (.add (.num 20837300700000001 26) (.mul (.neg (.num 16134439599999999 30)) (.rd (.var .T)))))))))) (.mul (.mul (.rd (.arr .y 37)) (.num 1807274102205952 13)) (.add (.num 21723955999999999 19) (.mul (.rd (.var .T)) (.add (.neg (.num 16561381199999999 22)) (.mul (.rd (.var .T)) (.add (.num 47242529999999994 26) (.mul (.neg (.num 42043580000000002 30)) (.rd (.var .T)))))))))) (.mul (.mul (.rd (.arr .y 38)) (.num 18890974869174661 14)) (.add (.num 26270250999999999 19) (.mul (.rd (.var .T)) (.add (.neg (.num 19170174799999999 22)) (.mul (.rd (.var .T)) (.add (.num 48002136000000002 26) (.mul (.neg (.num 39100921199999997 30)) (.rd (.var .T)))))))))) (.mul (.mul (.rd (.arr .y 39)) (.num 26808669159297972 14)) (.add (.num 34944059000000002 19) (.mul (.rd (.var .T)) (.add (.neg (.num 15709955600000001 22)) (.mul (.rd (.var .T)) (.add (.num 17243878200000001 26) (.mul (.neg (.num 77343664000000001 32)) (.rd (.var .T)))))))))) (.mul (.mul (.rd (.arr .y 40)) (.num 31956895948687321 14)) (.add (.num 43450774999999999 21) (.mul (.rd (.var .T)) (.add (.num 59411967999999998 23) (.mul (.rd (.var .T)) (.add (.neg (.num 20595541800000001 26)) (.mul (.num 17653669200000001 30) (.rd (.var .T)))))))))) (.mul (.mul (.rd (.arr .y 41)) (.num 3076504309974809 13)) (.add (.num 31464228000000001 19) (.mul (.rd (.var .T)) (.add (.neg (.num 21264370000000001 22)) (.mul (.rd (.var .T)) (.add (.num 49859271000000001 26) (.mul (.neg (.num 39199027999999998 30)) (.rd (.var .T)))))))))) (.mul (.mul (.rd (.arr .y 42)) (.num 29658895640306179 14)) (.add (.num 29692910999999998 19) (.mul (.rd (.var .T)) (.add (.neg (.num 57111781999999997 23)) (.mul (.rd (.var .T)) (.add (.neg (.num 49066499999999998 26)) (.mul (.num 12173035599999999 29) (.rd (.var .T)))))))))) (.mul (.mul (.rd (.arr .y 43)) (.num 20263153135983694 14)) (.add (.num 39895959000000002 19) (.mul (.rd (.var .T)) (.add (.neg (.num 3196476 12)) (.mul (.rd (.var .T)) (.add (.num 87748185000000002 26) (.mul (.neg (.num 80378744000000006 30)) (.rd (.var .T)))))))))) (.mul (.mul (.rd (.arr .y 47)) (.num 19788262837499175 14)) (.add (.num 23051761 10) (.mul (.rd (.var .T)) (.add (.neg (.num 176066306 14)) (.mul (.rd (.var .T)) (.add (.num 44367293999999994 26) (.mul (.neg (.num 36391198400000002 30)) (.rd (.var .T)))))))))) (.mul (.mul (.rd (.arr .y 48)) (.num 20813212426154001 14)) (.add (.num 0 0) (.mul (.rd (.var .T)) (.add (.num 0 0) (.mul (.rd (.var .T)) (.add (.num 0 0) (.mul (.num 0 0) (.rd (.var .T)))))))))) (.mul (.mul (.rd (.arr .y 49)) (.num 19296208183235558 14)) (.add (.num 16044203 9) (.mul (.rd (.var .T)) (.add (.neg (.num 10566644 12)) (.mul (.rd (.var .T)) (.add (.num 22889577 16) (.mul (.neg (.num 15756913600000001 29)) (.rd (.var .T)))))))))) (.mul (.mul (.rd (.arr .y 50)) (.num 18855143444426002 14)) (.add (.num 18872238999999999 18) (.mul (.rd (.var .T)) (.add (.neg (.num 12543698199999999 21)) (.mul (.rd (.var .T)) (.add (.num 274426947 17) (.mul (.neg (.num 19135227600000001 29)) (.rd (.var .T)))))))))) (.mul (.mul (.rd (.arr .y 51)) (.num 19315645500243699 14)) (.add (.num 81305909999999995 19) (.mul (.rd (.var .T)) (.add (.neg (.num 54872480000000002 22)) (.mul (.rd (.var .T)) (.add (.num 12210911999999999 25) (.mul (.neg (.num 87040680000000004 30)) (.rd (.var .T)))))))))) (.mul (.mul (.rd (.arr .y 52)) (.num 1887370190923875 13)) (.add (.num 11723058999999999 18) (.mul (.rd (.var .T)) (.add (.neg (.num 84526273999999996 22)) (.mul (.rd (.var .T)) (.add (.num 20511735299999999 25) (.mul (.neg (.num 163939452 21)) (.rd (.var .T)))))))))) (.mul (.mul (.rd (.var .yN)) (.num 29680218594762238 14)) (.add (.num 14879768000000001 19) (.mul (.rd (.var .T)) (.add (.neg (.num 1136952 12)) (.mul (.rd (.var .T)) (.add (.num 30291114 17) (.mul (.neg (.num 27013403999999999 30)) (.rd (.var .T)))))))))),
  .ite (.rd (.var .T)) (.num 1368 0) (.var .workTemp) (.add (.rd (.var .workTemp)) (.mul (.mul (.rd (.arr .y 45)) (.num 19324687135968139 14)) (.add (.num 68866792199999997 19) (.mul (.rd (.var .T)) (.add (.neg (.num 64297572799999999 22)) (.mul (.rd (.var .T)) (.add (.num 15515873009999999 25) (.mul (.num 477443152 22) (.rd (.var .T)))))))))) (.add (.rd (.var .workTemp)) (.mul (.mul (.rd (.arr .y 45)) (.num 19324687135968139 14)) (.add (.num 31678939299999999 19) (.mul (.rd (.var .T)) (.add (.neg (.num 223602128 14)) (.mul (.rd (.var .T)) (.add (.num 53172943200000002 26) (.mul (.neg (.num 41735670799999998 30)) (.rd (.var .T)))))))))),
  .ite (.rd (.var .T)) (.num 1382 0) (.var .workTemp) (.add (.rd (.var .workTemp)) (.mul (.mul (.rd (.arr .y 44)) (.num 19324687135968139 14)) (.add (.num 127505342 10) (.mul (.rd (.var .T)) (.add (.neg (.num 20958847199999998 21)) (.mul (.rd (.var .T)) (.add (.num 1324298508 17) (.mul (.neg (.num 30300858640000001 28)) (.rd (.var .T)))))))))) (.add (.rd (.var .workTemp)) (.mul (.mul (.rd (.arr .y 44)) (.num 19324687135968139 14)) (.add (.num 302778626 11) (.mul (.rd (.var .T)) (.add (.neg (.num 21540869199999998 22)) (.mul (.rd (.var .T)) (.add (.num 51499958399999995 26) (.mul (.neg (.num 40575756400000003 30)) (.rd (.var .T)))))))))),
  .ite (.rd (.var .T)) (.num 1478 0) (.var .workTemp) (.add (.rd (.var .workTemp)) (.mul (.mul (.rd (.arr .y 46)) (.num 19324687135968139 14)) (.add (.num 73028235700000003 19) (.mul (.rd (.var .T)) (.add (.neg (.num 45610000599999998 22)) (.mul (.rd (.var .T)) (.add (.neg (.num 19838138939999999 25)) (.mul (.num 14489430079999999 28) (.rd (.var .T)))))))))) (.add (.rd (.var .workTemp)) (.mul (.mul (.rd (.arr .y 46)) (.num 19324687135968139 14)) (.add (.num 31786400400000002 19) (.mul (.rd (.var .T)) (.add (.neg (.num 21875750999999999 22)) (.mul (.rd (.var .T)) (.add (.num 51220548900000006 26) (.mul (.neg (.num 39800878199999998 30)) (.rd (.var .T)))))))))),
  .set (.arr .jac 0) (.div (.neg (.add (.add (.add (.add (.add (.add (.add (.add (.add (.add (.add (.add (.add (.add (.add (.add (.add (.add (.add (.add (.add (.add (.add (.add (.add (.add (.add (.add (.add (.add (.add (.add (.add (.add (.add (.add (.add (.add (.add (.add (.add (.add (.add (.add (.add (.add (.add (.add (.add (.add (.add (.add (.add (.add (.add (.add (.add (.add (.add (.add (.add (.add (.add (.add (.add (.add (.add (.add (.add (.add (.add (.add (.add (.add (.add (.add (.add (.add (.add (.add (.add (.add (.add (.add (.add (.add (.add (.add (.add (.add (.add (.add (.add (.add (.add (.add (.add (.add (.add (.add (.add (.add (.add (.add (.add (.mul (.mul (.rd (.arr .spRates 0)) (.num 201588 5)) (.add (.div (.mul (.neg (.rd (.var .workTemp))) (.rd (.arr .h 0))) (.rd (.var .cpAvg))) (.rd (.arr .cp 0)))) (.mul (.mul (.rd (.arr .jac 1)) (.rd (.arr .h 0))) (.rd (.var .rho)))) (.mul (.mul (.rd (.arr .spRates 1)) (.num 100794 5)) (.add (.div (.mul (.neg (.rd (.var .workTemp))) (.rd (.arr .h 1))) (.rd (.var .cpAvg))) (.rd (.arr .cp 1))))) (.mul (.mul (.rd (.arr .jac 2)) (.rd (.arr .h 1))) (.rd (.var .rho)))) (.mul (.mul (.rd (.arr .spRates 2)) (.num 159994 4)) (.add (.div (.mul (.neg (.rd (.var .workTemp))) (.rd (.arr .h 2))) (.rd (.var .cpAvg))) (.rd (.arr .cp 2))))) (.mul (.mul (.rd (.arr .jac 3)) (.rd (.arr .h 2))) (.rd (.var .rho)))) (.mul (.mul (.rd (.arr .spRates 3)) (.num 319988 4)) (.add (.div (.mul (.neg (.rd (.var .workTemp))) (.rd (.arr .h 3))) (.rd (.var .cpAvg))) (.rd (.arr .cp 3))))) (.mul (.mul (.rd (.arr .jac 4)) (.rd (.arr .h 3))) (.rd (.var .rho)))) (.mul (.mul (.rd (.arr .spRates 4)) (.num 1700734 5)) (.add (.div (.mul (.neg (.rd (.var .workTemp))) (.rd (.arr .h 4))) (.rd (.var .cpAvg))) (.rd (.arr .cp 4))))) (.mul (.mul (.rd (.arr .jac 5)) (.rd (.arr .h 4))) (.rd (.var .rho)))) (.mul (.mul (.rd (.arr .spRates 5)) (.num 1801528 5)) (.add (.div (.mul (.neg (.rd (.var .workTemp))) (.rd (.arr .h 5))) (.rd (.var .cpAvg))) (.rd (.arr .cp 5))))) (.mul (.mul (.rd (.arr .jac 6)) (.rd (.arr .h 5))) (.rd (.var .rho)))) (.mul (.mul (.rd (.arr .spRates 6)) (.num 3300674 5)) (.add (.div (.mul (.neg (.rd (.var .workTemp))) (.rd (.arr .h 6))) (.rd (.var .cpAvg))) (.rd (.arr .cp 6))))) (.mul (.mul (.rd (.arr .jac 7)) (.rd (.arr .h 6))) (.rd (.var .rho)))) (.mul (.mul (.rd (.arr .spRates 7)) (.num 3401468 5)) (.add (.div (.mul (.neg (.rd (.var .workTemp))) (.rd (.arr .h 7))) (.rd (.var .cpAvg))) (.rd (.arr .cp 7))))) (.mul (.mul (.rd (.arr .jac 8)) (.rd (.arr .h 7))) (.rd (.var .rho)))) (.mul (.mul (.rd (.arr .spRates 8)) (.num 12011 3)) (.add (.div (.mul (.neg (.rd (.var .workTemp))) (.rd (.arr .h 8))) (.rd (.var .cpAvg))) (.rd (.arr .cp 8))))) (.mul (.mul (.rd (.arr .jac 9)) (.rd (.arr .h 8))) (.rd (.var .rho)))) (.mul (.mul (.rd (.arr .spRates 9)) (.num 1301894 5)) (.add (.div (.mul (.neg (.rd (.var .workTemp))) (.rd (.arr .h 9))) (.rd (.var .cpAvg))) (.rd (.arr .cp 9))))) (.mul (.mul (.rd (.arr .jac 10)) (.rd (.arr .h 9))) (.rd (.var .rho)))) (.mul (.mul (.rd (.arr .spRates 10)) (.num 1402688 5)) (.add (.div (.mul (.neg (.rd (.var .workTemp))) (.rd (.arr .h 10))) (.rd (.var .cpAvg))) (.rd (.arr .cp 10))))) (.mul (.mul (.rd (.arr .jac 11)) (.rd (.arr .h 10))) (.rd (.var .rho)))) (.mul (.mul (.rd (.arr .spRates 11)) (.num 1402688 5)) (.add (.div (.mul (.neg (.rd (.var .workTemp))) (.rd (.arr .h 11))) (.rd (.var .cpAvg))) (.rd (.arr .cp 11))))) (.mul (.mul (.rd (.arr .jac 12)) (.rd (.arr .h 11))) (.rd (.var .rho)))) (.mul (.mul (.rd (.arr .spRates 12)) (.num 1503482 5)) (.add (.div (.mul (.neg (.rd (.var .workTemp))) (.rd (.arr .h 12))) (.rd (.var .cpAvg))) (.rd (.arr .cp 12))))) (.mul (.mul (.rd (.arr .jac 13)) (.rd (.arr .h 12))) (.rd (.var .rho)))) (.mul (.mul (.rd (.arr .spRates 13)) (.num 1604276 5)) (.add (.div (.mul (.neg (.rd (.var .workTemp))) (.rd (.arr .h 13))) (.rd (.var .cpAvg))) (.rd (.arr .cp 13))))) (.mul (.mul (.rd (.arr .jac 14)) (.rd (.arr .h 13))) (.rd (.var .rho)))) (.mul (.mul (.rd (.arr .spRates 14)) (.num 280104 4)) (.add (.div (.mul (.neg (.rd (.var .workTemp))) (.rd (.arr .h 14))) (.rd (.var .cpAvg))) (.rd (.arr .cp 14))))) (.mul (.mul (.rd (.arr .jac 15)) (.rd (.arr .h 14))) (.rd (.var .rho)))) (.mul (.mul (.rd (.arr .spRates 15)) (.num 440098 4)) (.add (.div (.mul (.neg (.rd (.var .workTemp))) (.rd (.arr .h 15))) (.rd (.var .cpAvg))) (.rd (.arr .cp 15))))) (.mul (.mul (.rd (.arr .jac 16)) (.rd (.arr .h 15))) (.rd (.var .rho)))) (.mul (.mul (.rd (.arr .spRates 16)) (.num 2901834 5)) (.add (.div (.mul (.neg (.rd (.var .workTemp))) (.rd (.arr .h 16))) (.rd (.var .cpAvg))) (.rd (.arr .cp 16))))) (.mul (.mul (.rd (.arr .jac 17)) (.rd (.arr .h 16))) (.rd (.var .rho)))) (.mul (.mul (.rd (.arr .spRates 17)) (.num 3002628 5)) (.add (.div (.mul (.neg (.rd (.var .workTemp))) (.rd (.arr .h 17))) (.rd (.var .cpAvg))) (.rd (.arr .cp 17))))) (.mul (.mul (.rd (.arr .jac 18)) (.rd (.arr .h 17))) (.rd (.var .rho)))) (.mul (.mul (.rd (.arr .spRates 18)) (.num 3103422 5)) (.add (.div (.mul (.neg (.rd (.var .workTemp))) (.rd (.arr .h 18))) (.rd (.var .cpAvg))) (.rd (.arr .cp 18))))) (.mul (.mul (.rd (.arr .jac 19)) (.rd (.arr .h 18))) (.rd (.var .rho)))) (.mul (.mul (.rd (.arr .spRates 19)) (.num 3103422 5)) (.add (.div (.mul (.neg (.rd (.var .workTemp))) (.rd (.arr .h 19))) (.rd (.var .cpAvg))) (.rd (.arr .cp 19))))) (.mul (.mul (.rd (.arr .jac 20)) (.rd (.arr .h 19))) (.rd (.var .rho)))) (.mul (.mul (.rd (.arr .spRates 20)) (.num 3204216 5)) (.add (.div (.mul (.neg (.rd (.var .workTemp))) (.rd (.arr .h 20))) (.rd (.var .cpAvg))) (.rd (.arr .cp 20))))) (.mul (.mul (.rd (.arr .jac 21)) (.rd (.arr .h 20))) (.rd (.var .rho)))) (.mul (.mul (.rd (.arr .spRates 21)) (.num 2502994 5)) (.add (.div (.mul (.neg (.rd (.var .workTemp))) (.rd (.arr .h 21))) (.rd (.var .cpAvg))) (.rd (.arr .cp 21))))) (.mul (.mul (.rd (.arr .jac 22)) (.rd (.arr .h 21))) (.rd (.var .rho)))) (.mul (.mul (.rd (.arr .spRates 22)) (.num 2603788 5)) (.add (.div (.mul (.neg (.rd (.var .workTemp))) (.rd (.arr .h 22))) (.rd (.var .cpAvg))) (.rd (.arr .cp 22))))) (.mul (.mul (.rd (.arr .jac 23)) (.rd (.arr .h 22))) (.rd (.var .rho)))) (.mul (.mul (.rd (.arr .spRates 23)) (.num 2704582 5)) (.add (.div (.mul (.neg (.rd (.var .workTemp))) (.rd (.arr .h 23))) (.rd (.var .cpAvg))) (.rd (.arr .cp 23))))) (.mul (.mul (.rd (.arr .jac 24)) (.rd (.arr .h 23))) (.rd (.var .rho)))) (.mul (.mul (.rd (.arr .spRates 24)) (.num 2805376 5)) (.add (.div (.mul (.neg (.rd (.var .workTemp))) (.rd (.arr .h 24))) (.rd (.var .cpAvg))) (.rd (.arr .cp 24))))) (.mul (.mul (.rd (.arr .jac 25)) (.rd (.arr .h 24))) (.rd (.var .rho)))) (.mul (.mul (.rd (.arr .spRates 25)) (.num 290617 4)) (.add (.div (.mul (.neg (.rd (.var .workTemp))) (.rd (.arr .h 25))) (.rd (.var .cpAvg))) (.rd (.arr .cp 25))))) (.mul (.mul (.rd (.arr .jac 26)) (.rd (.arr .h 25))) (.rd (.var .rho)))) (.mul (.mul (.rd (.arr .spRates 26)) (.num 3006964 5)) (.add (.div (.mul (.neg (.rd (.var .workTemp))) (.rd (.arr .h 26))) (.rd (.var .cpAvg))) (.rd (.arr .cp 26))))) (.mul (.mul (.rd (.arr .jac 27)) (.rd (.arr .h 26))) (.rd (.var .rho)))) (.mul (.mul (.rd (.arr .spRates 27)) (.num 4102934 5)) (.add (.div (.mul (.neg (.rd (.var .workTemp))) (.rd (.arr .h 27))) (.rd (.var .cpAvg))) (.rd (.arr .cp 27))))) (.mul (.mul (.rd (.arr .jac 28)) (.rd (.arr .h 27))) (.rd (.var .rho)))) (.mul (.mul (.rd (.arr .spRates 28)) (.num 4203728 5)) (.add (.div (.mul (.neg (.rd (.var .workTemp))) (.rd (.arr .h 28))) (.rd (.var .cpAvg))) (.rd (.arr .cp 28))))) (.mul (.mul (.rd (.arr .jac 29)) (.rd (.arr .h 28))) (.rd (.var .rho)))) (.mul (.mul (.rd (.arr .spRates 29)) (.num 4203728 5)) (.add (.div (.mul (.neg (.rd (.var .workTemp))) (.rd (.arr .h 29))) (.rd (.var .cpAvg))) (.rd (.arr .cp 29))))) (.mul (.mul (.rd (.arr .jac 30)) (.rd (.arr .h 29))) (.rd (.var .rho)))) (.mul (.mul (.rd (.arr .spRates 30)) (.num 1400674 5)) (.add (.div (.mul (.neg (.rd (.var .workTemp))) (.rd (.arr .h 30))) (.rd (.var .cpAvg))) (.rd (.arr .cp 30))))) (.mul (.mul (.rd (.arr .jac 31)) (.rd (.arr .h 30))) (.rd (.var .rho)))) (.mul (.mul (.rd (.arr .spRates 31)) (.num 1501468 5)) (.add (.div (.mul (.neg (.rd (.var .workTemp))) (.rd (.arr .h 31))) (.rd (.var .cpAvg))) (.rd (.arr .cp 31))))) (.mul (.mul (.rd (.arr .jac 32)) (.rd (.arr .h 31))) (.rd (.var .rho)))) (.mul (.mul (.rd (.arr .spRates 32)) (.num 1602262 5)) (.add (.div (.mul (.neg (.rd (.var .workTemp))) (.rd (.arr .h 32))) (.rd (.var .cpAvg))) (.rd (.arr .cp 32))))) (.mul (.mul (.rd (.arr .jac 33)) (.rd (.arr .h 32))) (.rd (.var .rho)))) (.mul (.mul (.rd (.arr .spRates 33)) (.num 1703056 5)) (.add (.div (.mul (.neg (.rd (.var .workTemp))) (.rd (.arr .h 33))) (.rd (.var .cpAvg))) (.rd (.arr .cp 33))))) (.mul (.mul (.rd (.arr .jac 34)) (.rd (.arr .h 33))) (.rd (.var .rho)))) (.mul (.mul (.rd (.arr .spRates 34)) (.num 2902142 5)) (.add (.div (.mul (.neg (.rd (.var .workTemp))) (.rd (.arr .h 34))) (.rd (.var .cpAvg))) (.rd (.arr .cp 34))))) (.mul (.mul (.rd (.arr .jac 35)) (.rd (.arr .h 34))) (.rd (.var .rho)))) (.mul (.mul (.rd (.arr .spRates 35)) (.num 3000614 5)) (.add (.div (.mul (.neg (.rd (.var .workTemp))) (.rd (.arr .h 35))) (.rd (.var .cpAvg))) (.rd (.arr .cp 35))))) (.mul (.mul (.rd (.arr .jac 36)) (.rd (.arr .h 35))) (.rd (.var .rho)))) (.mul (.mul (.rd (.arr .spRates 36)) (.num 4600554 5)) (.add (.div (.mul (.neg (.rd (.var .workTemp))) (.rd (.arr .h 36))) (.rd (.var .cpAvg))) (.rd (.arr .cp 36))))) (.mul (.mul (.rd (.arr .jac 37)) (.rd (.arr .h 36))) (.rd (.var .rho)))) (.mul (.mul (.rd (.arr .spRates 37)) (.num 4401288 5)) (.add (.div (.mul (.neg (.rd (.var .workTemp))) (.rd (.arr .h 37))) (.rd (.var .cpAvg))) (.rd (.arr .cp 37))))) (.mul (.mul (.rd (.arr .jac 38)) (.rd (.arr .h 37))) (.rd (.var .rho)))) (.mul (.mul (.rd (.arr .spRates 38)) (.num 3101408 5)) (.add (.div (.mul (.neg (.rd (.var .workTemp))) (.rd (.arr .h 38))) (.rd (.var .cpAvg))) (.rd (.arr .cp 38))))) (.mul (.mul (.rd (.arr .jac 39)) (.rd (.arr .h 38))) (.rd (.var .rho)))) (.mul (.mul (.rd (.arr .spRates 39)) (.num 2601774 5)) (.add (.div (.mul (.neg (.rd (.var .workTemp))) (.rd (.arr .h 39))) (.rd (.var .cpAvg))) (.rd (.arr .cp 39))))) (.mul (.mul (.rd (.arr .jac 40)) (.rd (.arr .h 39))) (.rd (.var .rho)))) (.mul (.mul (.rd (.arr .spRates 40)) (.num 2702568 5)) (.add (.div (.mul (.neg (.rd (.var .workTemp))) (.rd (.arr .h 40))) (.rd (.var .cpAvg))) (.rd (.arr .cp 40))))) (.mul (.mul (.rd (.arr .jac 41)) (.rd (.arr .h 40))) (.rd (.var .rho)))) (.mul (.mul (.rd (.arr .spRates 41)) (.num 2803362 5)) (.add (.div (.mul (.neg (.rd (.var .workTemp))) (.rd (.arr .h 41))) (.rd (.var .cpAvg))) (.rd (.arr .cp 41))))) (.mul (.mul (.rd (.arr .jac 42)) (.rd (.arr .h 41))) (.rd (.var .rho)))) (.mul (.mul (.rd (.arr .spRates 42)) (.num 4103242 5)) (.add (.div (.mul (.neg (.rd (.var .workTemp))) (.rd (.arr .h 42))) (.rd (.var .cpAvg))) (.rd (.arr .cp 42))))) (.mul (.mul (.rd (.arr .jac 43)) (.rd (.arr .h 42))) (.rd (.var .rho)))) (.mul (.mul (.rd (.arr .spRates 43)) (.num 4302508 5)) (.add (.div (.mul (.neg (.rd (.var .workTemp))) (.rd (.arr .h 43))) (.rd (.var .cpAvg))) (.rd (.arr .cp 43))))) (.mul (.mul (.rd (.arr .jac 44)) (.rd (.arr .h 43))) (.rd (.var .rho)))) (.mul (.mul (.rd (.arr .spRates 44)) (.num 4302508 5)) (.add (.div (.mul (.neg (.rd (.var .workTemp))) (.rd (.arr .h 44))) (.rd (.var .cpAvg))) (.rd (.arr .cp 44))))) (.mul (.mul (.rd (.arr .jac 45)) (.rd (.arr .h 44))) (.rd (.var .rho)))) (.mul (.mul (.rd (.arr .spRates 45)) (.num 4302508 5)) (.add (.div (.mul (.neg (.rd (.var .workTemp))) (.rd (.arr .h 45))) (.rd (.var .cpAvg))) (.rd (.arr .cp 45))))) (.mul (.mul (.rd (.arr .jac 46)) (.rd (.arr .h 45))) (.rd (.var .rho)))) (.mul (.mul (.rd (.arr .spRates 46)) (.num 4201714 5)) (.add (.div (.mul (.neg (.rd (.var .workTemp))) (.rd (.arr .h 46))) (.rd (.var .cpAvg))) (.rd (.arr .cp 46))))) (.mul (.mul (.rd (.arr .jac 47)) (.rd (.arr .h 46))) (.rd (.var .rho)))) (.mul (.mul (.rd (.arr .spRates 47)) (.num 39948 3)) (.add (.div (.mul (.neg (.rd (.var .workTemp))) (.rd (.arr .h 47))) (.rd (.var .cpAvg))) (.rd (.arr .cp 47))))) (.mul (.mul (.rd (.arr .jac 48)) (.rd (.arr .h 47))) (.rd (.var .rho)))) (.mul (.mul (.rd (.arr .spRates 48)) (.num 4308858 5)) (.add (.div (.mul (.neg (.rd (.var .workTemp))) (.rd (.arr .h 48))) (.rd (.var .cpAvg))) (.rd (.arr .cp 48))))) (.mul (.mul (.rd (.arr .jac 49)) (.rd (.arr .h 48))) (.rd (.var .rho)))) (.mul (.mul (.rd (.arr .spRates 49)) (.num 4409652 5)) (.add (.div (.mul (.neg (.rd (.var .workTemp))) (.rd (.arr .h 49))) (.rd (.var .cpAvg))) (.rd (.arr .cp 49))))) (.mul (.mul (.rd (.arr .jac 50)) (.rd (.arr .h 49))) (.rd (.var .rho)))) (.mul (.mul (.rd (.arr .spRates 50)) (.num 4304522 5)) (.add (.div (.mul (.neg (.rd (.var .workTemp))) (.rd (.arr .h 50))) (.rd (.var .cpAvg))) (.rd (.arr .cp 50))))) (.mul (.mul (.rd (.arr .jac 51)) (.rd (.arr .h 50))) (.rd (.var .rho)))) (.mul (.mul (.rd (.arr .spRates 51)) (.num 4405316 5)) (.add (.div (.mul (.neg (.rd (.var .workTemp))) (.rd (.arr .h 51))) (.rd (.var .cpAvg))) (.rd (.arr .cp 51))))) (.mul (.mul (.rd (.arr .jac 52)) (.rd (.arr .h 51))) (.rd (.var .rho)))) (.mul (.mul (.rd (.arr .spRates 52)) (.num 2801348 5)) (.add (.div (.mul (.neg (.rd (.var .workTemp))) (.rd (.arr .h 52))) (.rd (.var .cpAvg))) (.rd (.arr .cp 52))))) (.mul (.mul (.rd (.var .jN)) (.rd (.arr .h 52))) (.rd (.var .rho))))) (.mul (.rd (.var .rho)) (.rd (.var .cpAvg))))]

end DLB.Mech.Gri30
