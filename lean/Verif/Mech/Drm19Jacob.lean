/- Generated by tools/gen_mechanisms.py from utilities/mechanisms/drm19/lib/src/jacob.c. Do not edit. -/
import Verif.Model.CLang
set_option autoImplicit false

namespace DLB.Mech.Drm19
open DLB

/-- `m` and `logT`, utilities/mechanisms/drm19/lib/src/jacob.c:29-30 -/
def jacobPre : List CStmt := [
  .set (.var .m) (.div (.rd (.var .pres)) (.mul (.num 83144621 4) (.rd (.var .T)))),
  .set (.var .logT) (.log (.rd (.var .T)))]

/-- the assignments to dBdT, utilities/mechanisms/drm19/lib/src/jacob.c:32-76 -/
def jacobDBdT : List CStmt := [
  .ite (.rd (.var .T)) (.num 1000 0) (.arr .dBdT 0) (.add (.add (.div (.add (.num 13443311200000001 16) (.div (.neg (.num 91793517299999996 14)) (.rd (.var .T)))) (.rd (.var .T))) (.num 39902603749999996 19)) (.mul (.rd (.var .T)) (.add (.neg (.num 64927169999999995 22)) (.mul (.rd (.var .T)) (.add (.num 50393023500000001 25) (.mul (.neg (.num 14752235220000002 28)) (.rd (.var .T)))))))) (.add (.add (.div (.add (.num 23372791999999998 16) (.div (.neg (.num 95015892199999996 14)) (.rd (.var .T)))) (.rd (.var .T))) (.neg (.num 24701236549999999 21))) (.mul (.rd (.var .T)) (.add (.num 16648559266666665 23) (.mul (.rd (.var .T)) (.add (.neg (.num 44891598500000001 27)) (.mul (.num 40051075199999998 31) (.rd (.var .T)))))))),
  .ite (.rd (.var .T)) (.num 1000 0) (.arr .dBdT 1) (.add (.add (.div (.add (.num 15 1) (.div (.num 25473659899999999 12) (.rd (.var .T)))) (.rd (.var .T))) (.num 35266640949999999 29)) (.mul (.rd (.var .T)) (.add (.neg (.num 66530654666666665 32)) (.mul (.rd (.var .T)) (.add (.num 57520407999999997 35) (.mul (.neg (.num 18554646640000001 38)) (.rd (.var .T)))))))) (.add (.add (.div (.add (.num 15000000099999999 16) (.div (.num 25473659899999999 12) (.rd (.var .T)))) (.rd (.var .T))) (.neg (.num 11542148649999999 27))) (.mul (.rd (.var .T)) (.add (.num 53853982666666673 31) (.mul (.rd (.var .T)) (.add (.neg (.num 11837880875000001 34)) (.mul (.num 99639471400000006 39) (.rd (.var .T)))))))),
  .ite (.rd (.var .T)) (.num 1000 0) (.arr .dBdT 2) (.add (.add (.div (.add (.num 21682671 7) (.div (.num 291222592 4) (.rd (.var .T)))) (.rd (.var .T))) (.neg (.num 163965942 11))) (.mul (.rd (.var .T)) (.add (.num 22143546533333334 22) (.mul (.rd (.var .T)) (.add (.neg (.num 153201656 17)) (.mul (.num 42253194199999998 29) (.rd (.var .T)))))))) (.add (.add (.div (.add (.num 15694207800000002 16) (.div (.num 29217579099999999 12) (.rd (.var .T)))) (.rd (.var .T))) (.neg (.num 42987056850000002 21))) (.mul (.rd (.var .T)) (.add (.num 13982819633333334 24) (.mul (.rd (.var .T)) (.add (.neg (.num 25044449749999998 28)) (.mul (.num 24566738199999997 32) (.rd (.var .T)))))))),
  .ite (.rd (.var .T)) (.num 1000 0) (.arr .dBdT 3) (.add (.add (.div (.add (.num 27824563599999999 16) (.div (.neg (.num 10639435599999999 13)) (.rd (.var .T)))) (.rd (.var .T))) (.neg (.num 14983670799999999 19))) (.mul (.rd (.var .T)) (.add (.num 32824340033333332 22) (.mul (.rd (.var .T)) (.add (.neg (.num 24203237725000002 25)) (.mul (.num 648745674 21) (.rd (.var .T)))))))) (.add (.add (.div (.add (.num 22825378399999998 16) (.div (.neg (.num 10884577200000001 13)) (.rd (.var .T)))) (.rd (.var .T))) (.num 74154376999999996 20)) (.mul (.rd (.var .T)) (.add (.neg (.num 25265555633333331 23)) (.mul (.rd (.var .T)) (.add (.num 52367638749999998 27) (.mul (.neg (.num 43343558799999996 31)) (.rd (.var .T)))))))),
  .ite (.rd (.var .T)) (.num 1000 0) (.arr .dBdT 4) (.add (.add (.div (.add (.num 29920154299999999 16) (.div (.num 36150805599999999 13) (.rd (.var .T)))) (.rd (.var .T))) (.neg (.num 12006587600000001 19))) (.mul (.rd (.var .T)) (.add (.num 15393128033333333 22) (.mul (.rd (.var .T)) (.add (.neg (.num 97028333249999999 26)) (.mul (.num 27282293999999999 29) (.rd (.var .T)))))))) (.add (.add (.div (.add (.num 20928876700000001 16) (.div (.num 38586570000000002 13) (.rd (.var .T)))) (.rd (.var .T))) (.num 27421485799999999 20)) (.mul (.rd (.var .T)) (.add (.num 42168409333333331 24) (.mul (.rd (.var .T)) (.add (.neg (.num 21986538899999999 27)) (.mul (.num 23482475199999999 31) (.rd (.var .T)))))))),
  .ite (.rd (.var .T)) (.num 1000 0) (.arr .dBdT 5) (.add (.add (.div (.add (.num 31986405600000003 16) (.div (.neg (.num 30293726699999999 12)) (.rd (.var .T)))) (.rd (.var .T))) (.neg (.num 10182170500000001 19))) (.mul (.rd (.var .T)) (.add (.num 217346737 14) (.mul (.rd (.var .T)) (.add (.neg (.num 13719926550000001 25)) (.mul (.num 354395634 21) (.rd (.var .T)))))))) (.add (.add (.div (.add (.num 20339924900000002 16) (.div (.neg (.num 300042971 4)) (.rd (.var .T)))) (.rd (.var .T))) (.num 10884590200000001 19)) (.mul (.rd (.var .T)) (.add (.neg (.num 54690839333333327 24)) (.mul (.rd (.var .T)) (.add (.neg (.num 2426049675 20)) (.mul (.num 33640198399999998 31) (.rd (.var .T)))))))),
  .ite (.rd (.var .T)) (.num 1000 0) (.arr .dBdT 6) (.add (.add (.div (.add (.num 33017980099999997 16) (.div (.num 29480804000000001 14) (.rd (.var .T)))) (.rd (.var .T))) (.neg (.num 23745602549999998 19))) (.mul (.rd (.var .T)) (.add (.num 70527630333333326 22) (.mul (.rd (.var .T)) (.add (.neg (.num 606909735 17)) (.mul (.num 18584502480000002 28) (.rd (.var .T)))))))) (.add (.add (.div (.add (.num 30172109000000003 16) (.div (.num 111856713 6) (.rd (.var .T)))) (.rd (.var .T))) (.num 1119910065 12)) (.mul (.rd (.var .T)) (.add (.neg (.num 21121938333333332 23)) (.mul (.rd (.var .T)) (.add (.num 28561592500000001 27) (.mul (.neg (.num 21581707 22)) (.rd (.var .T)))))))),
  .ite (.rd (.var .T)) (.num 1000 0) (.arr .dBdT 7) (.add (.add (.div (.add (.num 27626786700000001 16) (.div (.num 46004040099999998 12) (.rd (.var .T)))) (.rd (.var .T))) (.num 48443607150000002 20)) (.mul (.rd (.var .T)) (.add (.num 93163280333333339 23) (.mul (.rd (.var .T)) (.add (.neg (.num 96272788250000007 26)) (.mul (.num 33748343799999999 29) (.rd (.var .T)))))))) (.add (.add (.div (.add (.num 18741011300000001 16) (.div (.num 46263603999999999 12) (.rd (.var .T)))) (.rd (.var .T))) (.num 18281964599999999 19)) (.mul (.rd (.var .T)) (.add (.neg (.num 46964865666666667 23)) (.mul (.rd (.var .T)) (.add (.num 65044887249999998 27) (.mul (.neg (.num 375455134 23)) (.rd (.var .T)))))))),
  .ite (.rd (.var .T)) (.num 1000 0) (.arr .dBdT 8) (.add (.add (.div (.add (.num 31986041099999998 16) (.div (.num 50496816299999999 12) (.rd (.var .T)))) (.rd (.var .T))) (.neg (.num 1183307095 12))) (.mul (.rd (.var .T)) (.add (.num 27443207333333332 22) (.mul (.rd (.var .T)) (.add (.neg (.num 16720399525000001 25)) (.mul (.num 38862947400000001 29) (.rd (.var .T)))))))) (.add (.add (.div (.add (.num 12920384199999999 16) (.div (.num 509259997 4) (.rd (.var .T)))) (.rd (.var .T))) (.num 2327943185 12)) (.mul (.rd (.var .T)) (.add (.neg (.num 67063982333333332 23)) (.mul (.rd (.var .T)) (.add (.num 10447650000000001 26) (.mul (.neg (.num 67943272999999998 31)) (.rd (.var .T)))))))),
  .ite (.rd (.var .T)) (.num 1000 0) (.arr .dBdT 9) (.add (.add (.div (.add (.num 26735904000000001 16) (.div (.num 16444998800000001 12) (.rd (.var .T)))) (.rd (.var .T))) (.num 1005475875 12)) (.mul (.rd (.var .T)) (.add (.num 19100728533333335 22) (.mul (.rd (.var .T)) (.add (.neg (.num 17177935625 19)) (.mul (.num 50877146800000003 29) (.rd (.var .T)))))))) (.add (.add (.div (.add (.num 12857177200000001 16) (.div (.num 16775584299999999 12) (.rd (.var .T)))) (.rd (.var .T))) (.num 36199501849999999 19)) (.mul (.rd (.var .T)) (.add (.neg (.num 99571449333333331 23)) (.mul (.rd (.var .T)) (.add (.num 14892116100000001 26) (.mul (.neg (.num 93430878800000005 31)) (.rd (.var .T)))))))),
  .ite (.rd (.var .T)) (.num 1000 0) (.arr .dBdT 10) (.add (.add (.div (.add (.num 414987613 8) (.div (.neg (.num 102466476 4)) (.rd (.var .T)))) (.rd (.var .T))) (.neg (.num 68354894000000003 19))) (.mul (.rd (.var .T)) (.add (.num 16393353300000001 21) (.mul (.rd (.var .T)) (.add (.neg (.num 1211857565 17)) (.mul (.num 333387912 20) (.rd (.var .T)))))))) (.add (.add (.div (.add (.neg (.num 92514850500000001 17)) (.div (.neg (.num 94683445900000006 13)) (.rd (.var .T)))) (.rd (.var .T))) (.num 66954733499999999 19)) (.mul (.rd (.var .T)) (.add (.neg (.num 19109526966666665 22)) (.mul (.rd (.var .T)) (.add (.num 3057313375 19) (.mul (.neg (.num 20363046000000002 30)) (.rd (.var .T)))))))),
  .ite (.rd (.var .T)) (.num 1000 0) (.arr .dBdT 11) (.add (.add (.div (.add (.num 25795334699999999 16) (.div (.neg (.num 14344085999999999 12)) (.rd (.var .T)))) (.rd (.var .T))) (.neg (.num 30517684 11))) (.mul (.rd (.var .T)) (.add (.num 33893811000000002 23) (.mul (.rd (.var .T)) (.add (.num 226751471 18) (.mul (.neg (.num 18088489979999999 29)) (.rd (.var .T)))))))) (.add (.add (.div (.add (.num 17151856099999998 16) (.div (.neg (.num 141518724 4)) (.rd (.var .T)))) (.rd (.var .T))) (.num 10312637150000001 19)) (.mul (.rd (.var .T)) (.add (.neg (.num 33294192366666671 23)) (.mul (.rd (.var .T)) (.add (.num 57513252 18) (.mul (.neg (.num 40729543200000001 31)) (.rd (.var .T)))))))),
  .ite (.rd (.var .T)) (.num 1000 0) (.arr .dBdT 12) (.add (.add (.div (.add (.num 135677352 8) (.div (.neg (.num 48371969700000001 12)) (.rd (.var .T)))) (.rd (.var .T))) (.num 44922983850000002 19)) (.mul (.rd (.var .T)) (.add (.neg (.num 23745208966666665 22)) (.mul (.rd (.var .T)) (.add (.num 61479755499999995 26) (.mul (.neg (.num 28739909599999997 30)) (.rd (.var .T)))))))) (.add (.add (.div (.add (.num 28574602900000001 16) (.div (.neg (.num 48759165999999997 12)) (.rd (.var .T)))) (.rd (.var .T))) (.num 22071851299999999 19)) (.mul (.rd (.var .T)) (.add (.neg (.num 73827134666666672 23)) (.mul (.rd (.var .T)) (.add (.num 13087254700000001 26) (.mul (.neg (.num 94416832800000002 31)) (.rd (.var .T)))))))),
  .ite (.rd (.var .T)) (.num 1000 0) (.arr .dBdT 13) (.add (.add (.div (.add (.num 32211858400000004 16) (.div (.num 38395649600000002 13) (.rd (.var .T)))) (.rd (.var .T))) (.neg (.num 162196266 11))) (.mul (.rd (.var .T)) (.add (.num 45933148666666667 22) (.mul (.rd (.var .T)) (.add (.neg (.num 33286023250000002 25)) (.mul (.num 86753773 20) (.rd (.var .T)))))))) (.add (.add (.div (.add (.num 177217438 8) (.div (.num 401191815 5) (.rd (.var .T)))) (.rd (.var .T))) (.num 24784776299999998 19)) (.mul (.rd (.var .T)) (.add (.neg (.num 82815204333333337 23)) (.mul (.rd (.var .T)) (.add (.num 14729044450000001 26) (.mul (.neg (.num 1067017422 23)) (.rd (.var .T)))))))),
  .ite (.rd (.var .T)) (.num 1000 0) (.arr .dBdT 14) (.add (.add (.div (.add (.num 37937231499999999 16) (.div (.neg (.num 14308956700000001 12)) (.rd (.var .T)))) (.rd (.var .T))) (.neg (.num 4954166845 12))) (.mul (.rd (.var .T)) (.add (.num 12440666933333332 21) (.mul (.rd (.var .T)) (.add (.neg (.num 94821315249999995 25)) (.mul (.num 26354530400000001 28) (.rd (.var .T)))))))) (.add (.add (.div (.add (.num 76069008000000005 17) (.div (.neg (.num 139958323 4)) (.rd (.var .T)))) (.rd (.var .T))) (.num 460000041 11)) (.mul (.rd (.var .T)) (.add (.neg (.num 14741960433333332 22)) (.mul (.rd (.var .T)) (.add (.num 25160302999999999 26) (.mul (.neg (.num 17677112800000002 30)) (.rd (.var .T)))))))),
  .ite (.rd (.var .T)) (.num 1000 0) (.arr .dBdT 15) (.add (.add (.div (.add (.num 1106204 6) (.div (.num 97860109999999997 14) (.rd (.var .T)))) (.rd (.var .T))) (.num 36082975000000001 19)) (.mul (.rd (.var .T)) (.add (.num 17794906666666667 22) (.mul (.rd (.var .T)) (.add (.neg (.num 18444089999999999 25)) (.mul (.num 415122 18) (.rd (.var .T)))))))) (.add (.add (.div (.add (.num 27707989999999998 16) (.div (.num 12783252 5) (.rd (.var .T)))) (.rd (.var .T))) (.num 39357484999999999 19)) (.mul (.rd (.var .T)) (.add (.neg (.num 88546133333333336 23)) (.mul (.rd (.var .T)) (.add (.num 98610774999999998 27) (.mul (.neg (.num 42252319999999999 31)) (.rd (.var .T)))))))),
  .ite (.rd (.var .T)) (.num 1000 0) (.arr .dBdT 16) (.add (.add (.div (.add (.num 29592014799999999 16) (.div (.num 50897759299999998 13) (.rd (.var .T)))) (.rd (.var .T))) (.neg (.num 37852612350000002 19))) (.mul (.rd (.var .T)) (.add (.num 19033009733333333 21) (.mul (.rd (.var .T)) (.add (.neg (.num 17289718825 18)) (.mul (.num 53976874600000004 28) (.rd (.var .T)))))))) (.add (.add (.div (.add (.num 10361111599999999 16) (.div (.num 49398861399999996 13) (.rd (.var .T)))) (.rd (.var .T))) (.num 73227075499999999 19)) (.mul (.rd (.var .T)) (.add (.neg (.num 22369263833333335 22)) (.mul (.rd (.var .T)) (.add (.num 36805730750000002 26) (.mul (.neg (.num 251412122 22)) (.rd (.var .T)))))))),
  .ite (.rd (.var .T)) (.num 1000 0) (.arr .dBdT 17) (.add (.add (.div (.add (.num 33064656799999996 16) (.div (.num 128416265 4) (.rd (.var .T)))) (.rd (.var .T))) (.neg (.num 20932944600000002 19))) (.mul (.rd (.var .T)) (.add (.num 16571426900000001 21) (.mul (.rd (.var .T)) (.add (.neg (.num 14978165149999999 24)) (.mul (.num 46101800800000003 28) (.rd (.var .T)))))))) (.add (.add (.div (.add (.num 95465642000000006 17) (.div (.num 1285752 2) (.rd (.var .T)))) (.rd (.var .T))) (.num 86986361000000005 19)) (.mul (.rd (.var .T)) (.add (.neg (.num 26606888933333333 22)) (.mul (.rd (.var .T)) (.add (.num 43804422250000001 26) (.mul (.neg (.num 29928315199999999 30)) (.rd (.var .T)))))))),
  .ite (.rd (.var .T)) (.num 1000 0) (.arr .dBdT 18) (.add (.add (.div (.add (.num 32914249199999999 16) (.div (.neg (.num 115222055 4)) (.rd (.var .T)))) (.rd (.var .T))) (.neg (.num 27507713499999998 19))) (.mul (.rd (.var .T)) (.add (.num 19981276266666669 21) (.mul (.rd (.var .T)) (.add (.neg (.num 17711657125 18)) (.mul (.num 53737154200000002 28) (.rd (.var .T)))))))) (.add (.add (.div (.add (.num 71881499999999932 18) (.div (.neg (.num 114263932 4)) (.rd (.var .T)))) (.rd (.var .T))) (.num 1084263385 11)) (.mul (.rd (.var .T)) (.add (.neg (.num 33418689 13)) (.mul (.rd (.var .T)) (.add (.num 55353000250000001 26) (.mul (.neg (.num 38000577999999999 30)) (.rd (.var .T)))))))),
  .ite (.rd (.var .T)) (.num 1000 0) (.arr .dBdT 19) (.add (.add (.div (.add (.num 15 1) (.div (.neg (.num 745375 3)) (.rd (.var .T)))) (.rd (.var .T))) (.num 0 0)) (.mul (.rd (.var .T)) (.add (.num 0 0) (.mul (.rd (.var .T)) (.add (.num 0 0) (.mul (.num 0 0) (.rd (.var .T)))))))) (.add (.add (.div (.add (.num 15 1) (.div (.neg (.num 745375 3)) (.rd (.var .T)))) (.rd (.var .T))) (.num 0 0)) (.mul (.rd (.var .T)) (.add (.num 0 0) (.mul (.rd (.var .T)) (.add (.num 0 0) (.mul (.num 0 0) (.rd (.var .T)))))))),
  .ite (.rd (.var .T)) (.num 1000 0) (.arr .dBdT 20) (.add (.add (.div (.add (.num 22986770000000001 16) (.div (.neg (.num 10208999 4)) (.rd (.var .T)))) (.rd (.var .T))) (.num 70412019999999999 20)) (.mul (.rd (.var .T)) (.add (.neg (.num 13210739999999999 22)) (.mul (.rd (.var .T)) (.add (.num 14103787500000001 25) (.mul (.neg (.num 48897079999999994 29)) (.rd (.var .T)))))))) (.add (.add (.div (.add (.num 19266399999999999 16) (.div (.neg (.num 92279769999999996 14)) (.rd (.var .T)))) (.rd (.var .T))) (.num 74398840000000003 20)) (.mul (.rd (.var .T)) (.add (.neg (.num 18949200000000001 23)) (.mul (.rd (.var .T)) (.add (.num 25242595 18) (.mul (.neg (.num 13506701999999999 31)) (.rd (.var .T))))))))]

/-- `cp_avg`, `jac[0]` and `working_temp`, utilities/mechanisms/drm19/lib/src/jacob.c:91-97 -/
def jacobCpAvg : List CStmt := [
  .set (.var .cpAvg) (.add (.add (.add (.add (.add (.add (.add (.add (.add (.add (.add (.add (.add (.add (.add (.add (.add (.add (.add (.add (.mul (.rd (.arr .y 1)) (.rd (.arr .cp 0))) (.mul (.rd (.arr .y 2)) (.rd (.arr .cp 1)))) (.mul (.rd (.arr .y 3)) (.rd (.arr .cp 2)))) (.mul (.rd (.arr .y 4)) (.rd (.arr .cp 3)))) (.mul (.rd (.arr .y 5)) (.rd (.arr .cp 4)))) (.mul (.rd (.arr .y 6)) (.rd (.arr .cp 5)))) (.mul (.rd (.arr .y 7)) (.rd (.arr .cp 6)))) (.mul (.rd (.arr .y 8)) (.rd (.arr .cp 7)))) (.mul (.rd (.arr .y 9)) (.rd (.arr .cp 8)))) (.mul (.rd (.arr .y 10)) (.rd (.arr .cp 9)))) (.mul (.rd (.arr .y 11)) (.rd (.arr .cp 10)))) (.mul (.rd (.arr .y 12)) (.rd (.arr .cp 11)))) (.mul (.rd (.arr .y 13)) (.rd (.arr .cp 12)))) (.mul (.rd (.arr .y 14)) (.rd (.arr .cp 13)))) (.mul (.rd (.arr .y 15)) (.rd (.arr .cp 14)))) (.mul (.rd (.arr .y 16)) (.rd (.arr .cp 15)))) (.mul (.rd (.arr .y 17)) (.rd (.arr .cp 16)))) (.mul (.rd (.arr .y 18)) (.rd (.arr .cp 17)))) (.mul (.rd (.arr .y 19)) (.rd (.arr .cp 18)))) (.mul (.rd (.arr .y 20)) (.rd (.arr .cp 19)))) (.mul (.rd (.var .yN)) (.rd (.arr .cp 20)))),
  .set (.arr .jac 0) (.num 0 0),
  .set (.var .workTemp) (.num 0 0)]

/-- the last part of `eval_jacob`, utilities/mechanisms/drm19/lib/src/jacob.c:101-169 -/
def jacobLast : List CStmt := [
  .ite (.rd (.var .T)) (.num 1000 0) (.var .workTemp) (.add (.add (.add (.add (.add (.add (.add (.add (.add (.add (.add (.add (.add (.add (.add (.add (.add (.add (.add (.add (.mul (.mul (.rd (.arr .y 1)) (.num 41244826576978785 13)) (.add (.num 79805207499999992 19) (.mul (.rd (.var .T)) (.add (.neg (.num 38956301999999997 21)) (.mul (.rd (.var .T)) (.add (.num 60471628200000004 24) (.mul (.neg (.num 29504470440000002 27)) (.rd (.var .T))))))))) (.mul (.mul (.rd (.arr .y 2)) (.num 8248965315395757 12)) (.add (.num 70533281899999999 29) (.mul (.rd (.var .T)) (.add (.neg (.num 39918392799999999 31)) (.mul (.rd (.var .T)) (.add (.num 69024489599999992 34) (.mul (.neg (.num 37109293280000002 37)) (.rd (.var .T)))))))))) (.mul (.mul (.rd (.arr .y 3)) (.num 51967336900133762 14)) (.add (.neg (.num 32793188399999999 19)) (.mul (.rd (.var .T)) (.add (.num 13286127919999999 21) (.mul (.rd (.var .T)) (.add (.neg (.num 1838419872 17)) (.mul (.num 84506388399999997 28) (.rd (.var .T)))))))))) (.mul (.mul (.rd (.arr .y 4)) (.num 25983668450066881 14)) (.add (.neg (.num 29967341599999998 19)) (.mul (.rd (.var .T)) (.add (.num 1969460402 14) (.mul (.rd (.var .T)) (.add (.neg (.num 29043885270000002 24)) (.mul (.num 1297491348 20) (.rd (.var .T)))))))))) (.mul (.mul (.rd (.arr .y 5)) (.num 48887492694330808 14)) (.add (.neg (.num 24013175200000001 19)) (.mul (.rd (.var .T)) (.add (.num 92358768199999993 22) (.mul (.rd (.var .T)) (.add (.neg (.num 11643399990000001 24)) (.mul (.num 54564588000000001 28) (.rd (.var .T)))))))))) (.mul (.mul (.rd (.arr .y 6)) (.num 4615227795515807 13)) (.add (.neg (.num 20364341000000002 19)) (.mul (.rd (.var .T)) (.add (.num 13040804219999999 21) (.mul (.rd (.var .T)) (.add (.neg (.num 16463911860000002 24)) (.mul (.num 708791268 20) (.rd (.var .T)))))))))) (.mul (.mul (.rd (.arr .y 7)) (.num 25190194790518544 14)) (.add (.neg (.num 47491205099999996 19)) (.mul (.rd (.var .T)) (.add (.num 42316578199999997 21) (.mul (.rd (.var .T)) (.add (.neg (.num 72829168200000001 24)) (.mul (.num 37169004960000001 27) (.rd (.var .T)))))))))) (.mul (.mul (.rd (.arr .y 8)) (.num 59275206603321635 14)) (.add (.num 96887214300000004 20) (.mul (.rd (.var .T)) (.add (.num 55897968200000002 22) (.mul (.rd (.var .T)) (.add (.neg (.num 11552734590000001 24)) (.mul (.num 674966876 20) (.rd (.var .T)))))))))) (.mul (.mul (.rd (.arr .y 9)) (.num 59275206603321635 14)) (.add (.neg (.num 23666141900000001 19)) (.mul (.rd (.var .T)) (.add (.num 164659244 13) (.mul (.rd (.var .T)) (.add (.neg (.num 20064479430000002 24)) (.mul (.num 77725894800000005 28) (.rd (.var .T)))))))))) (.mul (.mul (.rd (.arr .y 10)) (.num 55301374409537334 14)) (.add (.num 201095175 11) (.mul (.rd (.var .T)) (.add (.num 1146043712 14) (.mul (.rd (.var .T)) (.add (.neg (.num 20613522750000001 24)) (.mul (.num 1017542936 20) (.rd (.var .T)))))))))) (.mul (.mul (.rd (.arr .y 11)) (.num 5182688078609915 13)) (.add (.neg (.num 13670978800000001 18)) (.mul (.rd (.var .T)) (.add (.num 98360119799999999 21) (.mul (.rd (.var .T)) (.add (.neg (.num 14542290780000001 23)) (.mul (.num 66677582399999996 27) (.rd (.var .T)))))))))) (.mul (.mul (.rd (.arr .y 12)) (.num 29683482206608977 14)) (.add (.neg (.num 61035368 11)) (.mul (.rd (.var .T)) (.add (.num 20336286600000001 22) (.mul (.rd (.var .T)) (.add (.num 27210176520000001 25) (.mul (.neg (.num 3617697996 21)) (.rd (.var .T)))))))))) (.mul (.mul (.rd (.arr .y 13)) (.num 18892296942953618 14)) (.add (.num 89845967700000005 19) (.mul (.rd (.var .T)) (.add (.neg (.num 1424712538 14)) (.mul (.rd (.var .T)) (.add (.num 73775706599999994 25) (.mul (.neg (.num 57479819199999996 29)) (.rd (.var .T)))))))))) (.mul (.mul (.rd (.arr .y 14)) (.num 2865243876803429 13)) (.add (.neg (.num 324392532 11)) (.mul (.rd (.var .T)) (.add (.num 275598892 13) (.mul (.rd (.var .T)) (.add (.neg (.num 39943227900000001 24)) (.mul (.num 173507546 19) (.rd (.var .T)))))))))) (.mul (.mul (.rd (.arr .y 15)) (.num 2769061668644934 13)) (.add (.neg (.num 99083336899999999 19)) (.mul (.rd (.var .T)) (.add (.num 74644001599999998 21) (.mul (.rd (.var .T)) (.add (.neg (.num 1137855783 16)) (.mul (.num 52709060799999999 27) (.rd (.var .T)))))))))) (.mul (.mul (.rd (.arr .y 16)) (.num 26791271377208773 14)) (.add (.num 72165950000000001 19) (.mul (.rd (.var .T)) (.add (.num 10676944 12) (.mul (.rd (.var .T)) (.add (.neg (.num 22132908000000001 24)) (.mul (.num 83024399999999995 28) (.rd (.var .T)))))))))) (.mul (.mul (.rd (.arr .y 17)) (.num 29637603301660818 14)) (.add (.neg (.num 75705224700000004 19)) (.mul (.rd (.var .T)) (.add (.num 1141980584 13) (.mul (.rd (.var .T)) (.add (.neg (.num 2074766259 16)) (.mul (.num 10795374920000001 26) (.rd (.var .T)))))))))) (.mul (.mul (.rd (.arr .y 18)) (.num 28609689384998131 14)) (.add (.neg (.num 41865889200000004 19)) (.mul (.rd (.var .T)) (.add (.num 99428561399999998 21) (.mul (.rd (.var .T)) (.add (.neg (.num 17973798179999999 23)) (.mul (.num 922036016 19) (.rd (.var .T)))))))))) (.mul (.mul (.rd (.arr .y 19)) (.num 27650687204768667 14)) (.add (.neg (.num 55015426999999997 19)) (.mul (.rd (.var .T)) (.add (.num 11988765760000001 20) (.mul (.rd (.var .T)) (.add (.neg (.num 2125398855 16)) (.mul (.num 1074743084 19) (.rd (.var .T)))))))))) (.mul (.mul (.rd (.arr .y 20)) (.num 20813212426154001 14)) (.add (.num 0 0) (.mul (.rd (.var .T)) (.add (.num 0 0) (.mul (.rd (.var .T)) (.add (.num 0 0) (.mul (.num 0 0) (.rd (.var .T)))))))))) (.mul (.mul (.rd (.var .yN)) (.num 29680218594762238 14)) (.add (.num 14082404 10) (.mul (.rd (.var .T)) (.add (.neg (.num 79264439999999996 22)) (.mul (.rd (.var .T)) (.add (.num 16924545000000002 24) (.mul (.neg (.num 97794159999999997 28)) (.rd (.var .T)))))))))) (.add (.add (.add (.add (.add (.add (.add (.add (.add (.add (.add (.add (.add (.add (.add (.add (.add (.add (.add (.add (.mul (.mul (.rd (.arr .y 1)) (.num 41244826576978785 13)) (.add (.neg (.num 49402473099999998 21)) (.mul (.rd (.var .T)) (.add (.num 99891355599999992 23) (.mul (.rd (.var .T)) (.add (.neg (.num 53869918199999997 26)) (.mul (.num 80102150399999999 30) (.rd (.var .T))))))))) (.mul (.mul (.rd (.arr .y 2)) (.num 8248965315395757 12)) (.add (.neg (.num 23084297299999999 27)) (.mul (.rd (.var .T)) (.add (.num 32312389600000002 30) (.mul (.rd (.var .T)) (.add (.neg (.num 14205457050000002 33)) (.mul (.num 19927894280000001 37) (.rd (.var .T)))))))))) (.mul (.mul (.rd (.arr .y 3)) (.num 51967336900133762 14)) (.add (.neg (.num 85974113700000004 21)) (.mul (.rd (.var .T)) (.add (.num 83896917800000004 24) (.mul (.rd (.var .T)) (.add (.neg (.num 30053339700000001 27)) (.mul (.num 49133476399999997 31) (.rd (.var .T)))))))))) (.mul (.mul (.rd (.arr .y 4)) (.num 25983668450066881 14)) (.add (.num 14830875399999999 19) (.mul (.rd (.var .T)) (.add (.neg (.num 1515933338 15)) (.mul (.rd (.var .T)) (.add (.num 62841166499999998 26) (.mul (.neg (.num 86687117599999996 30)) (.rd (.var .T)))))))))) (.mul (.mul (.rd (.arr .y 5)) (.num 48887492694330808 14)) (.add (.num 54842971599999998 20) (.mul (.rd (.var .T)) (.add (.num 25301045599999997 23) (.mul (.rd (.var .T)) (.add (.neg (.num 2638384668 19)) (.mul (.num 46964950400000001 30) (.rd (.var .T)))))))))) (.mul (.mul (.rd (.arr .y 6)) (.num 4615227795515807 13)) (.add (.num 21769180400000002 19) (.mul (.rd (.var .T)) (.add (.neg (.num 32814503599999998 23)) (.mul (.rd (.var .T)) (.add (.neg (.num 291125961 18)) (.mul (.num 67280396799999996 30) (.rd (.var .T)))))))))) (.mul (.mul (.rd (.arr .y 7)) (.num 25190194790518544 14)) (.add (.num 22398201299999999 19) (.mul (.rd (.var .T)) (.add (.neg (.num 12673163 13)) (.mul (.rd (.var .T)) (.add (.num 34273911000000001 26) (.mul (.neg (.num 43163414 21)) (.rd (.var .T)))))))))) (.mul (.mul (.rd (.arr .y 8)) (.num 59275206603321635 14)) (.add (.num 36563929199999999 19) (.mul (.rd (.var .T)) (.add (.neg (.num 28178919400000001 22)) (.mul (.rd (.var .T)) (.add (.num 78053864700000003 26) (.mul (.neg (.num 75091026800000003 30)) (.rd (.var .T)))))))))) (.mul (.mul (.rd (.arr .y 9)) (.num 59275206603321635 14)) (.add (.num 465588637 11) (.mul (.rd (.var .T)) (.add (.neg (.num 40238389399999997 22)) (.mul (.rd (.var .T)) (.add (.num 12537180000000001 25) (.mul (.neg (.num 13588654599999999 29)) (.rd (.var .T)))))))))) (.mul (.mul (.rd (.arr .y 10)) (.num 55301374409537334 14)) (.add (.num 72399003699999999 19) (.mul (.rd (.var .T)) (.add (.neg (.num 59742869599999998 22)) (.mul (.rd (.var .T)) (.add (.num 17870539320000002 25) (.mul (.neg (.num 18686175760000001 29)) (.rd (.var .T)))))))))) (.mul (.mul (.rd (.arr .y 11)) (.num 5182688078609915 13)) (.add (.num 133909467 10) (.mul (.rd (.var .T)) (.add (.neg (.num 1146571618 14)) (.mul (.rd (.var .T)) (.add (.num 36687760500000002 25) (.mul (.neg (.num 40726092000000001 29)) (.rd (.var .T)))))))))) (.mul (.mul (.rd (.arr .y 12)) (.num 29683482206608977 14)) (.add (.num 20625274300000002 19) (.mul (.rd (.var .T)) (.add (.neg (.num 19976515420000001 22)) (.mul (.rd (.var .T)) (.add (.num 69015902399999998 26) (.mul (.neg (.num 81459086400000001 30)) (.rd (.var .T)))))))))) (.mul (.mul (.rd (.arr .y 13)) (.num 18892296942953618 14)) (.add (.num 44143702599999998 19) (.mul (.rd (.var .T)) (.add (.neg (.num 44296280800000001 22)) (.mul (.rd (.var .T)) (.add (.num 1570470564 18) (.mul (.neg (.num 18883366560000001 29)) (.rd (.var .T)))))))))) (.mul (.mul (.rd (.arr .y 14)) (.num 2865243876803429 13)) (.add (.num 49569552599999997 19) (.mul (.rd (.var .T)) (.add (.neg (.num 496891226 14)) (.mul (.rd (.var .T)) (.add (.num 17674853340000001 25) (.mul (.neg (.num 2134034844 22)) (.rd (.var .T)))))))))) (.mul (.mul (.rd (.arr .y 15)) (.num 2769061668644934 13)) (.add (.num 920000082 11) (.mul (.rd (.var .T)) (.add (.neg (.num 88451762599999995 22)) (.mul (.rd (.var .T)) (.add (.num 30192363599999999 25) (.mul (.neg (.num 35354225600000002 29)) (.rd (.var .T)))))))))) (.mul (.mul (.rd (.arr .y 16)) (.num 26791271377208773 14)) (.add (.num 78714969999999999 19) (.mul (.rd (.var .T)) (.add (.neg (.num 53127680000000002 22)) (.mul (.rd (.var .T)) (.add (.num 11833293000000001 25) (.mul (.neg (.num 84504640000000004 30)) (.rd (.var .T)))))))))) (.mul (.mul (.rd (.arr .y 17)) (.num 29637603301660818 14)) (.add (.num 146454151 10) (.mul (.rd (.var .T)) (.add (.neg (.num 134215583 13)) (.mul (.rd (.var .T)) (.add (.num 44166876900000006 25) (.mul (.neg (.num 50282424399999999 29)) (.rd (.var .T)))))))))) (.mul (.mul (.rd (.arr .y 18)) (.num 28609689384998131 14)) (.add (.num 17397272200000001 18) (.mul (.rd (.var .T)) (.add (.neg (.num 15964133359999999 21)) (.mul (.rd (.var .T)) (.add (.num 52565306700000001 25) (.mul (.neg (.num 598566304 21)) (.rd (.var .T)))))))))) (.mul (.mul (.rd (.arr .y 19)) (.num 27650687204768667 14)) (.add (.num 216852677 10) (.mul (.rd (.var .T)) (.add (.neg (.num 20051213400000001 21)) (.mul (.rd (.var .T)) (.add (.num 66423600300000001 25) (.mul (.neg (.num 76001155999999998 29)) (.rd (.var .T)))))))))) (.mul (.mul (.rd (.arr .y 20)) (.num 20813212426154001 14)) (.add (.num 0 0) (.mul (.rd (.var .T)) (.add (.num 0 0) (.mul (.rd (.var .T)) (.add (.num 0 0) (.mul (.num 0 0) (.rd (.var .T)))))))))) (.mul (.mul (.rd (.var .yN)) (.num 29680218594762238 14)) (.add (.num 14879768000000001 19) (.mul (.rd (.var .T)) (.add (.neg (.num 1136952 12)) (.mul (.rd (.var .T)) (.add (.num 30291114 17) (.mul (.neg (.num 27013403999999999 30)) (.rd (.var .T)))))))))),
  .set (.arr .jac 0) (.div (.neg (.add (.add (.add (.add (.add (.add (.add (.add (.add (.add (.add (.add (.add (.add (.add (.add (.add (.add (.add (.add (.add (.add (.add (.add (.add (.add (.add (.add (.add (.add (.add (.add (.add (.add (.add (.add (.add (.add (.add (.add (.mul (.mul (.rd (.arr .spRates 0)) (.num 201588 5)) (.add (.div (.mul (.neg (.rd (.var .workTemp))) (.rd (.arr .h 0))) (.rd (.var .cpAvg))) (.rd (.arr .cp 0)))) (.mul (.mul (.rd (.arr .jac 1)) (.rd (.arr .h 0))) (.rd (.var .rho)))) (.mul (.mul (.rd (.arr .spRates 1)) (.num 100794 5)) (.add (.div (.mul (.neg (.rd (.var .workTemp))) (.rd (.arr .h 1))) (.rd (.var .cpAvg))) (.rd (.arr .cp 1))))) (.mul (.mul (.rd (.arr .jac 2)) (.rd (.arr .h 1))) (.rd (.var .rho)))) (.mul (.mul (.rd (.arr .spRates 2)) (.num 159994 4)) (.add (.div (.mul (.neg (.rd (.var .workTemp))) (.rd (.arr .h 2))) (.rd (.var .cpAvg))) (.rd (.arr .cp 2))))) (.mul (.mul (.rd (.arr .jac 3)) (.rd (.arr .h 2))) (.rd (.var .rho)))) (.mul (.mul (.rd (.arr .spRates 3)) (.num 319988 4)) (.add (.div (.mul (.neg (.rd (.var .workTemp))) (.rd (.arr .h 3))) (.rd (.var .cpAvg))) (.rd (.arr .cp 3))))) (.mul (.mul (.rd (.arr .jac 4)) (.rd (.arr .h 3))) (.rd (.var .rho)))) (.mul (.mul (.rd (.arr .spRates 4)) (.num 1700734 5)) (.add (.div (.mul (.neg (.rd (.var .workTemp))) (.rd (.arr .h 4))) (.rd (.var .cpAvg))) (.rd (.arr .cp 4))))) (.mul (.mul (.rd (.arr .jac 5)) (.rd (.arr .h 4))) (.rd (.var .rho)))) (.mul (.mul (.rd (.arr .spRates 5)) (.num 1801528 5)) (.add (.div (.mul (.neg (.rd (.var .workTemp))) (.rd (.arr .h 5))) (.rd (.var .cpAvg))) (.rd (.arr .cp 5))))) (.mul (.mul (.rd (.arr .jac 6)) (.rd (.arr .h 5))) (.rd (.var .rho)))) (.mul (.mul (.rd (.arr .spRates 6)) (.num 3300674 5)) (.add (.div (.mul (.neg (.rd (.var .workTemp))) (.rd (.arr .h 6))) (.rd (.var .cpAvg))) (.rd (.arr .cp 6))))) (.mul (.mul (.rd (.arr .jac 7)) (.rd (.arr .h 6))) (.rd (.var .rho)))) (.mul (.mul (.rd (.arr .spRates 7)) (.num 1402688 5)) (.add (.div (.mul (.neg (.rd (.var .workTemp))) (.rd (.arr .h 7))) (.rd (.var .cpAvg))) (.rd (.arr .cp 7))))) (.mul (.mul (.rd (.arr .jac 8)) (.rd (.arr .h 7))) (.rd (.var .rho)))) (.mul (.mul (.rd (.arr .spRates 8)) (.num 1402688 5)) (.add (.div (.mul (.neg (.rd (.var .workTemp))) (.rd (.arr .h 8))) (.rd (.var .cpAvg))) (.rd (.arr .cp 8))))) (.mul (.mul (.rd (.arr .jac 9)) (.rd (.arr .h 8))) (.rd (.var .rho)))) (.mul (.mul (.rd (.arr .spRates 9)) (.num 1503482 5)) (.add (.div (.mul (.neg (.rd (.var .workTemp))) (.rd (.arr .h 9))) (.rd (.var .cpAvg))) (.rd (.arr .cp 9))))) (.mul (.mul (.rd (.arr .jac 10)) (.rd (.arr .h 9))) (.rd (.var .rho)))) (.mul (.mul (.rd (.arr .spRates 10)) (.num 1604276 5)) (.add (.div (.mul (.neg (.rd (.var .workTemp))) (.rd (.arr .h 10))) (.rd (.var .cpAvg))) (.rd (.arr .cp 10))))) (.mul (.mul (.rd (.arr .jac 11)) (.rd (.arr .h 10))) (.rd (.var .rho)))) (.mul (.mul (.rd (.arr .spRates 11)) (.num 280104 4)) (.add (.div (.mul (.neg (.rd (.var .workTemp))) (.rd (.arr .h 11))) (.rd (.var .cpAvg))) (.rd (.arr .cp 11))))) (.mul (.mul (.rd (.arr .jac 12)) (.rd (.arr .h 11))) (.rd (.var .rho)))) (.mul (.mul (.rd (.arr .spRates 12)) (.num 440098 4)) (.add (.div (.mul (.neg (.rd (.var .workTemp))) (.rd (.arr .h 12))) (.rd (.var .cpAvg))) (.rd (.arr .cp 12))))) (.mul (.mul (.rd (.arr .jac 13)) (.rd (.arr .h 12))) (.rd (.var .rho)))) (.mul (.mul (.rd (.arr .spRates 13)) (.num 2901834 5)) (.add (.div (.mul (.neg (.rd (.var .workTemp))) (.rd (.arr .h 13))) (.rd (.var .cpAvg))) (.rd (.arr .cp 13))))) (.mul (.mul (.rd (.arr .jac 14)) (.rd (.arr .h 13))) (.rd (.var .rho)))) (.mul (.mul (.rd (.arr .spRates 14)) (.num 3002628 5)) (.add (.div (.mul (.neg (.rd (.var .workTemp))) (.rd (.arr .h 14))) (.rd (.var .cpAvg))) (.rd (.arr .cp 14))))) (.mul (.mul (.rd (.arr .jac 15)) (.rd (.arr .h 14))) (.rd (.var .rho)))) (.mul (.mul (.rd (.arr .spRates 15)) (.num 3103422 5)) (.add (.div (.mul (.neg (.rd (.var .workTemp))) (.rd (.arr .h 15))) (.rd (.var .cpAvg))) (.rd (.arr .cp 15))))) (.mul (.mul (.rd (.arr .jac 16)) (.rd (.arr .h 15))) (.rd (.var .rho)))) (.mul (.mul (.rd (.arr .spRates 16)) (.num 2805376 5)) (.add (.div (.mul (.neg (.rd (.var .workTemp))) (.rd (.arr .h 16))) (.rd (.var .cpAvg))) (.rd (.arr .cp 16))))) (.mul (.mul (.rd (.arr .jac 17)) (.rd (.arr .h 16))) (.rd (.var .rho)))) (.mul (.mul (.rd (.arr .spRates 17)) (.num 290617 4)) (.add (.div (.mul (.neg (.rd (.var .workTemp))) (.rd (.arr .h 17))) (.rd (.var .cpAvg))) (.rd (.arr .cp 17))))) (.mul (.mul (.rd (.arr .jac 18)) (.rd (.arr .h 17))) (.rd (.var .rho)))) (.mul (.mul (.rd (.arr .spRates 18)) (.num 3006964 5)) (.add (.div (.mul (.neg (.rd (.var .workTemp))) (.rd (.arr .h 18))) (.rd (.var .cpAvg))) (.rd (.arr .cp 18))))) (.mul (.mul (.rd (.arr .jac 19)) (.rd (.arr .h 18))) (.rd (.var .rho)))) (.mul (.mul (.rd (.arr .spRates 19)) (.num 39948 3)) (.add (.div (.mul (.neg (.rd (.var .workTemp))) (.rd (.arr .h 19))) (.rd (.var .cpAvg))) (.rd (.arr .cp 19))))) (.mul (.mul (.rd (.arr .jac 20)) (.rd (.arr .h 19))) (.rd (.var .rho)))) (.mul (.mul (.rd (.arr .spRates 20)) (.num 2801348 5)) (.add (.div (.mul (.neg (.rd (.var .workTemp))) (.rd (.arr .h 20))) (.rd (.var .cpAvg))) (.rd (.arr .cp 20)))))) (.mul (.rd (.var .rho)) (.rd (.var .cpAvg))))]

end DLB.Mech.Drm19
