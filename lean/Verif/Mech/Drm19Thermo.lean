/- Generated by tools/gen_mechanisms.py from utilities/mechanisms/drm19/lib/src/{chem_utils,dydt,mass_mole,mechanism}.c. Do not edit. -/
import Verif.Model.CLang
set_option autoImplicit false

namespace DLB.Mech.Drm19
open DLB

/-- utilities/mechanisms/drm19/lib/src/chem_utils.c:12-53 -/
def evalConc : List CStmt := [
  .set (.var .yN) (.sub (.num 1 0) (.add (.add (.add (.add (.add (.add (.add (.add (.add (.add (.add (.add (.add (.add (.add (.add (.add (.add (.add (.rd (.arr .y 0)) (.rd (.arr .y 1))) (.rd (.arr .y 2))) (.rd (.arr .y 3))) (.rd (.arr .y 4))) (.rd (.arr .y 5))) (.rd (.arr .y 6))) (.rd (.arr .y 7))) (.rd (.arr .y 8))) (.rd (.arr .y 9))) (.rd (.arr .y 10))) (.rd (.arr .y 11))) (.rd (.arr .y 12))) (.rd (.arr .y 13))) (.rd (.arr .y 14))) (.rd (.arr .y 15))) (.rd (.arr .y 16))) (.rd (.arr .y 17))) (.rd (.arr .y 18))) (.rd (.arr .y 19)))),
  .set (.var .mwAvg) (.add (.add (.add (.add (.add (.add (.add (.add (.add (.add (.add (.add (.add (.add (.add (.add (.add (.add (.add (.add (.mul (.rd (.arr .y 0)) (.num 49606127348850126 17)) (.mul (.rd (.arr .y 1)) (.num 99212254697700253 17))) (.mul (.rd (.arr .y 2)) (.num 62502343837893923 18))) (.mul (.rd (.arr .y 3)) (.num 31251171918946961 18))) (.mul (.rd (.arr .y 4)) (.num 58798142449083754 18))) (.mul (.rd (.arr .y 5)) (.num 5550843506179199 17))) (.mul (.rd (.arr .y 6)) (.num 30296842402491128 18))) (.mul (.rd (.arr .y 7)) (.num 71291691381119682 18))) (.mul (.rd (.arr .y 8)) (.num 71291691381119682 18))) (.mul (.rd (.arr .y 9)) (.num 6651226951835805 17))) (.mul (.rd (.arr .y 10)) (.num 62333413951215375 18))) (.mul (.rd (.arr .y 11)) (.num 35701025333447579 18))) (.mul (.rd (.arr .y 12)) (.num 22722211870992371 18))) (.mul (.rd (.arr .y 13)) (.num 34460965031080343 18))) (.mul (.rd (.arr .y 14)) (.num 33304158890145569 18))) (.mul (.rd (.arr .y 15)) (.num 32222495039346891 18))) (.mul (.rd (.arr .y 16)) (.num 35645845690559841 18))) (.mul (.rd (.arr .y 17)) (.num 34409549338132318 18))) (.mul (.rd (.arr .y 18)) (.num 33256134759179025 18))) (.mul (.rd (.arr .y 19)) (.num 25032542304996495 18))) (.mul (.rd (.var .yN)) (.num 35697100110375433 18))),
  .set (.var .mwAvg) (.div (.num 1 0) (.rd (.var .mwAvg))),
  .set (.var .rho) (.div (.mul (.rd (.var .pres)) (.rd (.var .mwAvg))) (.mul (.num 83144621 4) (.rd (.var .T)))),
  .set (.arr .C 0) (.mul (.mul (.rd (.var .rho)) (.rd (.arr .y 0))) (.num 49606127348850126 17)),
  .set (.arr .C 1) (.mul (.mul (.rd (.var .rho)) (.rd (.arr .y 1))) (.num 99212254697700253 17)),
  .set (.arr .C 2) (.mul (.mul (.rd (.var .rho)) (.rd (.arr .y 2))) (.num 62502343837893923 18)),
  .set (.arr .C 3) (.mul (.mul (.rd (.var .rho)) (.rd (.arr .y 3))) (.num 31251171918946961 18)),
  .set (.arr .C 4) (.mul (.mul (.rd (.var .rho)) (.rd (.arr .y 4))) (.num 58798142449083754 18)),
  .set (.arr .C 5) (.mul (.mul (.rd (.var .rho)) (.rd (.arr .y 5))) (.num 5550843506179199 17)),
  .set (.arr .C 6) (.mul (.mul (.rd (.var .rho)) (.rd (.arr .y 6))) (.num 30296842402491128 18)),
  .set (.arr .C 7) (.mul (.mul (.rd (.var .rho)) (.rd (.arr .y 7))) (.num 71291691381119682 18)),
  .set (.arr .C 8) (.mul (.mul (.rd (.var .rho)) (.rd (.arr .y 8))) (.num 71291691381119682 18)),
  .set (.arr .C 9) (.mul (.mul (.rd (.var .rho)) (.rd (.arr .y 9))) (.num 6651226951835805 17)),
  .set (.arr .C 10) (.mul (.mul (.rd (.var .rho)) (.rd (.arr .y 10))) (.num 62333413951215375 18)),
  .set (.arr .C 11) (.mul (.mul (.rd (.var .rho)) (.rd (.arr .y 11))) (.num 35701025333447579 18)),
  .set (.arr .C 12) (.mul (.mul (.rd (.var .rho)) (.rd (.arr .y 12))) (.num 22722211870992371 18)),
  .set (.arr .C 13) (.mul (.mul (.rd (.var .rho)) (.rd (.arr .y 13))) (.num 34460965031080343 18)),
  .set (.arr .C 14) (.mul (.mul (.rd (.var .rho)) (.rd (.arr .y 14))) (.num 33304158890145569 18)),
  .set (.arr .C 15) (.mul (.mul (.rd (.var .rho)) (.rd (.arr .y 15))) (.num 32222495039346891 18)),
  .set (.arr .C 16) (.mul (.mul (.rd (.var .rho)) (.rd (.arr .y 16))) (.num 35645845690559841 18)),
  .set (.arr .C 17) (.mul (.mul (.rd (.var .rho)) (.rd (.arr .y 17))) (.num 34409549338132318 18)),
  .set (.arr .C 18) (.mul (.mul (.rd (.var .rho)) (.rd (.arr .y 18))) (.num 33256134759179025 18)),
  .set (.arr .C 19) (.mul (.mul (.rd (.var .rho)) (.rd (.arr .y 19))) (.num 25032542304996495 18)),
  .set (.arr .C 20) (.mul (.mul (.rd (.var .rho)) (.rd (.var .yN))) (.num 35697100110375433 18))]

/-- utilities/mechanisms/drm19/lib/src/chem_utils.c:98-226 -/
def evalH : List CStmt := [
  .ite (.rd (.var .T)) (.num 1000 0) (.arr .h 0) (.mul (.num 41244826576978785 13) (.add (.neg (.num 91793517299999996 14)) (.mul (.rd (.var .T)) (.add (.num 23443311200000001 16) (.mul (.rd (.var .T)) (.add (.num 39902603749999996 19) (.mul (.rd (.var .T)) (.add (.neg (.num 64927169999999995 22)) (.mul (.rd (.var .T)) (.add (.num 50393023500000001 25) (.mul (.neg (.num 14752235220000002 28)) (.rd (.var .T))))))))))))) (.mul (.num 41244826576978785 13) (.add (.neg (.num 95015892199999996 14)) (.mul (.rd (.var .T)) (.add (.num 33372791999999998 16) (.mul (.rd (.var .T)) (.add (.neg (.num 24701236549999999 21)) (.mul (.rd (.var .T)) (.add (.num 16648559266666665 23) (.mul (.rd (.var .T)) (.add (.neg (.num 44891598500000001 27)) (.mul (.num 40051075199999998 31) (.rd (.var .T))))))))))))),
  .ite (.rd (.var .T)) (.num 1000 0) (.arr .h 1) (.mul (.num 8248965315395757 12) (.add (.num 25473659899999999 12) (.mul (.rd (.var .T)) (.add (.num 25 1) (.mul (.rd (.var .T)) (.add (.num 35266640949999999 29) (.mul (.rd (.var .T)) (.add (.neg (.num 66530654666666665 32)) (.mul (.rd (.var .T)) (.add (.num 57520407999999997 35) (.mul (.neg (.num 18554646640000001 38)) (.rd (.var .T))))))))))))) (.mul (.num 8248965315395757 12) (.add (.num 25473659899999999 12) (.mul (.rd (.var .T)) (.add (.num 25000000099999999 16) (.mul (.rd (.var .T)) (.add (.neg (.num 11542148649999999 27)) (.mul (.rd (.var .T)) (.add (.num 53853982666666673 31) (.mul (.rd (.var .T)) (.add (.neg (.num 11837880875000001 34)) (.mul (.num 99639471400000006 39) (.rd (.var .T))))))))))))),
  .ite (.rd (.var .T)) (.num 1000 0) (.arr .h 2) (.mul (.num 51967336900133762 14) (.add (.num 291222592 4) (.mul (.rd (.var .T)) (.add (.num 31682671 7) (.mul (.rd (.var .T)) (.add (.neg (.num 163965942 11)) (.mul (.rd (.var .T)) (.add (.num 22143546533333334 22) (.mul (.rd (.var .T)) (.add (.neg (.num 153201656 17)) (.mul (.num 42253194199999998 29) (.rd (.var .T))))))))))))) (.mul (.num 51967336900133762 14) (.add (.num 29217579099999999 12) (.mul (.rd (.var .T)) (.add (.num 25694207800000002 16) (.mul (.rd (.var .T)) (.add (.neg (.num 42987056850000002 21)) (.mul (.rd (.var .T)) (.add (.num 13982819633333334 24) (.mul (.rd (.var .T)) (.add (.neg (.num 25044449749999998 28)) (.mul (.num 24566738199999997 32) (.rd (.var .T))))))))))))),
  .ite (.rd (.var .T)) (.num 1000 0) (.arr .h 3) (.mul (.num 25983668450066881 14) (.add (.neg (.num 10639435599999999 13)) (.mul (.rd (.var .T)) (.add (.num 37824563599999999 16) (.mul (.rd (.var .T)) (.add (.neg (.num 14983670799999999 19)) (.mul (.rd (.var .T)) (.add (.num 32824340033333332 22) (.mul (.rd (.var .T)) (.add (.neg (.num 24203237725000002 25)) (.mul (.num 648745674 21) (.rd (.var .T))))))))))))) (.mul (.num 25983668450066881 14) (.add (.neg (.num 10884577200000001 13)) (.mul (.rd (.var .T)) (.add (.num 32825378399999998 16) (.mul (.rd (.var .T)) (.add (.num 74154376999999996 20) (.mul (.rd (.var .T)) (.add (.neg (.num 25265555633333331 23)) (.mul (.rd (.var .T)) (.add (.num 52367638749999998 27) (.mul (.neg (.num 43343558799999996 31)) (.rd (.var .T))))))))))))),
  .ite (.rd (.var .T)) (.num 1000 0) (.arr .h 4) (.mul (.num 48887492694330808 14) (.add (.num 36150805599999999 13) (.mul (.rd (.var .T)) (.add (.num 39920154299999999 16) (.mul (.rd (.var .T)) (.add (.neg (.num 12006587600000001 19)) (.mul (.rd (.var .T)) (.add (.num 15393128033333333 22) (.mul (.rd (.var .T)) (.add (.neg (.num 97028333249999999 26)) (.mul (.num 27282293999999999 29) (.rd (.var .T))))))))))))) (.mul (.num 48887492694330808 14) (.add (.num 38586570000000002 13) (.mul (.rd (.var .T)) (.add (.num 30928876700000001 16) (.mul (.rd (.var .T)) (.add (.num 27421485799999999 20) (.mul (.rd (.var .T)) (.add (.num 42168409333333331 24) (.mul (.rd (.var .T)) (.add (.neg (.num 21986538899999999 27)) (.mul (.num 23482475199999999 31) (.rd (.var .T))))))))))))),
  .ite (.rd (.var .T)) (.num 1000 0) (.arr .h 5) (.mul (.num 4615227795515807 13) (.add (.neg (.num 30293726699999999 12)) (.mul (.rd (.var .T)) (.add (.num 41986405600000003 16) (.mul (.rd (.var .T)) (.add (.neg (.num 10182170500000001 19)) (.mul (.rd (.var .T)) (.add (.num 217346737 14) (.mul (.rd (.var .T)) (.add (.neg (.num 13719926550000001 25)) (.mul (.num 354395634 21) (.rd (.var .T))))))))))))) (.mul (.num 4615227795515807 13) (.add (.neg (.num 300042971 4)) (.mul (.rd (.var .T)) (.add (.num 30339924900000002 16) (.mul (.rd (.var .T)) (.add (.num 10884590200000001 19) (.mul (.rd (.var .T)) (.add (.neg (.num 54690839333333327 24)) (.mul (.rd (.var .T)) (.add (.neg (.num 2426049675 20)) (.mul (.num 33640198399999998 31) (.rd (.var .T))))))))))))),
  .ite (.rd (.var .T)) (.num 1000 0) (.arr .h 6) (.mul (.num 25190194790518544 14) (.add (.num 29480804000000001 14) (.mul (.rd (.var .T)) (.add (.num 43017980099999997 16) (.mul (.rd (.var .T)) (.add (.neg (.num 23745602549999998 19)) (.mul (.rd (.var .T)) (.add (.num 70527630333333326 22) (.mul (.rd (.var .T)) (.add (.neg (.num 606909735 17)) (.mul (.num 18584502480000002 28) (.rd (.var .T))))))))))))) (.mul (.num 25190194790518544 14) (.add (.num 111856713 6) (.mul (.rd (.var .T)) (.add (.num 40172109000000003 16) (.mul (.rd (.var .T)) (.add (.num 1119910065 12) (.mul (.rd (.var .T)) (.add (.neg (.num 21121938333333332 23)) (.mul (.rd (.var .T)) (.add (.num 28561592500000001 27) (.mul (.neg (.num 21581707 22)) (.rd (.var .T))))))))))))),
  .ite (.rd (.var .T)) (.num 1000 0) (.arr .h 7) (.mul (.num 59275206603321635 14) (.add (.num 46004040099999998 12) (.mul (.rd (.var .T)) (.add (.num 37626786700000001 16) (.mul (.rd (.var .T)) (.add (.num 48443607150000002 20) (.mul (.rd (.var .T)) (.add (.num 93163280333333339 23) (.mul (.rd (.var .T)) (.add (.neg (.num 96272788250000007 26)) (.mul (.num 33748343799999999 29) (.rd (.var .T))))))))))))) (.mul (.num 59275206603321635 14) (.add (.num 46263603999999999 12) (.mul (.rd (.var .T)) (.add (.num 28741011300000001 16) (.mul (.rd (.var .T)) (.add (.num 18281964599999999 19) (.mul (.rd (.var .T)) (.add (.neg (.num 46964865666666667 23)) (.mul (.rd (.var .T)) (.add (.num 65044887249999998 27) (.mul (.neg (.num 375455134 23)) (.rd (.var .T))))))))))))),
  .ite (.rd (.var .T)) (.num 1000 0) (.arr .h 8) (.mul (.num 59275206603321635 14) (.add (.num 50496816299999999 12) (.mul (.rd (.var .T)) (.add (.num 41986041099999998 16) (.mul (.rd (.var .T)) (.add (.neg (.num 1183307095 12)) (.mul (.rd (.var .T)) (.add (.num 27443207333333332 22) (.mul (.rd (.var .T)) (.add (.neg (.num 16720399525000001 25)) (.mul (.num 38862947400000001 29) (.rd (.var .T))))))))))))) (.mul (.num 59275206603321635 14) (.add (.num 509259997 4) (.mul (.rd (.var .T)) (.add (.num 22920384199999999 16) (.mul (.rd (.var .T)) (.add (.num 2327943185 12) (.mul (.rd (.var .T)) (.add (.neg (.num 67063982333333332 23)) (.mul (.rd (.var .T)) (.add (.num 10447650000000001 26) (.mul (.neg (.num 67943272999999998 31)) (.rd (.var .T))))))))))))),
  .ite (.rd (.var .T)) (.num 1000 0) (.arr .h 9) (.mul (.num 55301374409537334 14) (.add (.num 16444998800000001 12) (.mul (.rd (.var .T)) (.add (.num 36735904000000001 16) (.mul (.rd (.var .T)) (.add (.num 1005475875 12) (.mul (.rd (.var .T)) (.add (.num 19100728533333335 22) (.mul (.rd (.var .T)) (.add (.neg (.num 17177935625 19)) (.mul (.num 50877146800000003 29) (.rd (.var .T))))))))))))) (.mul (.num 55301374409537334 14) (.add (.num 16775584299999999 12) (.mul (.rd (.var .T)) (.add (.num 22857177200000001 16) (.mul (.rd (.var .T)) (.add (.num 36199501849999999 19) (.mul (.rd (.var .T)) (.add (.neg (.num 99571449333333331 23)) (.mul (.rd (.var .T)) (.add (.num 14892116100000001 26) (.mul (.neg (.num 93430878800000005 31)) (.rd (.var .T))))))))))))),
  .ite (.rd (.var .T)) (.num 1000 0) (.arr .h 10) (.mul (.num 5182688078609915 13) (.add (.neg (.num 102466476 4)) (.mul (.rd (.var .T)) (.add (.num 514987613 8) (.mul (.rd (.var .T)) (.add (.neg (.num 68354894000000003 19)) (.mul (.rd (.var .T)) (.add (.num 16393353300000001 21) (.mul (.rd (.var .T)) (.add (.neg (.num 1211857565 17)) (.mul (.num 333387912 20) (.rd (.var .T))))))))))))) (.mul (.num 5182688078609915 13) (.add (.neg (.num 94683445900000006 13)) (.mul (.rd (.var .T)) (.add (.num 74851495000000004 18) (.mul (.rd (.var .T)) (.add (.num 66954733499999999 19) (.mul (.rd (.var .T)) (.add (.neg (.num 19109526966666665 22)) (.mul (.rd (.var .T)) (.add (.num 3057313375 19) (.mul (.neg (.num 20363046000000002 30)) (.rd (.var .T))))))))))))),
  .ite (.rd (.var .T)) (.num 1000 0) (.arr .h 11) (.mul (.num 29683482206608977 14) (.add (.neg (.num 14344085999999999 12)) (.mul (.rd (.var .T)) (.add (.num 35795334699999999 16) (.mul (.rd (.var .T)) (.add (.neg (.num 30517684 11)) (.mul (.rd (.var .T)) (.add (.num 33893811000000002 23) (.mul (.rd (.var .T)) (.add (.num 226751471 18) (.mul (.neg (.num 18088489979999999 29)) (.rd (.var .T))))))))))))) (.mul (.num 29683482206608977 14) (.add (.neg (.num 141518724 4)) (.mul (.rd (.var .T)) (.add (.num 27151856099999998 16) (.mul (.rd (.var .T)) (.add (.num 10312637150000001 19) (.mul (.rd (.var .T)) (.add (.neg (.num 33294192366666671 23)) (.mul (.rd (.var .T)) (.add (.num 57513252 18) (.mul (.neg (.num 40729543200000001 31)) (.rd (.var .T))))))))))))),
  .ite (.rd (.var .T)) (.num 1000 0) (.arr .h 12) (.mul (.num 18892296942953618 14) (.add (.neg (.num 48371969700000001 12)) (.mul (.rd (.var .T)) (.add (.num 235677352 8) (.mul (.rd (.var .T)) (.add (.num 44922983850000002 19) (.mul (.rd (.var .T)) (.add (.neg (.num 23745208966666665 22)) (.mul (.rd (.var .T)) (.add (.num 61479755499999995 26) (.mul (.neg (.num 28739909599999997 30)) (.rd (.var .T))))))))))))) (.mul (.num 18892296942953618 14) (.add (.neg (.num 48759165999999997 12)) (.mul (.rd (.var .T)) (.add (.num 38574602900000001 16) (.mul (.rd (.var .T)) (.add (.num 22071851299999999 19) (.mul (.rd (.var .T)) (.add (.neg (.num 73827134666666672 23)) (.mul (.rd (.var .T)) (.add (.num 13087254700000001 26) (.mul (.neg (.num 94416832800000002 31)) (.rd (.var .T))))))))))))),
  .ite (.rd (.var .T)) (.num 1000 0) (.arr .h 13) (.mul (.num 2865243876803429 13) (.add (.num 38395649600000002 13) (.mul (.rd (.var .T)) (.add (.num 42211858400000004 16) (.mul (.rd (.var .T)) (.add (.neg (.num 162196266 11)) (.mul (.rd (.var .T)) (.add (.num 45933148666666667 22) (.mul (.rd (.var .T)) (.add (.neg (.num 33286023250000002 25)) (.mul (.num 86753773 20) (.rd (.var .T))))))))))))) (.mul (.num 2865243876803429 13) (.add (.num 401191815 5) (.mul (.rd (.var .T)) (.add (.num 277217438 8) (.mul (.rd (.var .T)) (.add (.num 24784776299999998 19) (.mul (.rd (.var .T)) (.add (.neg (.num 82815204333333337 23)) (.mul (.rd (.var .T)) (.add (.num 14729044450000001 26) (.mul (.neg (.num 1067017422 23)) (.rd (.var .T))))))))))))),
  .ite (.rd (.var .T)) (.num 1000 0) (.arr .h 14) (.mul (.num 2769061668644934 13) (.add (.neg (.num 14308956700000001 12)) (.mul (.rd (.var .T)) (.add (.num 47937231499999999 16) (.mul (.rd (.var .T)) (.add (.neg (.num 4954166845 12)) (.mul (.rd (.var .T)) (.add (.num 12440666933333332 21) (.mul (.rd (.var .T)) (.add (.neg (.num 94821315249999995 25)) (.mul (.num 26354530400000001 28) (.rd (.var .T))))))))))))) (.mul (.num 2769061668644934 13) (.add (.neg (.num 139958323 4)) (.mul (.rd (.var .T)) (.add (.num 176069008 8) (.mul (.rd (.var .T)) (.add (.num 460000041 11) (.mul (.rd (.var .T)) (.add (.neg (.num 14741960433333332 22)) (.mul (.rd (.var .T)) (.add (.num 25160302999999999 26) (.mul (.neg (.num 17677112800000002 30)) (.rd (.var .T))))))))))))),
  .ite (.rd (.var .T)) (.num 1000 0) (.arr .h 15) (.mul (.num 26791271377208773 14) (.add (.num 97860109999999997 14) (.mul (.rd (.var .T)) (.add (.num 2106204 6) (.mul (.rd (.var .T)) (.add (.num 36082975000000001 19) (.mul (.rd (.var .T)) (.add (.num 17794906666666667 22) (.mul (.rd (.var .T)) (.add (.neg (.num 18444089999999999 25)) (.mul (.num 415122 18) (.rd (.var .T))))))))))))) (.mul (.num 26791271377208773 14) (.add (.num 12783252 5) (.mul (.rd (.var .T)) (.add (.num 37707989999999998 16) (.mul (.rd (.var .T)) (.add (.num 39357484999999999 19) (.mul (.rd (.var .T)) (.add (.neg (.num 88546133333333336 23)) (.mul (.rd (.var .T)) (.add (.num 98610774999999998 27) (.mul (.neg (.num 42252319999999999 31)) (.rd (.var .T))))))))))))),
  .ite (.rd (.var .T)) (.num 1000 0) (.arr .h 16) (.mul (.num 29637603301660818 14) (.add (.num 50897759299999998 13) (.mul (.rd (.var .T)) (.add (.num 39592014799999999 16) (.mul (.rd (.var .T)) (.add (.neg (.num 37852612350000002 19)) (.mul (.rd (.var .T)) (.add (.num 19033009733333333 21) (.mul (.rd (.var .T)) (.add (.neg (.num 17289718825 18)) (.mul (.num 53976874600000004 28) (.rd (.var .T))))))))))))) (.mul (.num 29637603301660818 14) (.add (.num 49398861399999996 13) (.mul (.rd (.var .T)) (.add (.num 20361111599999999 16) (.mul (.rd (.var .T)) (.add (.num 73227075499999999 19) (.mul (.rd (.var .T)) (.add (.neg (.num 22369263833333335 22)) (.mul (.rd (.var .T)) (.add (.num 36805730750000002 26) (.mul (.neg (.num 251412122 22)) (.rd (.var .T))))))))))))),
  .ite (.rd (.var .T)) (.num 1000 0) (.arr .h 17) (.mul (.num 28609689384998131 14) (.add (.num 128416265 4) (.mul (.rd (.var .T)) (.add (.num 43064656799999996 16) (.mul (.rd (.var .T)) (.add (.neg (.num 20932944600000002 19)) (.mul (.rd (.var .T)) (.add (.num 16571426900000001 21) (.mul (.rd (.var .T)) (.add (.neg (.num 14978165149999999 24)) (.mul (.num 46101800800000003 28) (.rd (.var .T))))))))))))) (.mul (.num 28609689384998131 14) (.add (.num 1285752 2) (.mul (.rd (.var .T)) (.add (.num 19546564200000001 16) (.mul (.rd (.var .T)) (.add (.num 86986361000000005 19) (.mul (.rd (.var .T)) (.add (.neg (.num 26606888933333333 22)) (.mul (.rd (.var .T)) (.add (.num 43804422250000001 26) (.mul (.neg (.num 29928315199999999 30)) (.rd (.var .T))))))))))))),
  .ite (.rd (.var .T)) (.num 1000 0) (.arr .h 18) (.mul (.num 27650687204768667 14) (.add (.neg (.num 115222055 4)) (.mul (.rd (.var .T)) (.add (.num 42914249199999999 16) (.mul (.rd (.var .T)) (.add (.neg (.num 27507713499999998 19)) (.mul (.rd (.var .T)) (.add (.num 19981276266666669 21) (.mul (.rd (.var .T)) (.add (.neg (.num 17711657125 18)) (.mul (.num 53737154200000002 28) (.rd (.var .T))))))))))))) (.mul (.num 27650687204768667 14) (.add (.neg (.num 114263932 4)) (.mul (.rd (.var .T)) (.add (.num 10718814999999999 16) (.mul (.rd (.var .T)) (.add (.num 1084263385 11) (.mul (.rd (.var .T)) (.add (.neg (.num 33418689 13)) (.mul (.rd (.var .T)) (.add (.num 55353000250000001 26) (.mul (.neg (.num 38000577999999999 30)) (.rd (.var .T))))))))))))),
  .ite (.rd (.var .T)) (.num 1000 0) (.arr .h 19) (.mul (.num 20813212426154001 14) (.add (.neg (.num 745375 3)) (.mul (.rd (.var .T)) (.add (.num 25 1) (.mul (.rd (.var .T)) (.add (.num 0 0) (.mul (.rd (.var .T)) (.add (.num 0 0) (.mul (.rd (.var .T)) (.add (.num 0 0) (.mul (.num 0 0) (.rd (.var .T))))))))))))) (.mul (.num 20813212426154001 14) (.add (.neg (.num 745375 3)) (.mul (.rd (.var .T)) (.add (.num 25 1) (.mul (.rd (.var .T)) (.add (.num 0 0) (.mul (.rd (.var .T)) (.add (.num 0 0) (.mul (.rd (.var .T)) (.add (.num 0 0) (.mul (.num 0 0) (.rd (.var .T))))))))))))),
  .ite (.rd (.var .T)) (.num 1000 0) (.arr .h 20) (.mul (.num 29680218594762238 14) (.add (.neg (.num 10208999 4)) (.mul (.rd (.var .T)) (.add (.num 32986770000000001 16) (.mul (.rd (.var .T)) (.add (.num 70412019999999999 20) (.mul (.rd (.var .T)) (.add (.neg (.num 13210739999999999 22)) (.mul (.rd (.var .T)) (.add (.num 14103787500000001 25) (.mul (.neg (.num 48897079999999994 29)) (.rd (.var .T))))))))))))) (.mul (.num 29680218594762238 14) (.add (.neg (.num 92279769999999996 14)) (.mul (.rd (.var .T)) (.add (.num 29266399999999999 16) (.mul (.rd (.var .T)) (.add (.num 74398840000000003 20) (.mul (.rd (.var .T)) (.add (.neg (.num 18949200000000001 23)) (.mul (.rd (.var .T)) (.add (.num 25242595 18) (.mul (.neg (.num 13506701999999999 31)) (.rd (.var .T)))))))))))))]

/-- utilities/mechanisms/drm19/lib/src/chem_utils.c:488-616 -/
def evalCp : List CStmt := [
  .ite (.rd (.var .T)) (.num 1000 0) (.arr .cp 0) (.mul (.num 41244826576978785 13) (.add (.num 23443311200000001 16) (.mul (.rd (.var .T)) (.add (.num 79805207499999992 19) (.mul (.rd (.var .T)) (.add (.neg (.num 19478150999999999 21)) (.mul (.rd (.var .T)) (.add (.num 201572094 16) (.mul (.neg (.num 73761176100000006 28)) (.rd (.var .T))))))))))) (.mul (.num 41244826576978785 13) (.add (.num 33372791999999998 16) (.mul (.rd (.var .T)) (.add (.neg (.num 49402473099999998 21)) (.mul (.rd (.var .T)) (.add (.num 49945677799999996 23) (.mul (.rd (.var .T)) (.add (.neg (.num 17956639400000001 26)) (.mul (.num 200255376 22) (.rd (.var .T))))))))))),
  .ite (.rd (.var .T)) (.num 1000 0) (.arr .cp 1) (.mul (.num 8248965315395757 12) (.add (.num 25 1) (.mul (.rd (.var .T)) (.add (.num 70533281899999999 29) (.mul (.rd (.var .T)) (.add (.neg (.num 199591964 23)) (.mul (.rd (.var .T)) (.add (.num 23008163199999999 34) (.mul (.neg (.num 92773233200000006 38)) (.rd (.var .T))))))))))) (.mul (.num 8248965315395757 12) (.add (.num 25000000099999999 16) (.mul (.rd (.var .T)) (.add (.neg (.num 23084297299999999 27)) (.mul (.rd (.var .T)) (.add (.num 16156194800000001 30) (.mul (.rd (.var .T)) (.add (.neg (.num 47351523500000003 34)) (.mul (.num 49819735700000002 38) (.rd (.var .T))))))))))),
  .ite (.rd (.var .T)) (.num 1000 0) (.arr .cp 2) (.mul (.num 51967336900133762 14) (.add (.num 31682671 7) (.mul (.rd (.var .T)) (.add (.neg (.num 32793188399999999 19)) (.mul (.rd (.var .T)) (.add (.num 66430639599999997 22) (.mul (.rd (.var .T)) (.add (.neg (.num 61280662400000001 25)) (.mul (.num 21126597099999999 28) (.rd (.var .T))))))))))) (.mul (.num 51967336900133762 14) (.add (.num 25694207800000002 16) (.mul (.rd (.var .T)) (.add (.neg (.num 85974113700000004 21)) (.mul (.rd (.var .T)) (.add (.num 41948458900000002 24) (.mul (.rd (.var .T)) (.add (.neg (.num 10017779899999999 27)) (.mul (.num 12283369099999999 31) (.rd (.var .T))))))))))),
  .ite (.rd (.var .T)) (.num 1000 0) (.arr .cp 3) (.mul (.num 25983668450066881 14) (.add (.num 37824563599999999 16) (.mul (.rd (.var .T)) (.add (.neg (.num 29967341599999998 19)) (.mul (.rd (.var .T)) (.add (.num 984730201 14) (.mul (.rd (.var .T)) (.add (.neg (.num 96812950900000007 25)) (.mul (.num 324372837 20) (.rd (.var .T))))))))))) (.mul (.num 25983668450066881 14) (.add (.num 32825378399999998 16) (.mul (.rd (.var .T)) (.add (.num 14830875399999999 19) (.mul (.rd (.var .T)) (.add (.neg (.num 75796666899999999 23)) (.mul (.rd (.var .T)) (.add (.num 20947055499999999 26) (.mul (.neg (.num 21671779399999999 30)) (.rd (.var .T))))))))))),
  .ite (.rd (.var .T)) (.num 1000 0) (.arr .cp 4) (.mul (.num 48887492694330808 14) (.add (.num 39920154299999999 16) (.mul (.rd (.var .T)) (.add (.neg (.num 24013175200000001 19)) (.mul (.rd (.var .T)) (.add (.num 46179384099999996 22) (.mul (.rd (.var .T)) (.add (.neg (.num 388113333 17)) (.mul (.num 13641147 19) (.rd (.var .T))))))))))) (.mul (.num 48887492694330808 14) (.add (.num 30928876700000001 16) (.mul (.rd (.var .T)) (.add (.num 54842971599999998 20) (.mul (.rd (.var .T)) (.add (.num 12650522799999999 23) (.mul (.rd (.var .T)) (.add (.neg (.num 87946155599999995 27)) (.mul (.num 117412376 22) (.rd (.var .T))))))))))),
  .ite (.rd (.var .T)) (.num 1000 0) (.arr .cp 5) (.mul (.num 4615227795515807 13) (.add (.num 41986405600000003 16) (.mul (.rd (.var .T)) (.add (.neg (.num 20364341000000002 19)) (.mul (.rd (.var .T)) (.add (.num 65204021099999997 22) (.mul (.rd (.var .T)) (.add (.neg (.num 54879706200000003 25)) (.mul (.num 177197817 20) (.rd (.var .T))))))))))) (.mul (.num 4615227795515807 13) (.add (.num 30339924900000002 16) (.mul (.rd (.var .T)) (.add (.num 21769180400000002 19) (.mul (.rd (.var .T)) (.add (.neg (.num 16407251799999999 23)) (.mul (.rd (.var .T)) (.add (.neg (.num 97041986999999998 27)) (.mul (.num 16820099199999999 30) (.rd (.var .T))))))))))),
  .ite (.rd (.var .T)) (.num 1000 0) (.arr .cp 6) (.mul (.num 25190194790518544 14) (.add (.num 43017980099999997 16) (.mul (.rd (.var .T)) (.add (.neg (.num 47491205099999996 19)) (.mul (.rd (.var .T)) (.add (.num 21158289099999999 21) (.mul (.rd (.var .T)) (.add (.neg (.num 242763894 16)) (.mul (.num 92922512400000003 28) (.rd (.var .T))))))))))) (.mul (.num 25190194790518544 14) (.add (.num 40172109000000003 16) (.mul (.rd (.var .T)) (.add (.num 22398201299999999 19) (.mul (.rd (.var .T)) (.add (.neg (.num 63365814999999998 23)) (.mul (.rd (.var .T)) (.add (.num 11424637 17) (.mul (.neg (.num 107908535 22)) (.rd (.var .T))))))))))),
  .ite (.rd (.var .T)) (.num 1000 0) (.arr .cp 7) (.mul (.num 59275206603321635 14) (.add (.num 37626786700000001 16) (.mul (.rd (.var .T)) (.add (.num 96887214300000004 20) (.mul (.rd (.var .T)) (.add (.num 27948984100000001 22) (.mul (.rd (.var .T)) (.add (.neg (.num 38509115300000003 25)) (.mul (.num 168741719 20) (.rd (.var .T))))))))))) (.mul (.num 59275206603321635 14) (.add (.num 28741011300000001 16) (.mul (.rd (.var .T)) (.add (.num 36563929199999999 19) (.mul (.rd (.var .T)) (.add (.neg (.num 14089459700000001 22)) (.mul (.rd (.var .T)) (.add (.num 26017954899999999 26) (.mul (.neg (.num 18772756700000001 30)) (.rd (.var .T))))))))))),
  .ite (.rd (.var .T)) (.num 1000 0) (.arr .cp 8) (.mul (.num 59275206603321635 14) (.add (.num 41986041099999998 16) (.mul (.rd (.var .T)) (.add (.neg (.num 23666141900000001 19)) (.mul (.rd (.var .T)) (.add (.num 82329621999999999 22) (.mul (.rd (.var .T)) (.add (.neg (.num 66881598100000004 25)) (.mul (.num 19431473700000001 28) (.rd (.var .T))))))))))) (.mul (.num 59275206603321635 14) (.add (.num 22920384199999999 16) (.mul (.rd (.var .T)) (.add (.num 465588637 11) (.mul (.rd (.var .T)) (.add (.neg (.num 20119194699999999 22)) (.mul (.rd (.var .T)) (.add (.num 41790600000000002 26) (.mul (.neg (.num 33971636499999998 30)) (.rd (.var .T))))))))))),
  .ite (.rd (.var .T)) (.num 1000 0) (.arr .cp 9) (.mul (.num 55301374409537334 14) (.add (.num 36735904000000001 16) (.mul (.rd (.var .T)) (.add (.num 201095175 11) (.mul (.rd (.var .T)) (.add (.num 57302185600000002 22) (.mul (.rd (.var .T)) (.add (.neg (.num 68711742500000001 25)) (.mul (.num 254385734 20) (.rd (.var .T))))))))))) (.mul (.num 55301374409537334 14) (.add (.num 22857177200000001 16) (.mul (.rd (.var .T)) (.add (.num 72399003699999999 19) (.mul (.rd (.var .T)) (.add (.neg (.num 29871434799999999 22)) (.mul (.rd (.var .T)) (.add (.num 59568464400000002 26) (.mul (.neg (.num 46715439400000003 30)) (.rd (.var .T))))))))))),
  .ite (.rd (.var .T)) (.num 1000 0) (.arr .cp 10) (.mul (.num 5182688078609915 13) (.add (.num 514987613 8) (.mul (.rd (.var .T)) (.add (.neg (.num 13670978800000001 18)) (.mul (.rd (.var .T)) (.add (.num 49180059899999999 21) (.mul (.rd (.var .T)) (.add (.neg (.num 48474302600000002 24)) (.mul (.num 16669395599999999 27) (.rd (.var .T))))))))))) (.mul (.num 5182688078609915 13) (.add (.num 74851495000000004 18) (.mul (.rd (.var .T)) (.add (.num 133909467 10) (.mul (.rd (.var .T)) (.add (.neg (.num 573285809 14)) (.mul (.rd (.var .T)) (.add (.num 122292535 17) (.mul (.neg (.num 10181523 20)) (.rd (.var .T))))))))))),
  .ite (.rd (.var .T)) (.num 1000 0) (.arr .cp 11) (.mul (.num 29683482206608977 14) (.add (.num 35795334699999999 16) (.mul (.rd (.var .T)) (.add (.neg (.num 61035368 11)) (.mul (.rd (.var .T)) (.add (.num 101681433 14) (.mul (.rd (.var .T)) (.add (.num 90700588399999998 26) (.mul (.neg (.num 904424499 21)) (.rd (.var .T))))))))))) (.mul (.num 29683482206608977 14) (.add (.num 27151856099999998 16) (.mul (.rd (.var .T)) (.add (.num 20625274300000002 19) (.mul (.rd (.var .T)) (.add (.neg (.num 99882577100000007 23)) (.mul (.rd (.var .T)) (.add (.num 230053008 18) (.mul (.neg (.num 203647716 22)) (.rd (.var .T))))))))))),
  .ite (.rd (.var .T)) (.num 1000 0) (.arr .cp 12) (.mul (.num 18892296942953618 14) (.add (.num 235677352 8) (.mul (.rd (.var .T)) (.add (.num 89845967700000005 19) (.mul (.rd (.var .T)) (.add (.neg (.num 71235626899999998 22)) (.mul (.rd (.var .T)) (.add (.num 24591902199999998 25) (.mul (.neg (.num 14369954799999999 29)) (.rd (.var .T))))))))))) (.mul (.num 18892296942953618 14) (.add (.num 38574602900000001 16) (.mul (.rd (.var .T)) (.add (.num 44143702599999998 19) (.mul (.rd (.var .T)) (.add (.neg (.num 22148140400000001 22)) (.mul (.rd (.var .T)) (.add (.num 52349018800000005 26) (.mul (.neg (.num 47208416400000003 30)) (.rd (.var .T))))))))))),
  .ite (.rd (.var .T)) (.num 1000 0) (.arr .cp 13) (.mul (.num 2865243876803429 13) (.add (.num 42211858400000004 16) (.mul (.rd (.var .T)) (.add (.neg (.num 324392532 11)) (.mul (.rd (.var .T)) (.add (.num 137799446 13) (.mul (.rd (.var .T)) (.add (.neg (.num 13314409300000001 24)) (.mul (.num 43376886499999999 28) (.rd (.var .T))))))))))) (.mul (.num 2865243876803429 13) (.add (.num 277217438 8) (.mul (.rd (.var .T)) (.add (.num 49569552599999997 19) (.mul (.rd (.var .T)) (.add (.neg (.num 248445613 14)) (.mul (.rd (.var .T)) (.add (.num 58916177800000004 26) (.mul (.neg (.num 53350871099999999 30)) (.rd (.var .T))))))))))),
  .ite (.rd (.var .T)) (.num 1000 0) (.arr .cp 14) (.mul (.num 2769061668644934 13) (.add (.num 47937231499999999 16) (.mul (.rd (.var .T)) (.add (.neg (.num 99083336899999999 19)) (.mul (.rd (.var .T)) (.add (.num 37322000799999999 21) (.mul (.rd (.var .T)) (.add (.neg (.num 37928526099999998 24)) (.mul (.num 131772652 19) (.rd (.var .T))))))))))) (.mul (.num 2769061668644934 13) (.add (.num 176069008 8) (.mul (.rd (.var .T)) (.add (.num 920000082 11) (.mul (.rd (.var .T)) (.add (.neg (.num 44225881299999997 22)) (.mul (.rd (.var .T)) (.add (.num 100641212 17) (.mul (.neg (.num 88385564000000006 30)) (.rd (.var .T))))))))))),
  .ite (.rd (.var .T)) (.num 1000 0) (.arr .cp 15) (.mul (.num 26791271377208773 14) (.add (.num 2106204 6) (.mul (.rd (.var .T)) (.add (.num 72165950000000001 19) (.mul (.rd (.var .T)) (.add (.num 53384719999999999 22) (.mul (.rd (.var .T)) (.add (.neg (.num 73776359999999997 25)) (.mul (.num 20756099999999999 28) (.rd (.var .T))))))))))) (.mul (.num 26791271377208773 14) (.add (.num 37707989999999998 16) (.mul (.rd (.var .T)) (.add (.num 78714969999999999 19) (.mul (.rd (.var .T)) (.add (.neg (.num 26563840000000001 22)) (.mul (.rd (.var .T)) (.add (.num 39444309999999999 26) (.mul (.neg (.num 21126160000000001 30)) (.rd (.var .T))))))))))),
  .ite (.rd (.var .T)) (.num 1000 0) (.arr .cp 16) (.mul (.num 29637603301660818 14) (.add (.num 39592014799999999 16) (.mul (.rd (.var .T)) (.add (.neg (.num 75705224700000004 19)) (.mul (.rd (.var .T)) (.add (.num 57099029199999999 21) (.mul (.rd (.var .T)) (.add (.neg (.num 69158875299999999 24)) (.mul (.num 26988437300000001 27) (.rd (.var .T))))))))))) (.mul (.num 29637603301660818 14) (.add (.num 20361111599999999 16) (.mul (.rd (.var .T)) (.add (.num 146454151 10) (.mul (.rd (.var .T)) (.add (.neg (.num 67107791500000002 22)) (.mul (.rd (.var .T)) (.add (.num 14722292300000001 25) (.mul (.neg (.num 125706061 21)) (.rd (.var .T))))))))))),
  .ite (.rd (.var .T)) (.num 1000 0) (.arr .cp 17) (.mul (.num 28609689384998131 14) (.add (.num 43064656799999996 16) (.mul (.rd (.var .T)) (.add (.neg (.num 41865889200000004 19)) (.mul (.rd (.var .T)) (.add (.num 49714280699999999 21) (.mul (.rd (.var .T)) (.add (.neg (.num 59912660599999996 24)) (.mul (.num 230509004 19) (.rd (.var .T))))))))))) (.mul (.num 28609689384998131 14) (.add (.num 19546564200000001 16) (.mul (.rd (.var .T)) (.add (.num 17397272200000001 18) (.mul (.rd (.var .T)) (.add (.neg (.num 79820666799999996 22)) (.mul (.rd (.var .T)) (.add (.num 175217689 17) (.mul (.neg (.num 149641576 21)) (.rd (.var .T))))))))))),
  .ite (.rd (.var .T)) (.num 1000 0) (.arr .cp 18) (.mul (.num 27650687204768667 14) (.add (.num 42914249199999999 16) (.mul (.rd (.var .T)) (.add (.neg (.num 55015426999999997 19)) (.mul (.rd (.var .T)) (.add (.num 59943828800000003 21) (.mul (.rd (.var .T)) (.add (.neg (.num 70846628500000001 24)) (.mul (.num 26868577099999999 27) (.rd (.var .T))))))))))) (.mul (.num 27650687204768667 14) (.add (.num 10718814999999999 16) (.mul (.rd (.var .T)) (.add (.num 216852677 10) (.mul (.rd (.var .T)) (.add (.neg (.num 100256067 13)) (.mul (.rd (.var .T)) (.add (.num 221412001 17) (.mul (.neg (.num 19000289 20)) (.rd (.var .T))))))))))),
  .ite (.rd (.var .T)) (.num 1000 0) (.arr .cp 19) (.mul (.num 20813212426154001 14) (.add (.num 25 1) (.mul (.rd (.var .T)) (.add (.num 0 0) (.mul (.rd (.var .T)) (.add (.num 0 0) (.mul (.rd (.var .T)) (.add (.num 0 0) (.mul (.num 0 0) (.rd (.var .T))))))))))) (.mul (.num 20813212426154001 14) (.add (.num 25 1) (.mul (.rd (.var .T)) (.add (.num 0 0) (.mul (.rd (.var .T)) (.add (.num 0 0) (.mul (.rd (.var .T)) (.add (.num 0 0) (.mul (.num 0 0) (.rd (.var .T))))))))))),
  .ite (.rd (.var .T)) (.num 1000 0) (.arr .cp 20) (.mul (.num 29680218594762238 14) (.add (.num 32986770000000001 16) (.mul (.rd (.var .T)) (.add (.num 14082404 10) (.mul (.rd (.var .T)) (.add (.neg (.num 39632219999999998 22)) (.mul (.rd (.var .T)) (.add (.num 56415150000000002 25) (.mul (.neg (.num 24448539999999999 28)) (.rd (.var .T))))))))))) (.mul (.num 29680218594762238 14) (.add (.num 29266399999999999 16) (.mul (.rd (.var .T)) (.add (.num 14879768000000001 19) (.mul (.rd (.var .T)) (.add (.neg (.num 56847600000000001 23)) (.mul (.rd (.var .T)) (.add (.num 10097038 17) (.mul (.neg (.num 67533509999999998 31)) (.rd (.var .T)))))))))))]

/-- utilities/mechanisms/drm19/lib/src/mass_mole.c:8-61 -/
def mole2mass : List CStmt := [
  .set (.var .xN) (.sub (.num 1 0) (.add (.add (.add (.add (.add (.add (.add (.add (.add (.add (.add (.add (.add (.add (.add (.add (.add (.add (.add (.rd (.arr .X 0)) (.rd (.arr .X 1))) (.rd (.arr .X 2))) (.rd (.arr .X 3))) (.rd (.arr .X 4))) (.rd (.arr .X 5))) (.rd (.arr .X 6))) (.rd (.arr .X 7))) (.rd (.arr .X 8))) (.rd (.arr .X 9))) (.rd (.arr .X 10))) (.rd (.arr .X 11))) (.rd (.arr .X 12))) (.rd (.arr .X 13))) (.rd (.arr .X 14))) (.rd (.arr .X 15))) (.rd (.arr .X 16))) (.rd (.arr .X 17))) (.rd (.arr .X 18))) (.rd (.arr .X 19)))),
  .set (.var .mwAvg) (.num 0 0),
  .set (.var .mwAvg) (.add (.rd (.var .mwAvg)) (.mul (.rd (.arr .X 0)) (.num 20158800000000001 16))),
  .set (.var .mwAvg) (.add (.rd (.var .mwAvg)) (.mul (.rd (.arr .X 1)) (.num 10079400000000001 16))),
  .set (.var .mwAvg) (.add (.rd (.var .mwAvg)) (.mul (.rd (.arr .X 2)) (.num 159994 4))),
  .set (.var .mwAvg) (.add (.rd (.var .mwAvg)) (.mul (.rd (.arr .X 3)) (.num 31998799999999999 15))),
  .set (.var .mwAvg) (.add (.rd (.var .mwAvg)) (.mul (.rd (.arr .X 4)) (.num 17007339999999999 15))),
  .set (.var .mwAvg) (.add (.rd (.var .mwAvg)) (.mul (.rd (.arr .X 5)) (.num 18015280000000001 15))),
  .set (.var .mwAvg) (.add (.rd (.var .mwAvg)) (.mul (.rd (.arr .X 6)) (.num 33006740000000001 15))),
  .set (.var .mwAvg) (.add (.rd (.var .mwAvg)) (.mul (.rd (.arr .X 7)) (.num 14026879999999998 15))),
  .set (.var .mwAvg) (.add (.rd (.var .mwAvg)) (.mul (.rd (.arr .X 8)) (.num 14026879999999998 15))),
  .set (.var .mwAvg) (.add (.rd (.var .mwAvg)) (.mul (.rd (.arr .X 9)) (.num 1503482 5))),
  .set (.var .mwAvg) (.add (.rd (.var .mwAvg)) (.mul (.rd (.arr .X 10)) (.num 16042760000000001 15))),
  .set (.var .mwAvg) (.add (.rd (.var .mwAvg)) (.mul (.rd (.arr .X 11)) (.num 28010399999999997 15))),
  .set (.var .mwAvg) (.add (.rd (.var .mwAvg)) (.mul (.rd (.arr .X 12)) (.num 44009799999999998 15))),
  .set (.var .mwAvg) (.add (.rd (.var .mwAvg)) (.mul (.rd (.arr .X 13)) (.num 29018339999999998 15))),
  .set (.var .mwAvg) (.add (.rd (.var .mwAvg)) (.mul (.rd (.arr .X 14)) (.num 3002628 5))),
  .set (.var .mwAvg) (.add (.rd (.var .mwAvg)) (.mul (.rd (.arr .X 15)) (.num 31034219999999998 15))),
  .set (.var .mwAvg) (.add (.rd (.var .mwAvg)) (.mul (.rd (.arr .X 16)) (.num 28053759999999997 15))),
  .set (.var .mwAvg) (.add (.rd (.var .mwAvg)) (.mul (.rd (.arr .X 17)) (.num 29061699999999998 15))),
  .set (.var .mwAvg) (.add (.rd (.var .mwAvg)) (.mul (.rd (.arr .X 18)) (.num 3006964 5))),
  .set (.var .mwAvg) (.add (.rd (.var .mwAvg)) (.mul (.rd (.arr .X 19)) (.num 39948 3))),
  .set (.var .mwAvg) (.add (.rd (.var .mwAvg)) (.mul (.rd (.var .xN)) (.num 28013480000000001 15))),
  .set (.arr .Y 0) (.div (.mul (.rd (.arr .X 0)) (.num 20158800000000001 16)) (.rd (.var .mwAvg))),
  .set (.arr .Y 1) (.div (.mul (.rd (.arr .X 1)) (.num 10079400000000001 16)) (.rd (.var .mwAvg))),
  .set (.arr .Y 2) (.div (.mul (.rd (.arr .X 2)) (.num 159994 4)) (.rd (.var .mwAvg))),
  .set (.arr .Y 3) (.div (.mul (.rd (.arr .X 3)) (.num 31998799999999999 15)) (.rd (.var .mwAvg))),
  .set (.arr .Y 4) (.div (.mul (.rd (.arr .X 4)) (.num 17007339999999999 15)) (.rd (.var .mwAvg))),
  .set (.arr .Y 5) (.div (.mul (.rd (.arr .X 5)) (.num 18015280000000001 15)) (.rd (.var .mwAvg))),
  .set (.arr .Y 6) (.div (.mul (.rd (.arr .X 6)) (.num 33006740000000001 15)) (.rd (.var .mwAvg))),
  .set (.arr .Y 7) (.div (.mul (.rd (.arr .X 7)) (.num 14026879999999998 15)) (.rd (.var .mwAvg))),
  .set (.arr .Y 8) (.div (.mul (.rd (.arr .X 8)) (.num 14026879999999998 15)) (.rd (.var .mwAvg))),
  .set (.arr .Y 9) (.div (.mul (.rd (.arr .X 9)) (.num 1503482 5)) (.rd (.var .mwAvg))),
  .set (.arr .Y 10) (.div (.mul (.rd (.arr .X 10)) (.num 16042760000000001 15)) (.rd (.var .mwAvg))),
  .set (.arr .Y 11) (.div (.mul (.rd (.arr .X 11)) (.num 28010399999999997 15)) (.rd (.var .mwAvg))),
  .set (.arr .Y 12) (.div (.mul (.rd (.arr .X 12)) (.num 44009799999999998 15)) (.rd (.var .mwAvg))),
  .set (.arr .Y 13) (.div (.mul (.rd (.arr .X 13)) (.num 29018339999999998 15)) (.rd (.var .mwAvg))),
  .set (.arr .Y 14) (.div (.mul (.rd (.arr .X 14)) (.num 3002628 5)) (.rd (.var .mwAvg))),
  .set (.arr .Y 15) (.div (.mul (.rd (.arr .X 15)) (.num 31034219999999998 15)) (.rd (.var .mwAvg))),
  .set (.arr .Y 16) (.div (.mul (.rd (.arr .X 16)) (.num 28053759999999997 15)) (.rd (.var .mwAvg))),
  .set (.arr .Y 17) (.div (.mul (.rd (.arr .X 17)) (.num 29061699999999998 15)) (.rd (.var .mwAvg))),
  .set (.arr .Y 18) (.div (.mul (.rd (.arr .X 18)) (.num 3006964 5)) (.rd (.var .mwAvg))),
  .set (.arr .Y 19) (.div (.mul (.rd (.arr .X 19)) (.num 39948 3)) (.rd (.var .mwAvg)))]

/-- utilities/mechanisms/drm19/lib/src/mass_mole.c:68-122 -/
def mass2mole : List CStmt := [
  .set (.var .yN) (.sub (.num 1 0) (.add (.add (.add (.add (.add (.add (.add (.add (.add (.add (.add (.add (.add (.add (.add (.add (.add (.add (.add (.rd (.arr .Y 0)) (.rd (.arr .Y 1))) (.rd (.arr .Y 2))) (.rd (.arr .Y 3))) (.rd (.arr .Y 4))) (.rd (.arr .Y 5))) (.rd (.arr .Y 6))) (.rd (.arr .Y 7))) (.rd (.arr .Y 8))) (.rd (.arr .Y 9))) (.rd (.arr .Y 10))) (.rd (.arr .Y 11))) (.rd (.arr .Y 12))) (.rd (.arr .Y 13))) (.rd (.arr .Y 14))) (.rd (.arr .Y 15))) (.rd (.arr .Y 16))) (.rd (.arr .Y 17))) (.rd (.arr .Y 18))) (.rd (.arr .Y 19)))),
  .set (.var .mwAvg) (.num 0 0),
  .set (.var .mwAvg) (.add (.rd (.var .mwAvg)) (.div (.rd (.arr .Y 0)) (.num 20158800000000001 16))),
  .set (.var .mwAvg) (.add (.rd (.var .mwAvg)) (.div (.rd (.arr .Y 1)) (.num 10079400000000001 16))),
  .set (.var .mwAvg) (.add (.rd (.var .mwAvg)) (.div (.rd (.arr .Y 2)) (.num 159994 4))),
  .set (.var .mwAvg) (.add (.rd (.var .mwAvg)) (.div (.rd (.arr .Y 3)) (.num 31998799999999999 15))),
  .set (.var .mwAvg) (.add (.rd (.var .mwAvg)) (.div (.rd (.arr .Y 4)) (.num 17007339999999999 15))),
  .set (.var .mwAvg) (.add (.rd (.var .mwAvg)) (.div (.rd (.arr .Y 5)) (.num 18015280000000001 15))),
  .set (.var .mwAvg) (.add (.rd (.var .mwAvg)) (.div (.rd (.arr .Y 6)) (.num 33006740000000001 15))),
  .set (.var .mwAvg) (.add (.rd (.var .mwAvg)) (.div (.rd (.arr .Y 7)) (.num 14026879999999998 15))),
  .set (.var .mwAvg) (.add (.rd (.var .mwAvg)) (.div (.rd (.arr .Y 8)) (.num 14026879999999998 15))),
  .set (.var .mwAvg) (.add (.rd (.var .mwAvg)) (.div (.rd (.arr .Y 9)) (.num 1503482 5))),
  .set (.var .mwAvg) (.add (.rd (.var .mwAvg)) (.div (.rd (.arr .Y 10)) (.num 16042760000000001 15))),
  .set (.var .mwAvg) (.add (.rd (.var .mwAvg)) (.div (.rd (.arr .Y 11)) (.num 28010399999999997 15))),
  .set (.var .mwAvg) (.add (.rd (.var .mwAvg)) (.div (.rd (.arr .Y 12)) (.num 44009799999999998 15))),
  .set (.var .mwAvg) (.add (.rd (.var .mwAvg)) (.div (.rd (.arr .Y 13)) (.num 29018339999999998 15))),
  .set (.var .mwAvg) (.add (.rd (.var .mwAvg)) (.div (.rd (.arr .Y 14)) (.num 3002628 5))),
  .set (.var .mwAvg) (.add (.rd (.var .mwAvg)) (.div (.rd (.arr .Y 15)) (.num 31034219999999998 15))),
  .set (.var .mwAvg) (.add (.rd (.var .mwAvg)) (.div (.rd (.arr .Y 16)) (.num 28053759999999997 15))),
  .set (.var .mwAvg) (.add (.rd (.var .mwAvg)) (.div (.rd (.arr .Y 17)) (.num 29061699999999998 15))),
  .set (.var .mwAvg) (.add (.rd (.var .mwAvg)) (.div (.rd (.arr .Y 18)) (.num 3006964 5))),
  .set (.var .mwAvg) (.add (.rd (.var .mwAvg)) (.div (.rd (.arr .Y 19)) (.num 39948 3))),
  .set (.var .mwAvg) (.add (.rd (.var .mwAvg)) (.div (.rd (.var .yN)) (.num 28013480000000001 15))),
  .set (.var .mwAvg) (.div (.num 1 0) (.rd (.var .mwAvg))),
  .set (.arr .X 0) (.div (.mul (.rd (.arr .Y 0)) (.rd (.var .mwAvg))) (.num 20158800000000001 16)),
  .set (.arr .X 1) (.div (.mul (.rd (.arr .Y 1)) (.rd (.var .mwAvg))) (.num 10079400000000001 16)),
  .set (.arr .X 2) (.div (.mul (.rd (.arr .Y 2)) (.rd (.var .mwAvg))) (.num 159994 4)),
  .set (.arr .X 3) (.div (.mul (.rd (.arr .Y 3)) (.rd (.var .mwAvg))) (.num 31998799999999999 15)),
  .set (.arr .X 4) (.div (.mul (.rd (.arr .Y 4)) (.rd (.var .mwAvg))) (.num 17007339999999999 15)),
  .set (.arr .X 5) (.div (.mul (.rd (.arr .Y 5)) (.rd (.var .mwAvg))) (.num 18015280000000001 15)),
  .set (.arr .X 6) (.div (.mul (.rd (.arr .Y 6)) (.rd (.var .mwAvg))) (.num 33006740000000001 15)),
  .set (.arr .X 7) (.div (.mul (.rd (.arr .Y 7)) (.rd (.var .mwAvg))) (.num 14026879999999998 15)),
  .set (.arr .X 8) (.div (.mul (.rd (.arr .Y 8)) (.rd (.var .mwAvg))) (.num 14026879999999998 15)),
  .set (.arr .X 9) (.div (.mul (.rd (.arr .Y 9)) (.rd (.var .mwAvg))) (.num 1503482 5)),
  .set (.arr .X 10) (.div (.mul (.rd (.arr .Y 10)) (.rd (.var .mwAvg))) (.num 16042760000000001 15)),
  .set (.arr .X 11) (.div (.mul (.rd (.arr .Y 11)) (.rd (.var .mwAvg))) (.num 28010399999999997 15)),
  .set (.arr .X 12) (.div (.mul (.rd (.arr .Y 12)) (.rd (.var .mwAvg))) (.num 44009799999999998 15)),
  .set (.arr .X 13) (.div (.mul (.rd (.arr .Y 13)) (.rd (.var .mwAvg))) (.num 29018339999999998 15)),
  .set (.arr .X 14) (.div (.mul (.rd (.arr .Y 14)) (.rd (.var .mwAvg))) (.num 3002628 5)),
  .set (.arr .X 15) (.div (.mul (.rd (.arr .Y 15)) (.rd (.var .mwAvg))) (.num 31034219999999998 15)),
  .set (.arr .X 16) (.div (.mul (.rd (.arr .Y 16)) (.rd (.var .mwAvg))) (.num 28053759999999997 15)),
  .set (.arr .X 17) (.div (.mul (.rd (.arr .Y 17)) (.rd (.var .mwAvg))) (.num 29061699999999998 15)),
  .set (.arr .X 18) (.div (.mul (.rd (.arr .Y 18)) (.rd (.var .mwAvg))) (.num 3006964 5)),
  .set (.arr .X 19) (.div (.mul (.rd (.arr .Y 19)) (.rd (.var .mwAvg))) (.num 39948 3))]

/-- utilities/mechanisms/drm19/lib/src/mass_mole.c:131-161 -/
def getDensity : List CStmt := [
  .set (.var .xN) (.sub (.num 1 0) (.add (.add (.add (.add (.add (.add (.add (.add (.add (.add (.add (.add (.add (.add (.add (.add (.add (.add (.add (.rd (.arr .X 0)) (.rd (.arr .X 1))) (.rd (.arr .X 2))) (.rd (.arr .X 3))) (.rd (.arr .X 4))) (.rd (.arr .X 5))) (.rd (.arr .X 6))) (.rd (.arr .X 7))) (.rd (.arr .X 8))) (.rd (.arr .X 9))) (.rd (.arr .X 10))) (.rd (.arr .X 11))) (.rd (.arr .X 12))) (.rd (.arr .X 13))) (.rd (.arr .X 14))) (.rd (.arr .X 15))) (.rd (.arr .X 16))) (.rd (.arr .X 17))) (.rd (.arr .X 18))) (.rd (.arr .X 19)))),
  .set (.var .mwAvg) (.num 0 0),
  .set (.var .mwAvg) (.add (.rd (.var .mwAvg)) (.mul (.rd (.arr .X 0)) (.num 20158800000000001 16))),
  .set (.var .mwAvg) (.add (.rd (.var .mwAvg)) (.mul (.rd (.arr .X 1)) (.num 10079400000000001 16))),
  .set (.var .mwAvg) (.add (.rd (.var .mwAvg)) (.mul (.rd (.arr .X 2)) (.num 159994 4))),
  .set (.var .mwAvg) (.add (.rd (.var .mwAvg)) (.mul (.rd (.arr .X 3)) (.num 31998799999999999 15))),
  .set (.var .mwAvg) (.add (.rd (.var .mwAvg)) (.mul (.rd (.arr .X 4)) (.num 17007339999999999 15))),
  .set (.var .mwAvg) (.add (.rd (.var .mwAvg)) (.mul (.rd (.arr .X 5)) (.num 18015280000000001 15))),
  .set (.var .mwAvg) (.add (.rd (.var .mwAvg)) (.mul (.rd (.arr .X 6)) (.num 33006740000000001 15))),
  .set (.var .mwAvg) (.add (.rd (.var .mwAvg)) (.mul (.rd (.arr .X 7)) (.num 14026879999999998 15))),
  .set (.var .mwAvg) (.add (.rd (.var .mwAvg)) (.mul (.rd (.arr .X 8)) (.num 14026879999999998 15))),
  .set (.var .mwAvg) (.add (.rd (.var .mwAvg)) (.mul (.rd (.arr .X 9)) (.num 1503482 5))),
  .set (.var .mwAvg) (.add (.rd (.var .mwAvg)) (.mul (.rd (.arr .X 10)) (.num 16042760000000001 15))),
  .set (.var .mwAvg) (.add (.rd (.var .mwAvg)) (.mul (.rd (.arr .X 11)) (.num 28010399999999997 15))),
  .set (.var .mwAvg) (.add (.rd (.var .mwAvg)) (.mul (.rd (.arr .X 12)) (.num 44009799999999998 15))),
  .set (.var .mwAvg) (.add (.rd (.var .mwAvg)) (.mul (.rd (.arr .X 13)) (.num 29018339999999998 15))),
  .set (.var .mwAvg) (.add (.rd (.var .mwAvg)) (.mul (.rd (.arr .X 14)) (.num 3002628 5))),
  .set (.var .mwAvg) (.add (.rd (.var .mwAvg)) (.mul (.rd (.arr .X 15)) (.num 31034219999999998 15))),
  .set (.var .mwAvg) (.add (.rd (.var .mwAvg)) (.mul (.rd (.arr .X 16)) (.num 28053759999999997 15))),
  .set (.var .mwAvg) (.add (.rd (.var .mwAvg)) (.mul (.rd (.arr .X 17)) (.num 29061699999999998 15))),
  .set (.var .mwAvg) (.add (.rd (.var .mwAvg)) (.mul (.rd (.arr .X 18)) (.num 3006964 5))),
  .set (.var .mwAvg) (.add (.rd (.var .mwAvg)) (.mul (.rd (.arr .X 19)) (.num 39948 3))),
  .set (.var .mwAvg) (.add (.rd (.var .mwAvg)) (.mul (.rd (.var .xN)) (.num 28013480000000001 15)))]

/-- The returned expression, utilities/mechanisms/drm19/lib/src/mass_mole.c:162 -/
def getDensityResult : CExpr := (.div (.mul (.rd (.var .pres)) (.rd (.var .mwAvg))) (.mul (.num 83144621 4) (.rd (.var .T))))

/-- utilities/mechanisms/drm19/lib/src/mechanism.c:8-28 (after the memcpy to temp) -/
def applyMask : List CStmt := [
  .set (.arr .y 0) (.rd (.arr .temp 0)),
  .set (.arr .y 1) (.rd (.arr .temp 1)),
  .set (.arr .y 2) (.rd (.arr .temp 2)),
  .set (.arr .y 3) (.rd (.arr .temp 3)),
  .set (.arr .y 4) (.rd (.arr .temp 4)),
  .set (.arr .y 5) (.rd (.arr .temp 5)),
  .set (.arr .y 6) (.rd (.arr .temp 6)),
  .set (.arr .y 7) (.rd (.arr .temp 7)),
  .set (.arr .y 8) (.rd (.arr .temp 8)),
  .set (.arr .y 9) (.rd (.arr .temp 9)),
  .set (.arr .y 10) (.rd (.arr .temp 10)),
  .set (.arr .y 11) (.rd (.arr .temp 11)),
  .set (.arr .y 12) (.rd (.arr .temp 12)),
  .set (.arr .y 13) (.rd (.arr .temp 13)),
  .set (.arr .y 14) (.rd (.arr .temp 14)),
  .set (.arr .y 15) (.rd (.arr .temp 15)),
  .set (.arr .y 16) (.rd (.arr .temp 16)),
  .set (.arr .y 17) (.rd (.arr .temp 17)),
  .set (.arr .y 18) (.rd (.arr .temp 18)),
  .set (.arr .y 19) (.rd (.arr .temp 20)),
  .set (.arr .y 20) (.rd (.arr .temp 19))]

/-- utilities/mechanisms/drm19/lib/src/mechanism.c:34-54 (after the memcpy to temp) -/
def applyReverseMask : List CStmt := [
  .set (.arr .y 0) (.rd (.arr .temp 0)),
  .set (.arr .y 1) (.rd (.arr .temp 1)),
  .set (.arr .y 2) (.rd (.arr .temp 2)),
  .set (.arr .y 3) (.rd (.arr .temp 3)),
  .set (.arr .y 4) (.rd (.arr .temp 4)),
  .set (.arr .y 5) (.rd (.arr .temp 5)),
  .set (.arr .y 6) (.rd (.arr .temp 6)),
  .set (.arr .y 7) (.rd (.arr .temp 7)),
  .set (.arr .y 8) (.rd (.arr .temp 8)),
  .set (.arr .y 9) (.rd (.arr .temp 9)),
  .set (.arr .y 10) (.rd (.arr .temp 10)),
  .set (.arr .y 11) (.rd (.arr .temp 11)),
  .set (.arr .y 12) (.rd (.arr .temp 12)),
  .set (.arr .y 13) (.rd (.arr .temp 13)),
  .set (.arr .y 14) (.rd (.arr .temp 14)),
  .set (.arr .y 15) (.rd (.arr .temp 15)),
  .set (.arr .y 16) (.rd (.arr .temp 16)),
  .set (.arr .y 17) (.rd (.arr .temp 17)),
  .set (.arr .y 18) (.rd (.arr .temp 18)),
  .set (.arr .y 19) (.rd (.arr .temp 20)),
  .set (.arr .y 20) (.rd (.arr .temp 19))]

/-- the assignment of cp_avg, utilities/mechanisms/drm19/lib/src/dydt.c:7-76 -/
def dydtCpAvg : List CStmt := [
  .set (.var .cpAvg) (.add (.add (.add (.add (.add (.add (.add (.add (.add (.add (.add (.add (.add (.add (.add (.add (.add (.add (.add (.add (.mul (.rd (.arr .cp 0)) (.rd (.arr .y 1))) (.mul (.rd (.arr .cp 1)) (.rd (.arr .y 2)))) (.mul (.rd (.arr .cp 2)) (.rd (.arr .y 3)))) (.mul (.rd (.arr .cp 3)) (.rd (.arr .y 4)))) (.mul (.rd (.arr .cp 4)) (.rd (.arr .y 5)))) (.mul (.rd (.arr .cp 5)) (.rd (.arr .y 6)))) (.mul (.rd (.arr .cp 6)) (.rd (.arr .y 7)))) (.mul (.rd (.arr .cp 7)) (.rd (.arr .y 8)))) (.mul (.rd (.arr .cp 8)) (.rd (.arr .y 9)))) (.mul (.rd (.arr .cp 9)) (.rd (.arr .y 10)))) (.mul (.rd (.arr .cp 10)) (.rd (.arr .y 11)))) (.mul (.rd (.arr .cp 11)) (.rd (.arr .y 12)))) (.mul (.rd (.arr .cp 12)) (.rd (.arr .y 13)))) (.mul (.rd (.arr .cp 13)) (.rd (.arr .y 14)))) (.mul (.rd (.arr .cp 14)) (.rd (.arr .y 15)))) (.mul (.rd (.arr .cp 15)) (.rd (.arr .y 16)))) (.mul (.rd (.arr .cp 16)) (.rd (.arr .y 17)))) (.mul (.rd (.arr .cp 17)) (.rd (.arr .y 18)))) (.mul (.rd (.arr .cp 18)) (.rd (.arr .y 19)))) (.mul (.rd (.arr .cp 19)) (.rd (.arr .y 20)))) (.mul (.rd (.arr .cp 20)) (.rd (.var .yN))))]

/-- the assignments to dy, utilities/mechanisms/drm19/lib/src/dydt.c:7-76 -/
def dydtRest : List CStmt := [
  .set (.arr .dy 0) (.mul (.div (.neg (.num 1 0)) (.mul (.rd (.var .rho)) (.rd (.var .cpAvg)))) (.add (.add (.add (.add (.add (.add (.add (.add (.add (.add (.add (.add (.add (.add (.add (.add (.add (.add (.mul (.mul (.rd (.arr .dy 1)) (.rd (.arr .h 0))) (.num 20158800000000001 16)) (.mul (.mul (.rd (.arr .dy 2)) (.rd (.arr .h 1))) (.num 10079400000000001 16))) (.mul (.mul (.rd (.arr .dy 3)) (.rd (.arr .h 2))) (.num 159994 4))) (.mul (.mul (.rd (.arr .dy 4)) (.rd (.arr .h 3))) (.num 31998799999999999 15))) (.mul (.mul (.rd (.arr .dy 5)) (.rd (.arr .h 4))) (.num 17007339999999999 15))) (.mul (.mul (.rd (.arr .dy 6)) (.rd (.arr .h 5))) (.num 18015280000000001 15))) (.mul (.mul (.rd (.arr .dy 7)) (.rd (.arr .h 6))) (.num 33006740000000001 15))) (.mul (.mul (.rd (.arr .dy 8)) (.rd (.arr .h 7))) (.num 14026879999999998 15))) (.mul (.mul (.rd (.arr .dy 9)) (.rd (.arr .h 8))) (.num 14026879999999998 15))) (.mul (.mul (.rd (.arr .dy 10)) (.rd (.arr .h 9))) (.num 1503482 5))) (.mul (.mul (.rd (.arr .dy 11)) (.rd (.arr .h 10))) (.num 16042760000000001 15))) (.mul (.mul (.rd (.arr .dy 12)) (.rd (.arr .h 11))) (.num 28010399999999997 15))) (.mul (.mul (.rd (.arr .dy 13)) (.rd (.arr .h 12))) (.num 44009799999999998 15))) (.mul (.mul (.rd (.arr .dy 14)) (.rd (.arr .h 13))) (.num 29018339999999998 15))) (.mul (.mul (.rd (.arr .dy 15)) (.rd (.arr .h 14))) (.num 3002628 5))) (.mul (.mul (.rd (.arr .dy 16)) (.rd (.arr .h 15))) (.num 31034219999999998 15))) (.mul (.mul (.rd (.arr .dy 17)) (.rd (.arr .h 16))) (.num 28053759999999997 15))) (.mul (.mul (.rd (.arr .dy 18)) (.rd (.arr .h 17))) (.num 29061699999999998 15))) (.mul (.mul (.rd (.arr .dy 19)) (.rd (.arr .h 18))) (.num 3006964 5)))),
  .set (.arr .dy 1) (.mul (.rd (.arr .dy 1)) (.div (.num 20158800000000001 16) (.rd (.var .rho)))),
  .set (.arr .dy 2) (.mul (.rd (.arr .dy 2)) (.div (.num 10079400000000001 16) (.rd (.var .rho)))),
  .set (.arr .dy 3) (.mul (.rd (.arr .dy 3)) (.div (.num 159994 4) (.rd (.var .rho)))),
  .set (.arr .dy 4) (.mul (.rd (.arr .dy 4)) (.div (.num 31998799999999999 15) (.rd (.var .rho)))),
  .set (.arr .dy 5) (.mul (.rd (.arr .dy 5)) (.div (.num 17007339999999999 15) (.rd (.var .rho)))),
  .set (.arr .dy 6) (.mul (.rd (.arr .dy 6)) (.div (.num 18015280000000001 15) (.rd (.var .rho)))),
  .set (.arr .dy 7) (.mul (.rd (.arr .dy 7)) (.div (.num 33006740000000001 15) (.rd (.var .rho)))),
  .set (.arr .dy 8) (.mul (.rd (.arr .dy 8)) (.div (.num 14026879999999998 15) (.rd (.var .rho)))),
  .set (.arr .dy 9) (.mul (.rd (.arr .dy 9)) (.div (.num 14026879999999998 15) (.rd (.var .rho)))),
  .set (.arr .dy 10) (.mul (.rd (.arr .dy 10)) (.div (.num 1503482 5) (.rd (.var .rho)))),
  .set (.arr .dy 11) (.mul (.rd (.arr .dy 11)) (.div (.num 16042760000000001 15) (.rd (.var .rho)))),
  .set (.arr .dy 12) (.mul (.rd (.arr .dy 12)) (.div (.num 28010399999999997 15) (.rd (.var .rho)))),
  .set (.arr .dy 13) (.mul (.rd (.arr .dy 13)) (.div (.num 44009799999999998 15) (.rd (.var .rho)))),
  .set (.arr .dy 14) (.mul (.rd (.arr .dy 14)) (.div (.num 29018339999999998 15) (.rd (.var .rho)))),
  .set (.arr .dy 15) (.mul (.rd (.arr .dy 15)) (.div (.num 3002628 5) (.rd (.var .rho)))),
  .set (.arr .dy 16) (.mul (.rd (.arr .dy 16)) (.div (.num 31034219999999998 15) (.rd (.var .rho)))),
  .set (.arr .dy 17) (.mul (.rd (.arr .dy 17)) (.div (.num 28053759999999997 15) (.rd (.var .rho)))),
  .set (.arr .dy 18) (.mul (.rd (.arr .dy 18)) (.div (.num 29061699999999998 15) (.rd (.var .rho)))),
  .set (.arr .dy 19) (.mul (.rd (.arr .dy 19)) (.div (.num 3006964 5) (.rd (.var .rho)))),
  .set (.arr .dy 20) (.mul (.rd (.arr .dy 20)) (.div (.num 39948 3) (.rd (.var .rho))))]

end DLB.Mech.Drm19
