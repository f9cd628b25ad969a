/- Generated by tools/gen_mechanisms.py from utilities/mechanisms/drm19/lib/src/{chem_utils,sparse_multiplier}.c. Do not edit. -/
import Verif.Model.CLang
set_option autoImplicit false
set_option maxRecDepth 1000000

namespace DLB.Mech.Drm19
open DLB

/-- utilities/mechanisms/drm19/lib/src/chem_utils.c:55-96 -/
def evalConcRho : List CStmt := [
  .set (.var .yN) (.sub (.num 1 0) (.add (.add (.add (.add (.add (.add (.add (.add (.add (.add (.add (.add (.add (.add (.add (.add (.add (.add (.add (.rd (.arr .y 0)) (.rd (.arr .y 1))) (.rd (.arr .y 2))) (.rd (.arr .y 3))) (.rd (.arr .y 4))) (.rd (.arr .y 5))) (.rd (.arr .y 6))) (.rd (.arr .y 7))) (.rd (.arr .y 8))) (.rd (.arr .y 9))) (.rd (.arr .y 10))) (.rd (.arr .y 11))) (.rd (.arr .y 12))) (.rd (.arr .y 13))) (.rd (.arr .y 14))) (.rd (.arr .y 15))) (.rd (.arr .y 16))) (.rd (.arr .y 17))) (.rd (.arr .y 18))) (.rd (.arr .y 19)))),
  .set (.var .mwAvg) (.add (.add (.add (.add (.add (.add (.add (.add (.add (.add (.add (.add (.add (.add (.add (.add (.add (.add (.add (.add (.mul (.rd (.arr .y 0)) (.num 49606127348850126 17)) (.mul (.rd (.arr .y 1)) (.num 99212254697700253 17))) (.mul (.rd (.arr .y 2)) (.num 62502343837893923 18))) (.mul (.rd (.arr .y 3)) (.num 31251171918946961 18))) (.mul (.rd (.arr .y 4)) (.num 58798142449083754 18))) (.mul (.rd (.arr .y 5)) (.num 5550843506179199 17))) (.mul (.rd (.arr .y 6)) (.num 30296842402491128 18))) (.mul (.rd (.arr .y 7)) (.num 71291691381119682 18))) (.mul (.rd (.arr .y 8)) (.num 71291691381119682 18))) (.mul (.rd (.arr .y 9)) (.num 6651226951835805 17))) (.mul (.rd (.arr .y 10)) (.num 62333413951215375 18))) (.mul (.rd (.arr .y 11)) (.num 35701025333447579 18))) (.mul (.rd (.arr .y 12)) (.num 22722211870992371 18))) (.mul (.rd (.arr .y 13)) (.num 34460965031080343 18))) (.mul (.rd (.arr .y 14)) (.num 33304158890145569 18))) (.mul (.rd (.arr .y 15)) (.num 32222495039346891 18))) (.mul (.rd (.arr .y 16)) (.num 35645845690559841 18))) (.mul (.rd (.arr .y 17)) (.num 34409549338132318 18))) (.mul (.rd (.arr .y 18)) (.num 33256134759179025 18))) (.mul (.rd (.arr .y 19)) (.num 25032542304996495 18))) (.mul (.rd (.var .yN)) (.num 35697100110375433 18))),
  .set (.var .mwAvg) (.div (.num 1 0) (.rd (.var .mwAvg))),
  .set (.var .pres) (.div (.mul (.mul (.rd (.var .rho)) (.num 83144621 4)) (.rd (.var .T))) (.rd (.var .mwAvg))),
  .set (.arr .C 0) (.mul (.mul (.rd (.var .rho)) (.rd (.arr .y 0))) (.num 49606127348850126 17)),
  .set (.arr .C 1) (.mul (.mul (.rd (.var .rho)) (.rd (.arr .y 1))) (.num 99212254697700253 17)),
  .set (.arr .C 2) (.mul (.mul (.rd (.var .rho)) (.rd (.arr .y 2))) (.num 62502343837893923 18)),
  .set (.arr .C 3) (.mul (.mul (.rd (.var .rho)) (.rd (.arr .y 3))) (.num 31251171918946961 18)),
  .set (.arr .C 4) (.mul (.mul (.rd (.var .rho)) (.rd (.arr .y 4))) (.num 58798142449083754 18)),
  .set (.arr .C 5) (.mul (.mul (.rd (.var .rho)) (.rd (.arr .y 5))) (.num 5550843506179199 17)),
  .set (.arr .C 6) (.mul (.mul (.rd (.var .rho)) (.rd (.arr .y 6))) (.num 30296842402491128 18)),
  .set (.arr .C 7) (.mul (.mul (.rd (.var .rho)) (.rd (.arr .y 7))) (.num 71291691381119682 18)),
  .set (.arr .C 8) (.mul (.mul (.rd (.var .rho)) (.rd (.arr .y 8))) (.num 71291691381119682 18)),
  .set (.arr .C 9) (.mul (.mul (.rd (.var .rho)) (.rd (.arr .y 9))) (.num 6651226951835805 17)),
  .set (.arr .C 10) (.mul (.mul (.rd (.var .rho)) (.rd (.arr .y 10))) (.num 62333413951215375 18)),
  .set (.arr .C 11) (.mul (.mul (.rd (.var .rho)) (.rd (.arr .y 11))) (.num 35701025333447579 18)),
  .set (.arr .C 12) (.mul (.mul (.rd (.var .rho)) (.rd (.arr .y 12))) (.num 22722211870992371 18)),
  .set (.arr .C 13) (.mul (.mul (.rd (.var .rho)) (.rd (.arr .y 13))) (.num 34460965031080343 18)),
  .set (.arr .C 14) (.mul (.mul (.rd (.var .rho)) (.rd (.arr .y 14))) (.num 33304158890145569 18)),
  .set (.arr .C 15) (.mul (.mul (.rd (.var .rho)) (.rd (.arr .y 15))) (.num 32222495039346891 18)),
  .set (.arr .C 16) (.mul (.mul (.rd (.var .rho)) (.rd (.arr .y 16))) (.num 35645845690559841 18)),
  .set (.arr .C 17) (.mul (.mul (.rd (.var .rho)) (.rd (.arr .y 17))) (.num 34409549338132318 18)),
  .set (.arr .C 18) (.mul (.mul (.rd (.var .rho)) (.rd (.arr .y 18))) (.num 33256134759179025 18)),
  .set (.arr .C 19) (.mul (.mul (.rd (.var .rho)) (.rd (.arr .y 19))) (.num 25032542304996495 18)),
  .set (.arr .C 20) (.mul (.mul (.rd (.var .rho)) (.rd (.var .yN))) (.num 35697100110375433 18))]

/-- utilities/mechanisms/drm19/lib/src/chem_utils.c:228-356 -/
def evalU : List CStmt := [
  .ite (.rd (.var .T)) (.num 1000 0) (.arr .h 0) (.mul (.num 41244826576978785 13) (.add (.neg (.num 91793517299999996 14)) (.mul (.rd (.var .T)) (.add (.sub (.num 23443311200000001 16) (.num 1 0)) (.mul (.rd (.var .T)) (.add (.num 39902603749999996 19) (.mul (.rd (.var .T)) (.add (.neg (.num 64927169999999995 22)) (.mul (.rd (.var .T)) (.add (.num 50393023500000001 25) (.mul (.neg (.num 14752235220000002 28)) (.rd (.var .T))))))))))))) (.mul (.num 41244826576978785 13) (.add (.neg (.num 95015892199999996 14)) (.mul (.rd (.var .T)) (.add (.sub (.num 33372791999999998 16) (.num 1 0)) (.mul (.rd (.var .T)) (.add (.neg (.num 24701236549999999 21)) (.mul (.rd (.var .T)) (.add (.num 16648559266666665 23) (.mul (.rd (.var .T)) (.add (.neg (.num 44891598500000001 27)) (.mul (.num 40051075199999998 31) (.rd (.var .T))))))))))))),
  .ite (.rd (.var .T)) (.num 1000 0) (.arr .h 1) (.mul (.num 8248965315395757 12) (.add (.num 25473659899999999 12) (.mul (.rd (.var .T)) (.add (.sub (.num 25 1) (.num 1 0)) (.mul (.rd (.var .T)) (.add (.num 35266640949999999 29) (.mul (.rd (.var .T)) (.add (.neg (.num 66530654666666665 32)) (.mul (.rd (.var .T)) (.add (.num 57520407999999997 35) (.mul (.neg (.num 18554646640000001 38)) (.rd (.var .T))))))))))))) (.mul (.num 8248965315395757 12) (.add (.num 25473659899999999 12) (.mul (.rd (.var .T)) (.add (.sub (.num 25000000099999999 16) (.num 1 0)) (.mul (.rd (.var .T)) (.add (.neg (.num 11542148649999999 27)) (.mul (.rd (.var .T)) (.add (.num 53853982666666673 31) (.mul (.rd (.var .T)) (.add (.neg (.num 11837880875000001 34)) (.mul (.num 99639471400000006 39) (.rd (.var .T))))))))))))),
  .ite (.rd (.var .T)) (.num 1000 0) (.arr .h 2) (.mul (.num 51967336900133762 14) (.add (.num 291222592 4) (.mul (.rd (.var .T)) (.add (.sub (.num 31682671 7) (.num 1 0)) (.mul (.rd (.var .T)) (.add (.neg (.num 163965942 11)) (.mul (.rd (.var .T)) (.add (.num 22143546533333334 22) (.mul (.rd (.var .T)) (.add (.neg (.num 153201656 17)) (.mul (.num 42253194199999998 29) (.rd (.var .T))))))))))))) (.mul (.num 51967336900133762 14) (.add (.num 29217579099999999 12) (.mul (.rd (.var .T)) (.add (.sub (.num 25694207800000002 16) (.num 1 0)) (.mul (.rd (.var .T)) (.add (.neg (.num 42987056850000002 21)) (.mul (.rd (.var .T)) (.add (.num 13982819633333334 24) (.mul (.rd (.var .T)) (.add (.neg (.num 25044449749999998 28)) (.mul (.num 24566738199999997 32) (.rd (.var .T))))))))))))),
  .ite (.rd (.var .T)) (.num 1000 0) (.arr .h 3) (.mul (.num 25983668450066881 14) (.add (.neg (.num 10639435599999999 13)) (.mul (.rd (.var .T)) (.add (.sub (.num 37824563599999999 16) (.num 1 0)) (.mul (.rd (.var .T)) (.add (.neg (.num 14983670799999999 19)) (.mul (.rd (.var .T)) (.add (.num 32824340033333332 22) (.mul (.rd (.var .T)) (.add (.neg (.num 24203237725000002 25)) (.mul (.num 648745674 21) (.rd (.var .T))))))))))))) (.mul (.num 25983668450066881 14) (.add (.neg (.num 10884577200000001 13)) (.mul (.rd (.var .T)) (.add (.sub (.num 32825378399999998 16) (.num 1 0)) (.mul (.rd (.var .T)) (.add (.num 74154376999999996 20) (.mul (.rd (.var .T)) (.add (.neg (.num 25265555633333331 23)) (.mul (.rd (.var .T)) (.add (.num 52367638749999998 27) (.mul (.neg (.num 43343558799999996 31)) (.rd (.var .T))))))))))))),
  .ite (.rd (.var .T)) (.num 1000 0) (.arr .h 4) (.mul (.num 48887492694330808 14) (.add (.num 36150805599999999 13) (.mul (.rd (.var .T)) (.add (.sub (.num 39920154299999999 16) (.num 1 0)) (.mul (.rd (.var .T)) (.add (.neg (.num 12006587600000001 19)) (.mul (.rd (.var .T)) (.add (.num 15393128033333333 22) (.mul (.rd (.var .T)) (.add (.neg (.num 97028333249999999 26)) (.mul (.num 27282293999999999 29) (.rd (.var .T))))))))))))) (.mul (.num 48887492694330808 14) (.add (.num 38586570000000002 13) (.mul (.rd (.var .T)) (.add (.sub (.num 30928876700000001 16) (.num 1 0)) (.mul (.rd (.var .T)) (.add (.num 27421485799999999 20) (.mul (.rd (.var .T)) (.add (.num 42168409333333331 24) (.mul (.rd (.var .T)) (.add (.neg (.num 21986538899999999 27)) (.mul (.num 23482475199999999 31) (.rd (.var .T))))))))))))),
  .ite (.rd (.var .T)) (.num 1000 0) (.arr .h 5) (.mul (.num 4615227795515807 13) (.add (.neg (.num 30293726699999999 12)) (.mul (.rd (.var .T)) (.add (.sub (.num 41986405600000003 16) (.num 1 0)) (.mul (.rd (.var .T)) (.add (.neg (.num 10182170500000001 19)) (.mul (.rd (.var .T)) (.add (.num 217346737 14) (.mul (.rd (.var .T)) (.add (.neg (.num 13719926550000001 25)) (.mul (.num 354395634 21) (.rd (.var .T))))))))))))) (.mul (.num 4615227795515807 13) (.add (.neg (.num 300042971 4)) (.mul (.rd (.var .T)) (.add (.sub (.num 30339924900000002 16) (.num 1 0)) (.mul (.rd (.var .T)) (.add (.num 10884590200000001 19) (.mul (.rd (.var .T)) (.add (.neg (.num 54690839333333327 24)) (.mul (.rd (.var .T)) (.add (.neg (.num 2426049675 20)) (.mul (.num 33640198399999998 31) (.rd (.var .T))))))))))))),
  .ite (.rd (.var .T)) (.num 1000 0) (.arr .h 6) (.mul (.num 25190194790518544 14) (.add (.num 29480804000000001 14) (.mul (.rd (.var .T)) (.add (.sub (.num 43017980099999997 16) (.num 1 0)) (.mul (.rd (.var .T)) (.add (.neg (.num 23745602549999998 19)) (.mul (.rd (.var .T)) (.add (.num 70527630333333326 22) (.mul (.rd (.var .T)) (.add (.neg (.num 606909735 17)) (.mul (.num 18584502480000002 28) (.rd (.var .T))))))))))))) (.mul (.num 25190194790518544 14) (.add (.num 111856713 6) (.mul (.rd (.var .T)) (.add (.sub (.num 40172109000000003 16) (.num 1 0)) (.mul (.rd (.var .T)) (.add (.num 1119910065 12) (.mul (.rd (.var .T)) (.add (.neg (.num 21121938333333332 23)) (.mul (.rd (.var .T)) (.add (.num 28561592500000001 27) (.mul (.neg (.num 21581707 22)) (.rd (.var .T))))))))))))),
  .ite (.rd (.var .T)) (.num 1000 0) (.arr .h 7) (.mul (.num 59275206603321635 14) (.add (.num 46004040099999998 12) (.mul (.rd (.var .T)) (.add (.sub (.num 37626786700000001 16) (.num 1 0)) (.mul (.rd (.var .T)) (.add (.num 48443607150000002 20) (.mul (.rd (.var .T)) (.add (.num 93163280333333339 23) (.mul (.rd (.var .T)) (.add (.neg (.num 96272788250000007 26)) (.mul (.num 33748343799999999 29) (.rd (.var .T))))))))))))) (.mul (.num 59275206603321635 14) (.add (.num 46263603999999999 12) (.mul (.rd (.var .T)) (.add (.sub (.num 28741011300000001 16) (.num 1 0)) (.mul (.rd (.var .T)) (.add (.num 18281964599999999 19) (.mul (.rd (.var .T)) (.add (.neg (.num 46964865666666667 23)) (.mul (.rd (.var .T)) (.add (.num 65044887249999998 27) (.mul (.neg (.num 375455134 23)) (.rd (.var .T))))))))))))),
  .ite (.rd (.var .T)) (.num 1000 0) (.arr .h 8) (.mul (.num 59275206603321635 14) (.add (.num 50496816299999999 12) (.mul (.rd (.var .T)) (.add (.sub (.num 41986041099999998 16) (.num 1 0)) (.mul (.rd (.var .T)) (.add (.neg (.num 1183307095 12)) (.mul (.rd (.var .T)) (.add (.num 27443207333333332 22) (.mul (.rd (.var .T)) (.add (.neg (.num 16720399525000001 25)) (.mul (.num 38862947400000001 29) (.rd (.var .T))))))))))))) (.mul (.num 59275206603321635 14) (.add (.num 509259997 4) (.mul (.rd (.var .T)) (.add (.sub (.num 22920384199999999 16) (.num 1 0)) (.mul (.rd (.var .T)) (.add (.num 2327943185 12) (.mul (.rd (.var .T)) (.add (.neg (.num 67063982333333332 23)) (.mul (.rd (.var .T)) (.add (.num 10447650000000001 26) (.mul (.neg (.num 67943272999999998 31)) (.rd (.var .T))))))))))))),
  .ite (.rd (.var .T)) (.num 1000 0) (.arr .h 9) (.mul (.num 55301374409537334 14) (.add (.num 16444998800000001 12) (.mul (.rd (.var .T)) (.add (.sub (.num 36735904000000001 16) (.num 1 0)) (.mul (.rd (.var .T)) (.add (.num 1005475875 12) (.mul (.rd (.var .T)) (.add (.num 19100728533333335 22) (.mul (.rd (.var .T)) (.add (.neg (.num 17177935625 19)) (.mul (.num 50877146800000003 29) (.rd (.var .T))))))))))))) (.mul (.num 55301374409537334 14) (.add (.num 16775584299999999 12) (.mul (.rd (.var .T)) (.add (.sub (.num 22857177200000001 16) (.num 1 0)) (.mul (.rd (.var .T)) (.add (.num 36199501849999999 19) (.mul (.rd (.var .T)) (.add (.neg (.num 99571449333333331 23)) (.mul (.rd (.var .T)) (.add (.num 14892116100000001 26) (.mul (.neg (.num 93430878800000005 31)) (.rd (.var .T))))))))))))),
  .ite (.rd (.var .T)) (.num 1000 0) (.arr .h 10) (.mul (.num 5182688078609915 13) (.add (.neg (.num 102466476 4)) (.mul (.rd (.var .T)) (.add (.sub (.num 514987613 8) (.num 1 0)) (.mul (.rd (.var .T)) (.add (.neg (.num 68354894000000003 19)) (.mul (.rd (.var .T)) (.add (.num 16393353300000001 21) (.mul (.rd (.var .T)) (.add (.neg (.num 1211857565 17)) (.mul (.num 333387912 20) (.rd (.var .T))))))))))))) (.mul (.num 5182688078609915 13) (.add (.neg (.num 94683445900000006 13)) (.mul (.rd (.var .T)) (.add (.sub (.num 74851495000000004 18) (.num 1 0)) (.mul (.rd (.var .T)) (.add (.num 66954733499999999 19) (.mul (.rd (.var .T)) (.add (.neg (.num 19109526966666665 22)) (.mul (.rd (.var .T)) (.add (.num 3057313375 19) (.mul (.neg (.num 20363046000000002 30)) (.rd (.var .T))))))))))))),
  .ite (.rd (.var .T)) (.num 1000 0) (.arr .h 11) (.mul (.num 29683482206608977 14) (.add (.neg (.num 14344085999999999 12)) (.mul (.rd (.var .T)) (.add (.sub (.num 35795334699999999 16) (.num 1 0)) (.mul (.rd (.var .T)) (.add (.neg (.num 30517684 11)) (.mul (.rd (.var .T)) (.add (.num 33893811000000002 23) (.mul (.rd (.var .T)) (.add (.num 226751471 18) (.mul (.neg (.num 18088489979999999 29)) (.rd (.var .T))))))))))))) (.mul (.num 29683482206608977 14) (.add (.neg (.num 141518724 4)) (.mul (.rd (.var .T)) (.add (.sub (.num 27151856099999998 16) (.num 1 0)) (.mul (.rd (.var .T)) (.add (.num 10312637150000001 19) (.mul (.rd (.var .T)) (.add (.neg (.num 33294192366666671 23)) (.mul (.rd (.var .T)) (.add (.num 57513252 18) (.mul (.neg (.num 40729543200000001 31)) (.rd (.var .T))))))))))))),
  .ite (.rd (.var .T)) (.num 1000 0) (.arr .h 12) (.mul (.num 18892296942953618 14) (.add (.neg (.num 48371969700000001 12)) (.mul (.rd (.var .T)) (.add (.sub (.num 235677352 8) (.num 1 0)) (.mul (.rd (.var .T)) (.add (.num 44922983850000002 19) (.mul (.rd (.var .T)) (.add (.neg (.num 23745208966666665 22)) (.mul (.rd (.var .T)) (.add (.num 61479755499999995 26) (.mul (.neg (.num 28739909599999997 30)) (.rd (.var .T))))))))))))) (.mul (.num 18892296942953618 14) (.add (.neg (.num 48759165999999997 12)) (.mul (.rd (.var .T)) (.add (.sub (.num 38574602900000001 16) (.num 1 0)) (.mul (.rd (.var .T)) (.add (.num 22071851299999999 19) (.mul (.rd (.var .T)) (.add (.neg (.num 73827134666666672 23)) (.mul (.rd (.var .T)) (.add (.num 13087254700000001 26) (.mul (.neg (.num 94416832800000002 31)) (.rd (.var .T))))))))))))),
  .ite (.rd (.var .T)) (.num 1000 0) (.arr .h 13) (.mul (.num 2865243876803429 13) (.add (.num 38395649600000002 13) (.mul (.rd (.var .T)) (.add (.sub (.num 42211858400000004 16) (.num 1 0)) (.mul (.rd (.var .T)) (.add (.neg (.num 162196266 11)) (.mul (.rd (.var .T)) (.add (.num 45933148666666667 22) (.mul (.rd (.var .T)) (.add (.neg (.num 33286023250000002 25)) (.mul (.num 86753773 20) (.rd (.var .T))))))))))))) (.mul (.num 2865243876803429 13) (.add (.num 401191815 5) (.mul (.rd (.var .T)) (.add (.sub (.num 277217438 8) (.num 1 0)) (.mul (.rd (.var .T)) (.add (.num 24784776299999998 19) (.mul (.rd (.var .T)) (.add (.neg (.num 82815204333333337 23)) (.mul (.rd (.var .T)) (.add (.num 14729044450000001 26) (.mul (.neg (.num 1067017422 23)) (.rd (.var .T))))))))))))),
  .ite (.rd (.var .T)) (.num 1000 0) (.arr .h 14) (.mul (.num 2769061668644934 13) (.add (.neg (.num 14308956700000001 12)) (.mul (.rd (.var .T)) (.add (.sub (.num 47937231499999999 16) (.num 1 0)) (.mul (.rd (.var .T)) (.add (.neg (.num 4954166845 12)) (.mul (.rd (.var .T)) (.add (.num 12440666933333332 21) (.mul (.rd (.var .T)) (.add (.neg (.num 94821315249999995 25)) (.mul (.num 26354530400000001 28) (.rd (.var .T))))))))))))) (.mul (.num 2769061668644934 13) (.add (.neg (.num 139958323 4)) (.mul (.rd (.var .T)) (.add (.sub (.num 176069008 8) (.num 1 0)) (.mul (.rd (.var .T)) (.add (.num 460000041 11) (.mul (.rd (.var .T)) (.add (.neg (.num 14741960433333332 22)) (.mul (.rd (.var .T)) (.add (.num 25160302999999999 26) (.mul (.neg (.num 17677112800000002 30)) (.rd (.var .T))))))))))))),
  .ite (.rd (.var .T)) (.num 1000 0) (.arr .h 15) (.mul (.num 26791271377208773 14) (.add (.num 97860109999999997 14) (.mul (.rd (.var .T)) (.add (.sub (.num 2106204 6) (.num 1 0)) (.mul (.rd (.var .T)) (.add (.num 36082975000000001 19) (.mul (.rd (.var .T)) (.add (.num 17794906666666667 22) (.mul (.rd (.var .T)) (.add (.neg (.num 18444089999999999 25)) (.mul (.num 415122 18) (.rd (.var .T))))))))))))) (.mul (.num 26791271377208773 14) (.add (.num 12783252 5) (.mul (.rd (.var .T)) (.add (.sub (.num 37707989999999998 16) (.num 1 0)) (.mul (.rd (.var .T)) (.add (.num 39357484999999999 19) (.mul (.rd (.var .T)) (.add (.neg (.num 88546133333333336 23)) (.mul (.rd (.var .T)) (.add (.num 98610774999999998 27) (.mul (.neg (.num 42252319999999999 31)) (.rd (.var .T))))))))))))),
  .ite (.rd (.var .T)) (.num 1000 0) (.arr .h 16) (.mul (.num 29637603301660818 14) (.add (.num 50897759299999998 13) (.mul (.rd (.var .T)) (.add (.sub (.num 39592014799999999 16) (.num 1 0)) (.mul (.rd (.var .T)) (.add (.neg (.num 37852612350000002 19)) (.mul (.rd (.var .T)) (.add (.num 19033009733333333 21) (.mul (.rd (.var .T)) (.add (.neg (.num 17289718825 18)) (.mul (.num 53976874600000004 28) (.rd (.var .T))))))))))))) (.mul (.num 29637603301660818 14) (.add (.num 49398861399999996 13) (.mul (.rd (.var .T)) (.add (.sub (.num 20361111599999999 16) (.num 1 0)) (.mul (.rd (.var .T)) (.add (.num 73227075499999999 19) (.mul (.rd (.var .T)) (.add (.neg (.num 22369263833333335 22)) (.mul (.rd (.var .T)) (.add (.num 36805730750000002 26) (.mul (.neg (.num 251412122 22)) (.rd (.var .T))))))))))))),
  .ite (.rd (.var .T)) (.num 1000 0) (.arr .h 17) (.mul (.num 28609689384998131 14) (.add (.num 128416265 4) (.mul (.rd (.var .T)) (.add (.sub (.num 43064656799999996 16) (.num 1 0)) (.mul (.rd (.var .T)) (.add (.neg (.num 20932944600000002 19)) (.mul (.rd (.var .T)) (.add (.num 16571426900000001 21) (.mul (.rd (.var .T)) (.add (.neg (.num 14978165149999999 24)) (.mul (.num 46101800800000003 28) (.rd (.var .T))))))))))))) (.mul (.num 28609689384998131 14) (.add (.num 1285752 2) (.mul (.rd (.var .T)) (.add (.sub (.num 19546564200000001 16) (.num 1 0)) (.mul (.rd (.var .T)) (.add (.num 86986361000000005 19) (.mul (.rd (.var .T)) (.add (.neg (.num 26606888933333333 22)) (.mul (.rd (.var .T)) (.add (.num 43804422250000001 26) (.mul (.neg (.num 29928315199999999 30)) (.rd (.var .T))))))))))))),
  .ite (.rd (.var .T)) (.num 1000 0) (.arr .h 18) (.mul (.num 27650687204768667 14) (.add (.neg (.num 115222055 4)) (.mul (.rd (.var .T)) (.add (.sub (.num 42914249199999999 16) (.num 1 0)) (.mul (.rd (.var .T)) (.add (.neg (.num 27507713499999998 19)) (.mul (.rd (.var .T)) (.add (.num 19981276266666669 21) (.mul (.rd (.var .T)) (.add (.neg (.num 17711657125 18)) (.mul (.num 53737154200000002 28) (.rd (.var .T))))))))))))) (.mul (.num 27650687204768667 14) (.add (.neg (.num 114263932 4)) (.mul (.rd (.var .T)) (.add (.sub (.num 10718814999999999 16) (.num 1 0)) (.mul (.rd (.var .T)) (.add (.num 1084263385 11) (.mul (.rd (.var .T)) (.add (.neg (.num 33418689 13)) (.mul (.rd (.var .T)) (.add (.num 55353000250000001 26) (.mul (.neg (.num 38000577999999999 30)) (.rd (.var .T))))))))))))),
  .ite (.rd (.var .T)) (.num 1000 0) (.arr .h 19) (.mul (.num 20813212426154001 14) (.add (.neg (.num 745375 3)) (.mul (.rd (.var .T)) (.add (.sub (.num 25 1) (.num 1 0)) (.mul (.rd (.var .T)) (.add (.num 0 0) (.mul (.rd (.var .T)) (.add (.num 0 0) (.mul (.rd (.var .T)) (.add (.num 0 0) (.mul (.num 0 0) (.rd (.var .T))))))))))))) (.mul (.num 20813212426154001 14) (.add (.neg (.num 745375 3)) (.mul (.rd (.var .T)) (.add (.sub (.num 25 1) (.num 1 0)) (.mul (.rd (.var .T)) (.add (.num 0 0) (.mul (.rd (.var .T)) (.add (.num 0 0) (.mul (.rd (.var .T)) (.add (.num 0 0) (.mul (.num 0 0) (.rd (.var .T))))))))))))),
  .ite (.rd (.var .T)) (.num 1000 0) (.arr .h 20) (.mul (.num 29680218594762238 14) (.add (.neg (.num 10208999 4)) (.mul (.rd (.var .T)) (.add (.sub (.num 32986770000000001 16) (.num 1 0)) (.mul (.rd (.var .T)) (.add (.num 70412019999999999 20) (.mul (.rd (.var .T)) (.add (.neg (.num 13210739999999999 22)) (.mul (.rd (.var .T)) (.add (.num 14103787500000001 25) (.mul (.neg (.num 48897079999999994 29)) (.rd (.var .T))))))))))))) (.mul (.num 29680218594762238 14) (.add (.neg (.num 92279769999999996 14)) (.mul (.rd (.var .T)) (.add (.sub (.num 29266399999999999 16) (.num 1 0)) (.mul (.rd (.var .T)) (.add (.num 74398840000000003 20) (.mul (.rd (.var .T)) (.add (.neg (.num 18949200000000001 23)) (.mul (.rd (.var .T)) (.add (.num 25242595 18) (.mul (.neg (.num 13506701999999999 31)) (.rd (.var .T)))))))))))))]

/-- utilities/mechanisms/drm19/lib/src/chem_utils.c:358-486 -/
def evalCv : List CStmt := [
  .ite (.rd (.var .T)) (.num 1000 0) (.arr .cp 0) (.mul (.num 41244826576978785 13) (.add (.sub (.num 23443311200000001 16) (.num 1 0)) (.mul (.rd (.var .T)) (.add (.num 79805207499999992 19) (.mul (.rd (.var .T)) (.add (.neg (.num 19478150999999999 21)) (.mul (.rd (.var .T)) (.add (.num 201572094 16) (.mul (.neg (.num 73761176100000006 28)) (.rd (.var .T))))))))))) (.mul (.num 41244826576978785 13) (.add (.sub (.num 33372791999999998 16) (.num 1 0)) (.mul (.rd (.var .T)) (.add (.neg (.num 49402473099999998 21)) (.mul (.rd (.var .T)) (.add (.num 49945677799999996 23) (.mul (.rd (.var .T)) (.add (.neg (.num 17956639400000001 26)) (.mul (.num 200255376 22) (.rd (.var .T))))))))))),
  .ite (.rd (.var .T)) (.num 1000 0) (.arr .cp 1) (.mul (.num 8248965315395757 12) (.add (.sub (.num 25 1) (.num 1 0)) (.mul (.rd (.var .T)) (.add (.num 70533281899999999 29) (.mul (.rd (.var .T)) (.add (.neg (.num 199591964 23)) (.mul (.rd (.var .T)) (.add (.num 23008163199999999 34) (.mul (.neg (.num 92773233200000006 38)) (.rd (.var .T))))))))))) (.mul (.num 8248965315395757 12) (.add (.sub (.num 25000000099999999 16) (.num 1 0)) (.mul (.rd (.var .T)) (.add (.neg (.num 23084297299999999 27)) (.mul (.rd (.var .T)) (.add (.num 16156194800000001 30) (.mul (.rd (.var .T)) (.add (.neg (.num 47351523500000003 34)) (.mul (.num 49819735700000002 38) (.rd (.var .T))))))))))),
  .ite (.rd (.var .T)) (.num 1000 0) (.arr .cp 2) (.mul (.num 51967336900133762 14) (.add (.sub (.num 31682671 7) (.num 1 0)) (.mul (.rd (.var .T)) (.add (.neg (.num 32793188399999999 19)) (.mul (.rd (.var .T)) (.add (.num 66430639599999997 22) (.mul (.rd (.var .T)) (.add (.neg (.num 61280662400000001 25)) (.mul (.num 21126597099999999 28) (.rd (.var .T))))))))))) (.mul (.num 51967336900133762 14) (.add (.sub (.num 25694207800000002 16) (.num 1 0)) (.mul (.rd (.var .T)) (.add (.neg (.num 85974113700000004 21)) (.mul (.rd (.var .T)) (.add (.num 41948458900000002 24) (.mul (.rd (.var .T)) (.add (.neg (.num 10017779899999999 27)) (.mul (.num 12283369099999999 31) (.rd (.var .T))))))))))),
  .ite (.rd (.var .T)) (.num 1000 0) (.arr .cp 3) (.mul (.num 25983668450066881 14) (.add (.sub (.num 37824563599999999 16) (.num 1 0)) (.mul (.rd (.var .T)) (.add (.neg (.num 29967341599999998 19)) (.mul (.rd (.var .T)) (.add (.num 984730201 14) (.mul (.rd (.var .T)) (.add (.neg (.num 96812950900000007 25)) (.mul (.num 324372837 20) (.rd (.var .T))))))))))) (.mul (.num 25983668450066881 14) (.add (.sub (.num 32825378399999998 16) (.num 1 0)) (.mul (.rd (.var .T)) (.add (.num 14830875399999999 19) (.mul (.rd (.var .T)) (.add (.neg (.num 75796666899999999 23)) (.mul (.rd (.var .T)) (.add (.num 20947055499999999 26) (.mul (.neg (.num 21671779399999999 30)) (.rd (.var .T))))))))))),
  .ite (.rd (.var .T)) (.num 1000 0) (.arr .cp 4) (.mul (.num 48887492694330808 14) (.add (.sub (.num 39920154299999999 16) (.num 1 0)) (.mul (.rd (.var .T)) (.add (.neg (.num 24013175200000001 19)) (.mul (.rd (.var .T)) (.add (.num 46179384099999996 22) (.mul (.rd (.var .T)) (.add (.neg (.num 388113333 17)) (.mul (.num 13641147 19) (.rd (.var .T))))))))))) (.mul (.num 48887492694330808 14) (.add (.sub (.num 30928876700000001 16) (.num 1 0)) (.mul (.rd (.var .T)) (.add (.num 54842971599999998 20) (.mul (.rd (.var .T)) (.add (.num 12650522799999999 23) (.mul (.rd (.var .T)) (.add (.neg (.num 87946155599999995 27)) (.mul (.num 117412376 22) (.rd (.var .T))))))))))),
  .ite (.rd (.var .T)) (.num 1000 0) (.arr .cp 5) (.mul (.num 4615227795515807 13) (.add (.sub (.num 41986405600000003 16) (.num 1 0)) (.mul (.rd (.var .T)) (.add (.neg (.num 20364341000000002 19)) (.mul (.rd (.var .T)) (.add (.num 65204021099999997 22) (.mul (.rd (.var .T)) (.add (.neg (.num 54879706200000003 25)) (.mul (.num 177197817 20) (.rd (.var .T))))))))))) (.mul (.num 4615227795515807 13) (.add (.sub (.num 30339924900000002 16) (.num 1 0)) (.mul (.rd (.var .T)) (.add (.num 21769180400000002 19) (.mul (.rd (.var .T)) (.add (.neg (.num 16407251799999999 23)) (.mul (.rd (.var .T)) (.add (.neg (.num 97041986999999998 27)) (.mul (.num 16820099199999999 30) (.rd (.var .T))))))))))),
  .ite (.rd (.var .T)) (.num 1000 0) (.arr .cp 6) (.mul (.num 25190194790518544 14) (.add (.sub (.num 43017980099999997 16) (.num 1 0)) (.mul (.rd (.var .T)) (.add (.neg (.num 47491205099999996 19)) (.mul (.rd (.var .T)) (.add (.num 21158289099999999 21) (.mul (.rd (.var .T)) (.add (.neg (.num 242763894 16)) (.mul (.num 92922512400000003 28) (.rd (.var .T))))))))))) (.mul (.num 25190194790518544 14) (.add (.sub (.num 40172109000000003 16) (.num 1 0)) (.mul (.rd (.var .T)) (.add (.num 22398201299999999 19) (.mul (.rd (.var .T)) (.add (.neg (.num 63365814999999998 23)) (.mul (.rd (.var .T)) (.add (.num 11424637 17) (.mul (.neg (.num 107908535 22)) (.rd (.var .T))))))))))),
  .ite (.rd (.var .T)) (.num 1000 0) (.arr .cp 7) (.mul (.num 59275206603321635 14) (.add (.sub (.num 37626786700000001 16) (.num 1 0)) (.mul (.rd (.var .T)) (.add (.num 96887214300000004 20) (.mul (.rd (.var .T)) (.add (.num 27948984100000001 22) (.mul (.rd (.var .T)) (.add (.neg (.num 38509115300000003 25)) (.mul (.num 168741719 20) (.rd (.var .T))))))))))) (.mul (.num 59275206603321635 14) (.add (.sub (.num 28741011300000001 16) (.num 1 0)) (.mul (.rd (.var .T)) (.add (.num 36563929199999999 19) (.mul (.rd (.var .T)) (.add (.neg (.num 14089459700000001 22)) (.mul (.rd (.var .T)) (.add (.num 26017954899999999 26) (.mul (.neg (.num 18772756700000001 30)) (.rd (.var .T))))))))))),
  .ite (.rd (.var .T)) (.num 1000 0) (.arr .cp 8) (.mul (.num 59275206603321635 14) (.add (.sub (.num 41986041099999998 16) (.num 1 0)) (.mul (.rd (.var .T)) (.add (.neg (.num 23666141900000001 19)) (.mul (.rd (.var .T)) (.add (.num 82329621999999999 22) (.mul (.rd (.var .T)) (.add (.neg (.num 66881598100000004 25)) (.mul (.num 19431473700000001 28) (.rd (.var .T))))))))))) (.mul (.num 59275206603321635 14) (.add (.sub (.num 22920384199999999 16) (.num 1 0)) (.mul (.rd (.var .T)) (.add (.num 465588637 11) (.mul (.rd (.var .T)) (.add (.neg (.num 20119194699999999 22)) (.mul (.rd (.var .T)) (.add (.num 41790600000000002 26) (.mul (.neg (.num 33971636499999998 30)) (.rd (.var .T))))))))))),
  .ite (.rd (.var .T)) (.num 1000 0) (.arr .cp 9) (.mul (.num 55301374409537334 14) (.add (.sub (.num 36735904000000001 16) (.num 1 0)) (.mul (.rd (.var .T)) (.add (.num 201095175 11) (.mul (.rd (.var .T)) (.add (.num 57302185600000002 22) (.mul (.rd (.var .T)) (.add (.neg (.num 68711742500000001 25)) (.mul (.num 254385734 20) (.rd (.var .T))))))))))) (.mul (.num 55301374409537334 14) (.add (.sub (.num 22857177200000001 16) (.num 1 0)) (.mul (.rd (.var .T)) (.add (.num 72399003699999999 19) (.mul (.rd (.var .T)) (.add (.neg (.num 29871434799999999 22)) (.mul (.rd (.var .T)) (.add (.num 59568464400000002 26) (.mul (.neg (.num 46715439400000003 30)) (.rd (.var .T))))))))))),
  .ite (.rd (.var .T)) (.num 1000 0) (.arr .cp 10) (.mul (.num 5182688078609915 13) (.add (.sub (.num 514987613 8) (.num 1 0)) (.mul (.rd (.var .T)) (.add (.neg (.num 13670978800000001 18)) (.mul (.rd (.var .T)) (.add (.num 49180059899999999 21) (.mul (.rd (.var .T)) (.add (.neg (.num 48474302600000002 24)) (.mul (.num 16669395599999999 27) (.rd (.var .T))))))))))) (.mul (.num 5182688078609915 13) (.add (.sub (.num 74851495000000004 18) (.num 1 0)) (.mul (.rd (.var .T)) (.add (.num 133909467 10) (.mul (.rd (.var .T)) (.add (.neg (.num 573285809 14)) (.mul (.rd (.var .T)) (.add (.num 122292535 17) (.mul (.neg (.num 10181523 20)) (.rd (.var .T))))))))))),
  .ite (.rd (.var .T)) (.num 1000 0) (.arr .cp 11) (.mul (.num 29683482206608977 14) (.add (.sub (.num 35795334699999999 16) (.num 1 0)) (.mul (.rd (.var .T)) (.add (.neg (.num 61035368 11)) (.mul (.rd (.var .T)) (.add (.num 101681433 14) (.mul (.rd (.var .T)) (.add (.num 90700588399999998 26) (.mul (.neg (.num 904424499 21)) (.rd (.var .T))))))))))) (.mul (.num 29683482206608977 14) (.add (.sub (.num 27151856099999998 16) (.num 1 0)) (.mul (.rd (.var .T)) (.add (.num 20625274300000002 19) (.mul (.rd (.var .T)) (.add (.neg (.num 99882577100000007 23)) (.mul (.rd (.var .T)) (.add (.num 230053008 18) (.mul (.neg (.num 203647716 22)) (.rd (.var .T))))))))))),
  .ite (.rd (.var .T)) (.num 1000 0) (.arr .cp 12) (.mul (.num 18892296942953618 14) (.add (.sub (.num 235677352 8) (.num 1 0)) (.mul (.rd (.var .T)) (.add (.num 89845967700000005 19) (.mul (.rd (.var .T)) (.add (.neg (.num 71235626899999998 22)) (.mul (.rd (.var .T)) (.add (.num 24591902199999998 25) (.mul (.neg (.num 14369954799999999 29)) (.rd (.var .T))))))))))) (.mul (.num 18892296942953618 14) (.add (.sub (.num 38574602900000001 16) (.num 1 0)) (.mul (.rd (.var .T)) (.add (.num 44143702599999998 19) (.mul (.rd (.var .T)) (.add (.neg (.num 22148140400000001 22)) (.mul (.rd (.var .T)) (.add (.num 52349018800000005 26) (.mul (.neg (.num 47208416400000003 30)) (.rd (.var .T))))))))))),
  .ite (.rd (.var .T)) (.num 1000 0) (.arr .cp 13) (.mul (.num 2865243876803429 13) (.add (.sub (.num 42211858400000004 16) (.num 1 0)) (.mul (.rd (.var .T)) (.add (.neg (.num 324392532 11)) (.mul (.rd (.var .T)) (.add (.num 137799446 13) (.mul (.rd (.var .T)) (.add (.neg (.num 13314409300000001 24)) (.mul (.num 43376886499999999 28) (.rd (.var .T))))))))))) (.mul (.num 2865243876803429 13) (.add (.sub (.num 277217438 8) (.num 1 0)) (.mul (.rd (.var .T)) (.add (.num 49569552599999997 19) (.mul (.rd (.var .T)) (.add (.neg (.num 248445613 14)) (.mul (.rd (.var .T)) (.add (.num 58916177800000004 26) (.mul (.neg (.num 53350871099999999 30)) (.rd (.var .T))))))))))),
  .ite (.rd (.var .T)) (.num 1000 0) (.arr .cp 14) (.mul (.num 2769061668644934 13) (.add (.sub (.num 47937231499999999 16) (.num 1 0)) (.mul (.rd (.var .T)) (.add (.neg (.num 99083336899999999 19)) (.mul (.rd (.var .T)) (.add (.num 37322000799999999 21) (.mul (.rd (.var .T)) (.add (.neg (.num 37928526099999998 24)) (.mul (.num 131772652 19) (.rd (.var .T))))))))))) (.mul (.num 2769061668644934 13) (.add (.sub (.num 176069008 8) (.num 1 0)) (.mul (.rd (.var .T)) (.add (.num 920000082 11) (.mul (.rd (.var .T)) (.add (.neg (.num 44225881299999997 22)) (.mul (.rd (.var .T)) (.add (.num 100641212 17) (.mul (.neg (.num 88385564000000006 30)) (.rd (.var .T))))))))))),
  .ite (.rd (.var .T)) (.num 1000 0) (.arr .cp 15) (.mul (.num 26791271377208773 14) (.add (.sub (.num 2106204 6) (.num 1 0)) (.mul (.rd (.var .T)) (.add (.num 72165950000000001 19) (.mul (.rd (.var .T)) (.add (.num 53384719999999999 22) (.mul (.rd (.var .T)) (.add (.neg (.num 73776359999999997 25)) (.mul (.num 20756099999999999 28) (.rd (.var .T))))))))))) (.mul (.num 26791271377208773 14) (.add (.sub (.num 37707989999999998 16) (.num 1 0)) (.mul (.rd (.var .T)) (.add (.num 78714969999999999 19) (.mul (.rd (.var .T)) (.add (.neg (.num 26563840000000001 22)) (.mul (.rd (.var .T)) (.add (.num 39444309999999999 26) (.mul (.neg (.num 21126160000000001 30)) (.rd (.var .T))))))))))),
  .ite (.rd (.var .T)) (.num 1000 0) (.arr .cp 16) (.mul (.num 29637603301660818 14) (.add (.sub (.num 39592014799999999 16) (.num 1 0)) (.mul (.rd (.var .T)) (.add (.neg (.num 75705224700000004 19)) (.mul (.rd (.var .T)) (.add (.num 57099029199999999 21) (.mul (.rd (.var .T)) (.add (.neg (.num 69158875299999999 24)) (.mul (.num 26988437300000001 27) (.rd (.var .T))))))))))) (.mul (.num 29637603301660818 14) (.add (.sub (.num 20361111599999999 16) (.num 1 0)) (.mul (.rd (.var .T)) (.add (.num 146454151 10) (.mul (.rd (.var .T)) (.add (.neg (.num 67107791500000002 22)) (.mul (.rd (.var .T)) (.add (.num 14722292300000001 25) (.mul (.neg (.num 125706061 21)) (.rd (.var .T))))))))))),
  .ite (.rd (.var .T)) (.num 1000 0) (.arr .cp 17) (.mul (.num 28609689384998131 14) (.add (.sub (.num 43064656799999996 16) (.num 1 0)) (.mul (.rd (.var .T)) (.add (.neg (.num 41865889200000004 19)) (.mul (.rd (.var .T)) (.add (.num 49714280699999999 21) (.mul (.rd (.var .T)) (.add (.neg (.num 59912660599999996 24)) (.mul (.num 230509004 19) (.rd (.var .T))))))))))) (.mul (.num 28609689384998131 14) (.add (.sub (.num 19546564200000001 16) (.num 1 0)) (.mul (.rd (.var .T)) (.add (.num 17397272200000001 18) (.mul (.rd (.var .T)) (.add (.neg (.num 79820666799999996 22)) (.mul (.rd (.var .T)) (.add (.num 175217689 17) (.mul (.neg (.num 149641576 21)) (.rd (.var .T))))))))))),
  .ite (.rd (.var .T)) (.num 1000 0) (.arr .cp 18) (.mul (.num 27650687204768667 14) (.add (.sub (.num 42914249199999999 16) (.num 1 0)) (.mul (.rd (.var .T)) (.add (.neg (.num 55015426999999997 19)) (.mul (.rd (.var .T)) (.add (.num 59943828800000003 21) (.mul (.rd (.var .T)) (.add (.neg (.num 70846628500000001 24)) (.mul (.num 26868577099999999 27) (.rd (.var .T))))))))))) (.mul (.num 27650687204768667 14) (.add (.sub (.num 10718814999999999 16) (.num 1 0)) (.mul (.rd (.var .T)) (.add (.num 216852677 10) (.mul (.rd (.var .T)) (.add (.neg (.num 100256067 13)) (.mul (.rd (.var .T)) (.add (.num 221412001 17) (.mul (.neg (.num 19000289 20)) (.rd (.var .T))))))))))),
  .ite (.rd (.var .T)) (.num 1000 0) (.arr .cp 19) (.mul (.num 20813212426154001 14) (.add (.sub (.num 25 1) (.num 1 0)) (.mul (.rd (.var .T)) (.add (.num 0 0) (.mul (.rd (.var .T)) (.add (.num 0 0) (.mul (.rd (.var .T)) (.add (.num 0 0) (.mul (.num 0 0) (.rd (.var .T))))))))))) (.mul (.num 20813212426154001 14) (.add (.sub (.num 25 1) (.num 1 0)) (.mul (.rd (.var .T)) (.add (.num 0 0) (.mul (.rd (.var .T)) (.add (.num 0 0) (.mul (.rd (.var .T)) (.add (.num 0 0) (.mul (.num 0 0) (.rd (.var .T))))))))))),
  .ite (.rd (.var .T)) (.num 1000 0) (.arr .cp 20) (.mul (.num 29680218594762238 14) (.add (.sub (.num 32986770000000001 16) (.num 1 0)) (.mul (.rd (.var .T)) (.add (.num 14082404 10) (.mul (.rd (.var .T)) (.add (.neg (.num 39632219999999998 22)) (.mul (.rd (.var .T)) (.add (.num 56415150000000002 25) (.mul (.neg (.num 24448539999999999 28)) (.rd (.var .T))))))))))) (.mul (.num 29680218594762238 14) (.add (.sub (.num 29266399999999999 16) (.num 1 0)) (.mul (.rd (.var .T)) (.add (.num 14879768000000001 19) (.mul (.rd (.var .T)) (.add (.neg (.num 56847600000000001 23)) (.mul (.rd (.var .T)) (.add (.num 10097038 17) (.mul (.neg (.num 67533509999999998 31)) (.rd (.var .T)))))))))))]

/-- utilities/mechanisms/drm19/lib/src/sparse_multiplier.c:3-25 -/
def sparseMultiplier : List CStmt := [
  .set (.arr .dy 0) (.add (.add (.add (.add (.add (.add (.add (.add (.add (.add (.add (.add (.add (.add (.add (.add (.add (.add (.add (.add (.mul (.rd (.arr .jac 0)) (.rd (.arr .y 0))) (.mul (.rd (.arr .jac 21)) (.rd (.arr .y 1)))) (.mul (.rd (.arr .jac 42)) (.rd (.arr .y 2)))) (.mul (.rd (.arr .jac 63)) (.rd (.arr .y 3)))) (.mul (.rd (.arr .jac 84)) (.rd (.arr .y 4)))) (.mul (.rd (.arr .jac 105)) (.rd (.arr .y 5)))) (.mul (.rd (.arr .jac 126)) (.rd (.arr .y 6)))) (.mul (.rd (.arr .jac 147)) (.rd (.arr .y 7)))) (.mul (.rd (.arr .jac 168)) (.rd (.arr .y 8)))) (.mul (.rd (.arr .jac 189)) (.rd (.arr .y 9)))) (.mul (.rd (.arr .jac 210)) (.rd (.arr .y 10)))) (.mul (.rd (.arr .jac 231)) (.rd (.arr .y 11)))) (.mul (.rd (.arr .jac 252)) (.rd (.arr .y 12)))) (.mul (.rd (.arr .jac 273)) (.rd (.arr .y 13)))) (.mul (.rd (.arr .jac 294)) (.rd (.arr .y 14)))) (.mul (.rd (.arr .jac 315)) (.rd (.arr .y 15)))) (.mul (.rd (.arr .jac 336)) (.rd (.arr .y 16)))) (.mul (.rd (.arr .jac 357)) (.rd (.arr .y 17)))) (.mul (.rd (.arr .jac 378)) (.rd (.arr .y 18)))) (.mul (.rd (.arr .jac 399)) (.rd (.arr .y 19)))) (.mul (.rd (.arr .jac 420)) (.rd (.arr .y 20)))),
  .set (.arr .dy 1) (.add (.add (.add (.add (.add (.add (.add (.add (.add (.add (.add (.add (.add (.add (.add (.add (.add (.add (.add (.add (.mul (.rd (.arr .jac 1)) (.rd (.arr .y 0))) (.mul (.rd (.arr .jac 22)) (.rd (.arr .y 1)))) (.mul (.rd (.arr .jac 43)) (.rd (.arr .y 2)))) (.mul (.rd (.arr .jac 64)) (.rd (.arr .y 3)))) (.mul (.rd (.arr .jac 85)) (.rd (.arr .y 4)))) (.mul (.rd (.arr .jac 106)) (.rd (.arr .y 5)))) (.mul (.rd (.arr .jac 127)) (.rd (.arr .y 6)))) (.mul (.rd (.arr .jac 148)) (.rd (.arr .y 7)))) (.mul (.rd (.arr .jac 169)) (.rd (.arr .y 8)))) (.mul (.rd (.arr .jac 190)) (.rd (.arr .y 9)))) (.mul (.rd (.arr .jac 211)) (.rd (.arr .y 10)))) (.mul (.rd (.arr .jac 232)) (.rd (.arr .y 11)))) (.mul (.rd (.arr .jac 253)) (.rd (.arr .y 12)))) (.mul (.rd (.arr .jac 274)) (.rd (.arr .y 13)))) (.mul (.rd (.arr .jac 295)) (.rd (.arr .y 14)))) (.mul (.rd (.arr .jac 316)) (.rd (.arr .y 15)))) (.mul (.rd (.arr .jac 337)) (.rd (.arr .y 16)))) (.mul (.rd (.arr .jac 358)) (.rd (.arr .y 17)))) (.mul (.rd (.arr .jac 379)) (.rd (.arr .y 18)))) (.mul (.rd (.arr .jac 400)) (.rd (.arr .y 19)))) (.mul (.rd (.arr .jac 421)) (.rd (.arr .y 20)))),
  .set (.arr .dy 2) (.add (.add (.add (.add (.add (.add (.add (.add (.add (.add (.add (.add (.add (.add (.add (.add (.add (.add (.add (.add (.mul (.rd (.arr .jac 2)) (.rd (.arr .y 0))) (.mul (.rd (.arr .jac 23)) (.rd (.arr .y 1)))) (.mul (.rd (.arr .jac 44)) (.rd (.arr .y 2)))) (.mul (.rd (.arr .jac 65)) (.rd (.arr .y 3)))) (.mul (.rd (.arr .jac 86)) (.rd (.arr .y 4)))) (.mul (.rd (.arr .jac 107)) (.rd (.arr .y 5)))) (.mul (.rd (.arr .jac 128)) (.rd (.arr .y 6)))) (.mul (.rd (.arr .jac 149)) (.rd (.arr .y 7)))) (.mul (.rd (.arr .jac 170)) (.rd (.arr .y 8)))) (.mul (.rd (.arr .jac 191)) (.rd (.arr .y 9)))) (.mul (.rd (.arr .jac 212)) (.rd (.arr .y 10)))) (.mul (.rd (.arr .jac 233)) (.rd (.arr .y 11)))) (.mul (.rd (.arr .jac 254)) (.rd (.arr .y 12)))) (.mul (.rd (.arr .jac 275)) (.rd (.arr .y 13)))) (.mul (.rd (.arr .jac 296)) (.rd (.arr .y 14)))) (.mul (.rd (.arr .jac 317)) (.rd (.arr .y 15)))) (.mul (.rd (.arr .jac 338)) (.rd (.arr .y 16)))) (.mul (.rd (.arr .jac 359)) (.rd (.arr .y 17)))) (.mul (.rd (.arr .jac 380)) (.rd (.arr .y 18)))) (.mul (.rd (.arr .jac 401)) (.rd (.arr .y 19)))) (.mul (.rd (.arr .jac 422)) (.rd (.arr .y 20)))),
  .set (.arr .dy 3) (.add (.add (.add (.add (.add (.add (.add (.add (.add (.add (.add (.add (.add (.add (.add (.add (.add (.add (.add (.add (.mul (.rd (.arr .jac 3)) (.rd (.arr .y 0))) (.mul (.rd (.arr .jac 24)) (.rd (.arr .y 1)))) (.mul (.rd (.arr .jac 45)) (.rd (.arr .y 2)))) (.mul (.rd (.arr .jac 66)) (.rd (.arr .y 3)))) (.mul (.rd (.arr .jac 87)) (.rd (.arr .y 4)))) (.mul (.rd (.arr .jac 108)) (.rd (.arr .y 5)))) (.mul (.rd (.arr .jac 129)) (.rd (.arr .y 6)))) (.mul (.rd (.arr .jac 150)) (.rd (.arr .y 7)))) (.mul (.rd (.arr .jac 171)) (.rd (.arr .y 8)))) (.mul (.rd (.arr .jac 192)) (.rd (.arr .y 9)))) (.mul (.rd (.arr .jac 213)) (.rd (.arr .y 10)))) (.mul (.rd (.arr .jac 234)) (.rd (.arr .y 11)))) (.mul (.rd (.arr .jac 255)) (.rd (.arr .y 12)))) (.mul (.rd (.arr .jac 276)) (.rd (.arr .y 13)))) (.mul (.rd (.arr .jac 297)) (.rd (.arr .y 14)))) (.mul (.rd (.arr .jac 318)) (.rd (.arr .y 15)))) (.mul (.rd (.arr .jac 339)) (.rd (.arr .y 16)))) (.mul (.rd (.arr .jac 360)) (.rd (.arr .y 17)))) (.mul (.rd (.arr .jac 381)) (.rd (.arr .y 18)))) (.mul (.rd (.arr .jac 402)) (.rd (.arr .y 19)))) (.mul (.rd (.arr .jac 423)) (.rd (.arr .y 20)))),
  .set (.arr .dy 4) (.add (.add (.add (.add (.add (.add (.add (.add (.add (.add (.add (.add (.add (.add (.add (.add (.add (.add (.add (.add (.mul (.rd (.arr .jac 4)) (.rd (.arr .y 0))) (.mul (.rd (.arr .jac 25)) (.rd (.arr .y 1)))) (.mul (.rd (.arr .jac 46)) (.rd (.arr .y 2)))) (.mul (.rd (.arr .jac 67)) (.rd (.arr .y 3)))) (.mul (.rd (.arr .jac 88)) (.rd (.arr .y 4)))) (.mul (.rd (.arr .jac 109)) (.rd (.arr .y 5)))) (.mul (.rd (.arr .jac 130)) (.rd (.arr .y 6)))) (.mul (.rd (.arr .jac 151)) (.rd (.arr .y 7)))) (.mul (.rd (.arr .jac 172)) (.rd (.arr .y 8)))) (.mul (.rd (.arr .jac 193)) (.rd (.arr .y 9)))) (.mul (.rd (.arr .jac 214)) (.rd (.arr .y 10)))) (.mul (.rd (.arr .jac 235)) (.rd (.arr .y 11)))) (.mul (.rd (.arr .jac 256)) (.rd (.arr .y 12)))) (.mul (.rd (.arr .jac 277)) (.rd (.arr .y 13)))) (.mul (.rd (.arr .jac 298)) (.rd (.arr .y 14)))) (.mul (.rd (.arr .jac 319)) (.rd (.arr .y 15)))) (.mul (.rd (.arr .jac 340)) (.rd (.arr .y 16)))) (.mul (.rd (.arr .jac 361)) (.rd (.arr .y 17)))) (.mul (.rd (.arr .jac 382)) (.rd (.arr .y 18)))) (.mul (.rd (.arr .jac 403)) (.rd (.arr .y 19)))) (.mul (.rd (.arr .jac 424)) (.rd (.arr .y 20)))),
  .set (.arr .dy 5) (.add (.add (.add (.add (.add (.add (.add (.add (.add (.add (.add (.add (.add (.add (.add (.add (.add (.add (.add (.add (.mul (.rd (.arr .jac 5)) (.rd (.arr .y 0))) (.mul (.rd (.arr .jac 26)) (.rd (.arr .y 1)))) (.mul (.rd (.arr .jac 47)) (.rd (.arr .y 2)))) (.mul (.rd (.arr .jac 68)) (.rd (.arr .y 3)))) (.mul (.rd (.arr .jac 89)) (.rd (.arr .y 4)))) (.mul (.rd (.arr .jac 110)) (.rd (.arr .y 5)))) (.mul (.rd (.arr .jac 131)) (.rd (.arr .y 6)))) (.mul (.rd (.arr .jac 152)) (.rd (.arr .y 7)))) (.mul (.rd (.arr .jac 173)) (.rd (.arr .y 8)))) (.mul (.rd (.arr .jac 194)) (.rd (.arr .y 9)))) (.mul (.rd (.arr .jac 215)) (.rd (.arr .y 10)))) (.mul (.rd (.arr .jac 236)) (.rd (.arr .y 11)))) (.mul (.rd (.arr .jac 257)) (.rd (.arr .y 12)))) (.mul (.rd (.arr .jac 278)) (.rd (.arr .y 13)))) (.mul (.rd (.arr .jac 299)) (.rd (.arr .y 14)))) (.mul (.rd (.arr .jac 320)) (.rd (.arr .y 15)))) (.mul (.rd (.arr .jac 341)) (.rd (.arr .y 16)))) (.mul (.rd (.arr .jac 362)) (.rd (.arr .y 17)))) (.mul (.rd (.arr .jac 383)) (.rd (.arr .y 18)))) (.mul (.rd (.arr .jac 404)) (.rd (.arr .y 19)))) (.mul (.rd (.arr .jac 425)) (.rd (.arr .y 20)))),
  .set (.arr .dy 6) (.add (.add (.add (.add (.add (.add (.add (.add (.add (.add (.add (.add (.add (.add (.add (.add (.add (.add (.add (.add (.mul (.rd (.arr .jac 6)) (.rd (.arr .y 0))) (.mul (.rd (.arr .jac 27)) (.rd (.arr .y 1)))) (.mul (.rd (.arr .jac 48)) (.rd (.arr .y 2)))) (.mul (.rd (.arr .jac 69)) (.rd (.arr .y 3)))) (.mul (.rd (.arr .jac 90)) (.rd (.arr .y 4)))) (.mul (.rd (.arr .jac 111)) (.rd (.arr .y 5)))) (.mul (.rd (.arr .jac 132)) (.rd (.arr .y 6)))) (.mul (.rd (.arr .jac 153)) (.rd (.arr .y 7)))) (.mul (.rd (.arr .jac 174)) (.rd (.arr .y 8)))) (.mul (.rd (.arr .jac 195)) (.rd (.arr .y 9)))) (.mul (.rd (.arr .jac 216)) (.rd (.arr .y 10)))) (.mul (.rd (.arr .jac 237)) (.rd (.arr .y 11)))) (.mul (.rd (.arr .jac 258)) (.rd (.arr .y 12)))) (.mul (.rd (.arr .jac 279)) (.rd (.arr .y 13)))) (.mul (.rd (.arr .jac 300)) (.rd (.arr .y 14)))) (.mul (.rd (.arr .jac 321)) (.rd (.arr .y 15)))) (.mul (.rd (.arr .jac 342)) (.rd (.arr .y 16)))) (.mul (.rd (.arr .jac 363)) (.rd (.arr .y 17)))) (.mul (.rd (.arr .jac 384)) (.rd (.arr .y 18)))) (.mul (.rd (.arr .jac 405)) (.rd (.arr .y 19)))) (.mul (.rd (.arr .jac 426)) (.rd (.arr .y 20)))),
  .set (.arr .dy 7) (.add (.add (.add (.add (.add (.add (.add (.add (.add (.add (.add (.add (.add (.add (.add (.add (.add (.add (.add (.add (.mul (.rd (.arr .jac 7)) (.rd (.arr .y 0))) (.mul (.rd (.arr .jac 28)) (.rd (.arr .y 1)))) (.mul (.rd (.arr .jac 49)) (.rd (.arr .y 2)))) (.mul (.rd (.arr .jac 70)) (.rd (.arr .y 3)))) (.mul (.rd (.arr .jac 91)) (.rd (.arr .y 4)))) (.mul (.rd (.arr .jac 112)) (.rd (.arr .y 5)))) (.mul (.rd (.arr .jac 133)) (.rd (.arr .y 6)))) (.mul (.rd (.arr .jac 154)) (.rd (.arr .y 7)))) (.mul (.rd (.arr .jac 175)) (.rd (.arr .y 8)))) (.mul (.rd (.arr .jac 196)) (.rd (.arr .y 9)))) (.mul (.rd (.arr .jac 217)) (.rd (.arr .y 10)))) (.mul (.rd (.arr .jac 238)) (.rd (.arr .y 11)))) (.mul (.rd (.arr .jac 259)) (.rd (.arr .y 12)))) (.mul (.rd (.arr .jac 280)) (.rd (.arr .y 13)))) (.mul (.rd (.arr .jac 301)) (.rd (.arr .y 14)))) (.mul (.rd (.arr .jac 322)) (.rd (.arr .y 15)))) (.mul (.rd (.arr .jac 343)) (.rd (.arr .y 16)))) (.mul (.rd (.arr .jac 364)) (.rd (.arr .y 17)))) (.mul (.rd (.arr .jac 385)) (.rd (.arr .y 18)))) (.mul (.rd (.arr .jac 406)) (.rd (.arr .y 19)))) (.mul (.rd (.arr .jac 427)) (.rd (.arr .y 20)))),
  .set (.arr .dy 8) (.add (.add (.add (.add (.add (.add (.add (.add (.add (.add (.add (.add (.add (.add (.add (.add (.add (.add (.add (.add (.mul (.rd (.arr .jac 8)) (.rd (.arr .y 0))) (.mul (.rd (.arr .jac 29)) (.rd (.arr .y 1)))) (.mul (.rd (.arr .jac 50)) (.rd (.arr .y 2)))) (.mul (.rd (.arr .jac 71)) (.rd (.arr .y 3)))) (.mul (.rd (.arr .jac 92)) (.rd (.arr .y 4)))) (.mul (.rd (.arr .jac 113)) (.rd (.arr .y 5)))) (.mul (.rd (.arr .jac 134)) (.rd (.arr .y 6)))) (.mul (.rd (.arr .jac 155)) (.rd (.arr .y 7)))) (.mul (.rd (.arr .jac 176)) (.rd (.arr .y 8)))) (.mul (.rd (.arr .jac 197)) (.rd (.arr .y 9)))) (.mul (.rd (.arr .jac 218)) (.rd (.arr .y 10)))) (.mul (.rd (.arr .jac 239)) (.rd (.arr .y 11)))) (.mul (.rd (.arr .jac 260)) (.rd (.arr .y 12)))) (.mul (.rd (.arr .jac 281)) (.rd (.arr .y 13)))) (.mul (.rd (.arr .jac 302)) (.rd (.arr .y 14)))) (.mul (.rd (.arr .jac 323)) (.rd (.arr .y 15)))) (.mul (.rd (.arr .jac 344)) (.rd (.arr .y 16)))) (.mul (.rd (.arr .jac 365)) (.rd (.arr .y 17)))) (.mul (.rd (.arr .jac 386)) (.rd (.arr .y 18)))) (.mul (.rd (.arr .jac 407)) (.rd (.arr .y 19)))) (.mul (.rd (.arr .jac 428)) (.rd (.arr .y 20)))),
  .set (.arr .dy 9) (.add (.add (.add (.add (.add (.add (.add (.add (.add (.add (.add (.add (.add (.add (.add (.add (.add (.add (.add (.add (.mul (.rd (.arr .jac 9)) (.rd (.arr .y 0))) (.mul (.rd (.arr .jac 30)) (.rd (.arr .y 1)))) (.mul (.rd (.arr .jac 51)) (.rd (.arr .y 2)))) (.mul (.rd (.arr .jac 72)) (.rd (.arr .y 3)))) (.mul (.rd (.arr .jac 93)) (.rd (.arr .y 4)))) (.mul (.rd (.arr .jac 114)) (.rd (.arr .y 5)))) (.mul (.rd (.arr .jac 135)) (.rd (.arr .y 6)))) (.mul (.rd (.arr .jac 156)) (.rd (.arr .y 7)))) (.mul (.rd (.arr .jac 177)) (.rd (.arr .y 8)))) (.mul (.rd (.arr .jac 198)) (.rd (.arr .y 9)))) (.mul (.rd (.arr .jac 219)) (.rd (.arr .y 10)))) (.mul (.rd (.arr .jac 240)) (.rd (.arr .y 11)))) (.mul (.rd (.arr .jac 261)) (.rd (.arr .y 12)))) (.mul (.rd (.arr .jac 282)) (.rd (.arr .y 13)))) (.mul (.rd (.arr .jac 303)) (.rd (.arr .y 14)))) (.mul (.rd (.arr .jac 324)) (.rd (.arr .y 15)))) (.mul (.rd (.arr .jac 345)) (.rd (.arr .y 16)))) (.mul (.rd (.arr .jac 366)) (.rd (.arr .y 17)))) (.mul (.rd (.arr .jac 387)) (.rd (.arr .y 18)))) (.mul (.rd (.arr .jac 408)) (.rd (.arr .y 19)))) (.mul (.rd (.arr .jac 429)) (.rd (.arr .y 20)))),
  .set (.arr .dy 10) (.add (.add (.add (.add (.add (.add (.add (.add (.add (.add (.add (.add (.add (.add (.add (.add (.add (.add (.add (.add (.mul (.rd (.arr .jac 10)) (.rd (.arr .y 0))) (.mul (.rd (.arr .jac 31)) (.rd (.arr .y 1)))) (.mul (.rd (.arr .jac 52)) (.rd (.arr .y 2)))) (.mul (.rd (.arr .jac 73)) (.rd (.arr .y 3)))) (.mul (.rd (.arr .jac 94)) (.rd (.arr .y 4)))) (.mul (.rd (.arr .jac 115)) (.rd (.arr .y 5)))) (.mul (.rd (.arr .jac 136)) (.rd (.arr .y 6)))) (.mul (.rd (.arr .jac 157)) (.rd (.arr .y 7)))) (.mul (.rd (.arr .jac 178)) (.rd (.arr .y 8)))) (.mul (.rd (.arr .jac 199)) (.rd (.arr .y 9)))) (.mul (.rd (.arr .jac 220)) (.rd (.arr .y 10)))) (.mul (.rd (.arr .jac 241)) (.rd (.arr .y 11)))) (.mul (.rd (.arr .jac 262)) (.rd (.arr .y 12)))) (.mul (.rd (.arr .jac 283)) (.rd (.arr .y 13)))) (.mul (.rd (.arr .jac 304)) (.rd (.arr .y 14)))) (.mul (.rd (.arr .jac 325)) (.rd (.arr .y 15)))) (.mul (.rd (.arr .jac 346)) (.rd (.arr .y 16)))) (.mul (.rd (.arr .jac 367)) (.rd (.arr .y 17)))) (.mul (.rd (.arr .jac 388)) (.rd (.arr .y 18)))) (.mul (.rd (.arr .jac 409)) (.rd (.arr .y 19)))) (.mul (.rd (.arr .jac 430)) (.rd (.arr .y 20)))),
  .set (.arr .dy 11) (.add (.add (.add (.add (.add (.add (.add (.add (.add (.add (.add (.add (.add (.add (.add (.add (.add (.add (.add (.add (.mul (.rd (.arr .jac 11)) (.rd (.arr .y 0))) (.mul (.rd (.arr .jac 32)) (.rd (.arr .y 1)))) (.mul (.rd (.arr .jac 53)) (.rd (.arr .y 2)))) (.mul (.rd (.arr .jac 74)) (.rd (.arr .y 3)))) (.mul (.rd (.arr .jac 95)) (.rd (.arr .y 4)))) (.mul (.rd (.arr .jac 116)) (.rd (.arr .y 5)))) (.mul (.rd (.arr .jac 137)) (.rd (.arr .y 6)))) (.mul (.rd (.arr .jac 158)) (.rd (.arr .y 7)))) (.mul (.rd (.arr .jac 179)) (.rd (.arr .y 8)))) (.mul (.rd (.arr .jac 200)) (.rd (.arr .y 9)))) (.mul (.rd (.arr .jac 221)) (.rd (.arr .y 10)))) (.mul (.rd (.arr .jac 242)) (.rd (.arr .y 11)))) (.mul (.rd (.arr .jac 263)) (.rd (.arr .y 12)))) (.mul (.rd (.arr .jac 284)) (.rd (.arr .y 13)))) (.mul (.rd (.arr .jac 305)) (.rd (.arr .y 14)))) (.mul (.rd (.arr .jac 326)) (.rd (.arr .y 15)))) (.mul (.rd (.arr .jac 347)) (.rd (.arr .y 16)))) (.mul (.rd (.arr .jac 368)) (.rd (.arr .y 17)))) (.mul (.rd (.arr .jac 389)) (.rd (.arr .y 18)))) (.mul (.rd (.arr .jac 410)) (.rd (.arr .y 19)))) (.mul (.rd (.arr .jac 431)) (.rd (.arr .y 20)))),
  .set (.arr .dy 12) (.add (.add (.add (.add (.add (.add (.add (.add (.add (.add (.add (.add (.add (.add (.add (.add (.add (.add (.add (.add (.mul (.rd (.arr .jac 12)) (.rd (.arr .y 0))) (.mul (.rd (.arr .jac 33)) (.rd (.arr .y 1)))) (.mul (.rd (.arr .jac 54)) (.rd (.arr .y 2)))) (.mul (.rd (.arr .jac 75)) (.rd (.arr .y 3)))) (.mul (.rd (.arr .jac 96)) (.rd (.arr .y 4)))) (.mul (.rd (.arr .jac 117)) (.rd (.arr .y 5)))) (.mul (.rd (.arr .jac 138)) (.rd (.arr .y 6)))) (.mul (.rd (.arr .jac 159)) (.rd (.arr .y 7)))) (.mul (.rd (.arr .jac 180)) (.rd (.arr .y 8)))) (.mul (.rd (.arr .jac 201)) (.rd (.arr .y 9)))) (.mul (.rd (.arr .jac 222)) (.rd (.arr .y 10)))) (.mul (.rd (.arr .jac 243)) (.rd (.arr .y 11)))) (.mul (.rd (.arr .jac 264)) (.rd (.arr .y 12)))) (.mul (.rd (.arr .jac 285)) (.rd (.arr .y 13)))) (.mul (.rd (.arr .jac 306)) (.rd (.arr .y 14)))) (.mul (.rd (.arr .jac 327)) (.rd (.arr .y 15)))) (.mul (.rd (.arr .jac 348)) (.rd (.arr .y 16)))) (.mul (.rd (.arr .jac 369)) (.rd (.arr .y 17)))) (.mul (.rd (.arr .jac 390)) (.rd (.arr .y 18)))) (.mul (.rd (.arr .jac 411)) (.rd (.arr .y 19)))) (.mul (.rd (.arr .jac 432)) (.rd (.arr .y 20)))),
  .set (.arr .dy 13) (.add (.add (.add (.add (.add (.add (.add (.add (.add (.add (.add (.add (.add (.add (.add (.add (.add (.add (.add (.add (.mul (.rd (.arr .jac 13)) (.rd (.arr .y 0))) (.mul (.rd (.arr .jac 34)) (.rd (.arr .y 1)))) (.mul (.rd (.arr .jac 55)) (.rd (.arr .y 2)))) (.mul (.rd (.arr .jac 76)) (.rd (.arr .y 3)))) (.mul (.rd (.arr .jac 97)) (.rd (.arr .y 4)))) (.mul (.rd (.arr .jac 118)) (.rd (.arr .y 5)))) (.mul (.rd (.arr .jac 139)) (.rd (.arr .y 6)))) (.mul (.rd (.arr .jac 160)) (.rd (.arr .y 7)))) (.mul (.rd (.arr .jac 181)) (.rd (.arr .y 8)))) (.mul (.rd (.arr .jac 202)) (.rd (.arr .y 9)))) (.mul (.rd (.arr .jac 223)) (.rd (.arr .y 10)))) (.mul (.rd (.arr .jac 244)) (.rd (.arr .y 11)))) (.mul (.rd (.arr .jac 265)) (.rd (.arr .y 12)))) (.mul (.rd (.arr .jac 286)) (.rd (.arr .y 13)))) (.mul (.rd (.arr .jac 307)) (.rd (.arr .y 14)))) (.mul (.rd (.arr .jac 328)) (.rd (.arr .y 15)))) (.mul (.rd (.arr .jac 349)) (.rd (.arr .y 16)))) (.mul (.rd (.arr .jac 370)) (.rd (.arr .y 17)))) (.mul (.rd (.arr .jac 391)) (.rd (.arr .y 18)))) (.mul (.rd (.arr .jac 412)) (.rd (.arr .y 19)))) (.mul (.rd (.arr .jac 433)) (.rd (.arr .y 20)))),
  .set (.arr .dy 14) (.add (.add (.add (.add (.add (.add (.add (.add (.add (.add (.add (.add (.add (.add (.add (.add (.add (.add (.add (.add (.mul (.rd (.arr .jac 14)) (.rd (.arr .y 0))) (.mul (.rd (.arr .jac 35)) (.rd (.arr .y 1)))) (.mul (.rd (.arr .jac 56)) (.rd (.arr .y 2)))) (.mul (.rd (.arr .jac 77)) (.rd (.arr .y 3)))) (.mul (.rd (.arr .jac 98)) (.rd (.arr .y 4)))) (.mul (.rd (.arr .jac 119)) (.rd (.arr .y 5)))) (.mul (.rd (.arr .jac 140)) (.rd (.arr .y 6)))) (.mul (.rd (.arr .jac 161)) (.rd (.arr .y 7)))) (.mul (.rd (.arr .jac 182)) (.rd (.arr .y 8)))) (.mul (.rd (.arr .jac 203)) (.rd (.arr .y 9)))) (.mul (.rd (.arr .jac 224)) (.rd (.arr .y 10)))) (.mul (.rd (.arr .jac 245)) (.rd (.arr .y 11)))) (.mul (.rd (.arr .jac 266)) (.rd (.arr .y 12)))) (.mul (.rd (.arr .jac 287)) (.rd (.arr .y 13)))) (.mul (.rd (.arr .jac 308)) (.rd (.arr .y 14)))) (.mul (.rd (.arr .jac 329)) (.rd (.arr .y 15)))) (.mul (.rd (.arr .jac 350)) (.rd (.arr .y 16)))) (.mul (.rd (.arr .jac 371)) (.rd (.arr .y 17)))) (.mul (.rd (.arr .jac 392)) (.rd (.arr .y 18)))) (.mul (.rd (.arr .jac 413)) (.rd (.arr .y 19)))) (.mul (.rd (.arr .jac 434)) (.rd (.arr .y 20)))),
  .set (.arr .dy 15) (.add (.add (.add (.add (.add (.add (.add (.add (.add (.add (.add (.add (.add (.add (.add (.add (.add (.add (.add (.add (.mul (.rd (.arr .jac 15)) (.rd (.arr .y 0))) (.mul (.rd (.arr .jac 36)) (.rd (.arr .y 1)))) (.mul (.rd (.arr .jac 57)) (.rd (.arr .y 2)))) (.mul (.rd (.arr .jac 78)) (.rd (.arr .y 3)))) (.mul (.rd (.arr .jac 99)) (.rd (.arr .y 4)))) (.mul (.rd (.arr .jac 120)) (.rd (.arr .y 5)))) (.mul (.rd (.arr .jac 141)) (.rd (.arr .y 6)))) (.mul (.rd (.arr .jac 162)) (.rd (.arr .y 7)))) (.mul (.rd (.arr .jac 183)) (.rd (.arr .y 8)))) (.mul (.rd (.arr .jac 204)) (.rd (.arr .y 9)))) (.mul (.rd (.arr .jac 225)) (.rd (.arr .y 10)))) (.mul (.rd (.arr .jac 246)) (.rd (.arr .y 11)))) (.mul (.rd (.arr .jac 267)) (.rd (.arr .y 12)))) (.mul (.rd (.arr .jac 288)) (.rd (.arr .y 13)))) (.mul (.rd (.arr .jac 309)) (.rd (.arr .y 14)))) (.mul (.rd (.arr .jac 330)) (.rd (.arr .y 15)))) (.mul (.rd (.arr .jac 351)) (.rd (.arr .y 16)))) (.mul (.rd (.arr .jac 372)) (.rd (.arr .y 17)))) (.mul (.rd (.arr .jac 393)) (.rd (.arr .y 18)))) (.mul (.rd (.arr .jac 414)) (.rd (.arr .y 19)))) (.mul (.rd (.arr .jac 435)) (.rd (.arr .y 20)))),
  .set (.arr .dy 16) (.add (.add (.add (.add (.add (.add (.add (.add (.add (.add (.add (.add (.add (.add (.add (.add (.add (.add (.add (.add (.mul (.rd (.arr .jac 16)) (.rd (.arr .y 0))) (.mul (.rd (.arr .jac 37)) (.rd (.arr .y 1)))) (.mul (.rd (.arr .jac 58)) (.rd (.arr .y 2)))) (.mul (.rd (.arr .jac 79)) (.rd (.arr .y 3)))) (.mul (.rd (.arr .jac 100)) (.rd (.arr .y 4)))) (.mul (.rd (.arr .jac 121)) (.rd (.arr .y 5)))) (.mul (.rd (.arr .jac 142)) (.rd (.arr .y 6)))) (.mul (.rd (.arr .jac 163)) (.rd (.arr .y 7)))) (.mul (.rd (.arr .jac 184)) (.rd (.arr .y 8)))) (.mul (.rd (.arr .jac 205)) (.rd (.arr .y 9)))) (.mul (.rd (.arr .jac 226)) (.rd (.arr .y 10)))) (.mul (.rd (.arr .jac 247)) (.rd (.arr .y 11)))) (.mul (.rd (.arr .jac 268)) (.rd (.arr .y 12)))) (.mul (.rd (.arr .jac 289)) (.rd (.arr .y 13)))) (.mul (.rd (.arr .jac 310)) (.rd (.arr .y 14)))) (.mul (.rd (.arr .jac 331)) (.rd (.arr .y 15)))) (.mul (.rd (.arr .jac 352)) (.rd (.arr .y 16)))) (.mul (.rd (.arr .jac 373)) (.rd (.arr .y 17)))) (.mul (.rd (.arr .jac 394)) (.rd (.arr .y 18)))) (.mul (.rd (.arr .jac 415)) (.rd (.arr .y 19)))) (.mul (.rd (.arr .jac 436)) (.rd (.arr .y 20)))),
  .set (.arr .dy 17) (.add (.add (.add (.add (.add (.add (.add (.add (.add (.add (.add (.add (.add (.add (.add (.add (.add (.add (.add (.add (.mul (.rd (.arr .jac 17)) (.rd (.arr .y 0))) (.mul (.rd (.arr .jac 38)) (.rd (.arr .y 1)))) (.mul (.rd (.arr .jac 59)) (.rd (.arr .y 2)))) (.mul (.rd (.arr .jac 80)) (.rd (.arr .y 3)))) (.mul (.rd (.arr .jac 101)) (.rd (.arr .y 4)))) (.mul (.rd (.arr .jac 122)) (.rd (.arr .y 5)))) (.mul (.rd (.arr .jac 143)) (.rd (.arr .y 6)))) (.mul (.rd (.arr .jac 164)) (.rd (.arr .y 7)))) (.mul (.rd (.arr .jac 185)) (.rd (.arr .y 8)))) (.mul (.rd (.arr .jac 206)) (.rd (.arr .y 9)))) (.mul (.rd (.arr .jac 227)) (.rd (.arr .y 10)))) (.mul (.rd (.arr .jac 248)) (.rd (.arr .y 11)))) (.mul (.rd (.arr .jac 269)) (.rd (.arr .y 12)))) (.mul (.rd (.arr .jac 290)) (.rd (.arr .y 13)))) (.mul (.rd (.arr .jac 311)) (.rd (.arr .y 14)))) (.mul (.rd (.arr .jac 332)) (.rd (.arr .y 15)))) (.mul (.rd (.arr .jac 353)) (.rd (.arr .y 16)))) (.mul (.rd (.arr .jac 374)) (.rd (.arr .y 17)))) (.mul (.rd (.arr .jac 395)) (.rd (.arr .y 18)))) (.mul (.rd (.arr .jac 416)) (.rd (.arr .y 19)))) (.mul (.rd (.arr .jac 437)) (.rd (.arr .y 20)))),
  .set (.arr .dy 18) (.add (.add (.add (.add (.add (.add (.add (.add (.add (.add (.add (.add (.add (.add (.add (.add (.add (.add (.add (.add (.mul (.rd (.arr .jac 18)) (.rd (.arr .y 0))) (.mul (.rd (.arr .jac 39)) (.rd (.arr .y 1)))) (.mul (.rd (.arr .jac 60)) (.rd (.arr .y 2)))) (.mul (.rd (.arr .jac 81)) (.rd (.arr .y 3)))) (.mul (.rd (.arr .jac 102)) (.rd (.arr .y 4)))) (.mul (.rd (.arr .jac 123)) (.rd (.arr .y 5)))) (.mul (.rd (.arr .jac 144)) (.rd (.arr .y 6)))) (.mul (.rd (.arr .jac 165)) (.rd (.arr .y 7)))) (.mul (.rd (.arr .jac 186)) (.rd (.arr .y 8)))) (.mul (.rd (.arr .jac 207)) (.rd (.arr .y 9)))) (.mul (.rd (.arr .jac 228)) (.rd (.arr .y 10)))) (.mul (.rd (.arr .jac 249)) (.rd (.arr .y 11)))) (.mul (.rd (.arr .jac 270)) (.rd (.arr .y 12)))) (.mul (.rd (.arr .jac 291)) (.rd (.arr .y 13)))) (.mul (.rd (.arr .jac 312)) (.rd (.arr .y 14)))) (.mul (.rd (.arr .jac 333)) (.rd (.arr .y 15)))) (.mul (.rd (.arr .jac 354)) (.rd (.arr .y 16)))) (.mul (.rd (.arr .jac 375)) (.rd (.arr .y 17)))) (.mul (.rd (.arr .jac 396)) (.rd (.arr .y 18)))) (.mul (.rd (.arr .jac 417)) (.rd (.arr .y 19)))) (.mul (.rd (.arr .jac 438)) (.rd (.arr .y 20)))),
  .set (.arr .dy 19) (.add (.add (.add (.add (.add (.add (.add (.add (.add (.add (.add (.add (.add (.add (.add (.add (.add (.add (.add (.add (.mul (.rd (.arr .jac 19)) (.rd (.arr .y 0))) (.mul (.rd (.arr .jac 40)) (.rd (.arr .y 1)))) (.mul (.rd (.arr .jac 61)) (.rd (.arr .y 2)))) (.mul (.rd (.arr .jac 82)) (.rd (.arr .y 3)))) (.mul (.rd (.arr .jac 103)) (.rd (.arr .y 4)))) (.mul (.rd (.arr .jac 124)) (.rd (.arr .y 5)))) (.mul (.rd (.arr .jac 145)) (.rd (.arr .y 6)))) (.mul (.rd (.arr .jac 166)) (.rd (.arr .y 7)))) (.mul (.rd (.arr .jac 187)) (.rd (.arr .y 8)))) (.mul (.rd (.arr .jac 208)) (.rd (.arr .y 9)))) (.mul (.rd (.arr .jac 229)) (.rd (.arr .y 10)))) (.mul (.rd (.arr .jac 250)) (.rd (.arr .y 11)))) (.mul (.rd (.arr .jac 271)) (.rd (.arr .y 12)))) (.mul (.rd (.arr .jac 292)) (.rd (.arr .y 13)))) (.mul (.rd (.arr .jac 313)) (.rd (.arr .y 14)))) (.mul (.rd (.arr .jac 334)) (.rd (.arr .y 15)))) (.mul (.rd (.arr .jac 355)) (.rd (.arr .y 16)))) (.mul (.rd (.arr .jac 376)) (.rd (.arr .y 17)))) (.mul (.rd (.arr .jac 397)) (.rd (.arr .y 18)))) (.mul (.rd (.arr .jac 418)) (.rd (.arr .y 19)))) (.mul (.rd (.arr .jac 439)) (.rd (.arr .y 20)))),
  .set (.arr .dy 20) (.add (.add (.add (.add (.add (.add (.add (.add (.add (.add (.add (.add (.add (.add (.add (.add (.add (.add (.add (.add (.mul (.rd (.arr .jac 20)) (.rd (.arr .y 0))) (.mul (.rd (.arr .jac 41)) (.rd (.arr .y 1)))) (.mul (.rd (.arr .jac 62)) (.rd (.arr .y 2)))) (.mul (.rd (.arr .jac 83)) (.rd (.arr .y 3)))) (.mul (.rd (.arr .jac 104)) (.rd (.arr .y 4)))) (.mul (.rd (.arr .jac 125)) (.rd (.arr .y 5)))) (.mul (.rd (.arr .jac 146)) (.rd (.arr .y 6)))) (.mul (.rd (.arr .jac 167)) (.rd (.arr .y 7)))) (.mul (.rd (.arr .jac 188)) (.rd (.arr .y 8)))) (.mul (.rd (.arr .jac 209)) (.rd (.arr .y 9)))) (.mul (.rd (.arr .jac 230)) (.rd (.arr .y 10)))) (.mul (.rd (.arr .jac 251)) (.rd (.arr .y 11)))) (.mul (.rd (.arr .jac 272)) (.rd (.arr .y 12)))) (.mul (.rd (.arr .jac 293)) (.rd (.arr .y 13)))) (.mul (.rd (.arr .jac 314)) (.rd (.arr .y 14)))) (.mul (.rd (.arr .jac 335)) (.rd (.arr .y 15)))) (.mul (.rd (.arr .jac 356)) (.rd (.arr .y 16)))) (.mul (.rd (.arr .jac 377)) (.rd (.arr .y 17)))) (.mul (.rd (.arr .jac 398)) (.rd (.arr .y 18)))) (.mul (.rd (.arr .jac 419)) (.rd (.arr .y 19)))) (.mul (.rd (.arr .jac 440)) (.rd (.arr .y 20))))]

end DLB.Mech.Drm19
