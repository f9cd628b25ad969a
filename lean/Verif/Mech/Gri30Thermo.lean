/- Generated by tools/gen_mechanisms.py from utilities/mechanisms/gri30/lib/src/{chem_utils,dydt,mass_mole,mechanism}.c. Do not edit. -/
import Verif.Model.CLang
set_option autoImplicit false

namespace DLB.Mech.Gri30
open DLB

/-- utilities/mechanisms/gri30/lib/src/chem_utils.c:12-105 -/
def evalConc : List CStmt := [
  .set (.var .yN) (.sub (.num 1 0) (.add (.add (.add (.add (.add (.add (.add (.add (.add (.add (.add (.add (.add (.add (.add (.add (.add (.add (.add (.add (.add (.add (.add (.add (.add (.add (.add (.add (.add (.add (.add (.add (.add (.add (.add (.add (.add (.add (.add (.add (.add (.add (.add (.add (.add (.add (.add (.add (.add (.add (.add (.rd (.arr .y 0)) (.rd (.arr .y 1))) (.rd (.arr .y 2))) (.rd (.arr .y 3))) (.rd (.arr .y 4))) (.rd (.arr .y 5))) (.rd (.arr .y 6))) (.rd (.arr .y 7))) (.rd (.arr .y 8))) (.rd (.arr .y 9))) (.rd (.arr .y 10))) (.rd (.arr .y 11))) (.rd (.arr .y 12))) (.rd (.arr .y 13))) (.rd (.arr .y 14))) (.rd (.arr .y 15))) (.rd (.arr .y 16))) (.rd (.arr .y 17))) (.rd (.arr .y 18))) (.rd (.arr .y 19))) (.rd (.arr .y 20))) (.rd (.arr .y 21))) (.rd (.arr .y 22))) (.rd (.arr .y 23))) (.rd (.arr .y 24))) (.rd (.arr .y 25))) (.rd (.arr .y 26))) (.rd (.arr .y 27))) (.rd (.arr .y 28))) (.rd (.arr .y 29))) (.rd (.arr .y 30))) (.rd (.arr .y 31))) (.rd (.arr .y 32))) (.rd (.arr .y 33))) (.rd (.arr .y 34))) (.rd (.arr .y 35))) (.rd (.arr .y 36))) (.rd (.arr .y 37))) (.rd (.arr .y 38))) (.rd (.arr .y 39))) (.rd (.arr .y 40))) (.rd (.arr .y 41))) (.rd (.arr .y 42))) (.rd (.arr .y 43))) (.rd (.arr .y 44))) (.rd (.arr .y 45))) (.rd (.arr .y 46))) (.rd (.arr .y 47))) (.rd (.arr .y 48))) (.rd (.arr .y 49))) (.rd (.arr .y 50))) (.rd (.arr .y 51)))),
  .set (.var .mwAvg) (.add (.add (.add (.add (.add (.add (.add (.add (.add (.add (.add (.add (.add (.add (.add (.add (.add (.add (.add (.add (.add (.add (.add (.add (.add (.add (.add (.add (.add (.add (.add (.add (.add (.add (.add (.add (.add (.add (.add (.add (.add (.add (.add (.add (.add (.add (.add (.add (.add (.add (.add (.add (.mul (.rd (.arr .y 0)) (.num 49606127348850126 17)) (.mul (.rd (.arr .y 1)) (.num 99212254697700253 17))) (.mul (.rd (.arr .y 2)) (.num 62502343837893923 18))) (.mul (.rd (.arr .y 3)) (.num 31251171918946961 18))) (.mul (.rd (.arr .y 4)) (.num 58798142449083754 18))) (.mul (.rd (.arr .y 5)) (.num 5550843506179199 17))) (.mul (.rd (.arr .y 6)) (.num 30296842402491128 18))) (.mul (.rd (.arr .y 7)) (.num 29399071224541877 18))) (.mul (.rd (.arr .y 8)) (.num 83257014403463503 18))) (.mul (.rd (.arr .y 9)) (.num 76811168958455925 18))) (.mul (.rd (.arr .y 10)) (.num 71291691381119682 18))) (.mul (.rd (.arr .y 11)) (.num 71291691381119682 18))) (.mul (.rd (.arr .y 12)) (.num 6651226951835805 17))) (.mul (.rd (.arr .y 13)) (.num 62333413951215375 18))) (.mul (.rd (.arr .y 14)) (.num 35701025333447579 18))) (.mul (.rd (.arr .y 15)) (.num 22722211870992371 18))) (.mul (.rd (.arr .y 16)) (.num 34460965031080343 18))) (.mul (.rd (.arr .y 17)) (.num 33304158890145569 18))) (.mul (.rd (.arr .y 18)) (.num 32222495039346891 18))) (.mul (.rd (.arr .y 19)) (.num 32222495039346891 18))) (.mul (.rd (.arr .y 20)) (.num 31208882297572953 18))) (.mul (.rd (.arr .y 21)) (.num 39952153301206474 18))) (.mul (.rd (.arr .y 22)) (.num 38405584479227962 18))) (.mul (.rd (.arr .y 23)) (.num 36974290296984895 18))) (.mul (.rd (.arr .y 24)) (.num 35645845690559841 18))) (.mul (.rd (.arr .y 25)) (.num 34409549338132318 18))) (.mul (.rd (.arr .y 26)) (.num 33256134759179025 18))) (.mul (.rd (.arr .y 27)) (.num 24372802487195748 18))) (.mul (.rd (.arr .y 28)) (.num 23788408764791637 18))) (.mul (.rd (.arr .y 29)) (.num 23788408764791637 18))) (.mul (.rd (.arr .y 30)) (.num 71394200220750867 18))) (.mul (.rd (.arr .y 31)) (.num 66601486012355909 18))) (.mul (.rd (.arr .y 32)) (.num 62411765366712807 18))) (.mul (.rd (.arr .y 33)) (.num 58717975216317018 18))) (.mul (.rd (.arr .y 34)) (.num 34457307740282862 18))) (.mul (.rd (.arr .y 35)) (.num 3332651250710688 17))) (.mul (.rd (.arr .y 36)) (.num 21736512602612643 18))) (.mul (.rd (.arr .y 37)) (.num 22720621781623922 18))) (.mul (.rd (.arr .y 38)) (.num 32243419762894791 18))) (.mul (.rd (.arr .y 39)) (.num 38435313751309687 18))) (.mul (.rd (.arr .y 40)) (.num 37001844171913524 18))) (.mul (.rd (.arr .y 41)) (.num 35671454489288219 18))) (.mul (.rd (.arr .y 42)) (.num 24370973001348689 18))) (.mul (.rd (.arr .y 43)) (.num 2324225777151373 17))) (.mul (.rd (.arr .y 44)) (.num 2324225777151373 17))) (.mul (.rd (.arr .y 45)) (.num 2324225777151373 17))) (.mul (.rd (.arr .y 46)) (.num 23799811219897406 18))) (.mul (.rd (.arr .y 47)) (.num 25032542304996495 18))) (.mul (.rd (.arr .y 48)) (.num 23208005462236166 18))) (.mul (.rd (.arr .y 49)) (.num 22677526480547671 18))) (.mul (.rd (.arr .y 50)) (.num 23231383182615861 18))) (.mul (.rd (.arr .y 51)) (.num 22699847184628755 18))) (.mul (.rd (.var .yN)) (.num 35697100110375433 18))),
  .set (.var .mwAvg) (.div (.num 1 0) (.rd (.var .mwAvg))),
  .set (.var .rho) (.div (.mul (.rd (.var .pres)) (.rd (.var .mwAvg))) (.mul (.num 83144621 4) (.rd (.var .T)))),
  .set (.arr .C 0) (.mul (.mul (.rd (.var .rho)) (.rd (.arr .y 0))) (.num 49606127348850126 17)),
  .set (.arr .C 1) (.mul (.mul (.rd (.var .rho)) (.rd (.arr .y 1))) (.num 99212254697700253 17)),
  .set (.arr .C 2) (.mul (.mul (.rd (.var .rho)) (.rd (.arr .y 2))) (.num 62502343837893923 18)),
  .set (.arr .C 3) (.mul (.mul (.rd (.var .rho)) (.rd (.arr .y 3))) (.num 31251171918946961 18)),
  .set (.arr .C 4) (.mul (.mul (.rd (.var .rho)) (.rd (.arr .y 4))) (.num 58798142449083754 18)),
  .set (.arr .C 5) (.mul (.mul (.rd (.var .rho)) (.rd (.arr .y 5))) (.num 5550843506179199 17)),
  .set (.arr .C 6) (.mul (.mul (.rd (.var .rho)) (.rd (.arr .y 6))) (.num 30296842402491128 18)),
  .set (.arr .C 7) (.mul (.mul (.rd (.var .rho)) (.rd (.arr .y 7))) (.num 29399071224541877 18)),
  .set (.arr .C 8) (.mul (.mul (.rd (.var .rho)) (.rd (.arr .y 8))) (.num 83257014403463503 18)),
  .set (.arr .C 9) (.mul (.mul (.rd (.var .rho)) (.rd (.arr .y 9))) (.num 76811168958455925 18)),
  .set (.arr .C 10) (.mul (.mul (.rd (.var .rho)) (.rd (.arr .y 10))) (.num 71291691381119682 18)),
  .set (.arr .C 11) (.mul (.mul (.rd (.var .rho)) (.rd (.arr .y 11))) (.num 71291691381119682 18)),
  .set (.arr .C 12) (.mul (.mul (.rd (.var .rho)) (.rd (.arr .y 12))) (.num 6651226951835805 17)),
  .set (.arr .C 13) (.mul (.mul (.rd (.var .rho)) (.rd (.arr .y 13))) (.num 62333413951215375 18)),
  .set (.arr .C 14) (.mul (.mul (.rd (.var .rho)) (.rd (.arr .y 14))) (.num 35701025333447579 18)),
  .set (.arr .C 15) (.mul (.mul (.rd (.var .rho)) (.rd (.arr .y 15))) (.num 22722211870992371 18)),
  .set (.arr .C 16) (.mul (.mul (.rd (.var .rho)) (.rd (.arr .y 16))) (.num 34460965031080343 18)),
  .set (.arr .C 17) (.mul (.mul (.rd (.var .rho)) (.rd (.arr .y 17))) (.num 33304158890145569 18)),
  .set (.arr .C 18) (.mul (.mul (.rd (.var .rho)) (.rd (.arr .y 18))) (.num 32222495039346891 18)),
  .set (.arr .C 19) (.mul (.mul (.rd (.var .rho)) (.rd (.arr .y 19))) (.num 32222495039346891 18)),
  .set (.arr .C 20) (.mul (.mul (.rd (.var .rho)) (.rd (.arr .y 20))) (.num 31208882297572953 18)),
  .set (.arr .C 21) (.mul (.mul (.rd (.var .rho)) (.rd (.arr .y 21))) (.num 39952153301206474 18)),
  .set (.arr .C 22) (.mul (.mul (.rd (.var .rho)) (.rd (.arr .y 22))) (.num 38405584479227962 18)),
  .set (.arr .C 23) (.mul (.mul (.rd (.var .rho)) (.rd (.arr .y 23))) (.num 36974290296984895 18)),
  .set (.arr .C 24) (.mul (.mul (.rd (.var .rho)) (.rd (.arr .y 24))) (.num 35645845690559841 18)),
  .set (.arr .C 25) (.mul (.mul (.rd (.var .rho)) (.rd (.arr .y 25))) (.num 34409549338132318 18)),
  .set (.arr .C 26) (.mul (.mul (.rd (.var .rho)) (.rd (.arr .y 26))) (.num 33256134759179025 18)),
  .set (.arr .C 27) (.mul (.mul (.rd (.var .rho)) (.rd (.arr .y 27))) (.num 24372802487195748 18)),
  .set (.arr .C 28) (.mul (.mul (.rd (.var .rho)) (.rd (.arr .y 28))) (.num 23788408764791637 18)),
  .set (.arr .C 29) (.mul (.mul (.rd (.var .rho)) (.rd (.arr .y 29))) (.num 23788408764791637 18)),
  .set (.arr .C 30) (.mul (.mul (.rd (.var .rho)) (.rd (.arr .y 30))) (.num 71394200220750867 18)),
  .set (.arr .C 31) (.mul (.mul (.rd (.var .rho)) (.rd (.arr .y 31))) (.num 66601486012355909 18)),
  .set (.arr .C 32) (.mul (.mul (.rd (.var .rho)) (.rd (.arr .y 32))) (.num 62411765366712807 18)),
  .set (.arr .C 33) (.mul (.mul (.rd (.var .rho)) (.rd (.arr .y 33))) (.num 58717975216317018 18)),
  .set (.arr .C 34) (.mul (.mul (.rd (.var .rho)) (.rd (.arr .y 34))) (.num 34457307740282862 18)),
  .set (.arr .C 35) (.mul (.mul (.rd (.var .rho)) (.rd (.arr .y 35))) (.num 3332651250710688 17)),
  .set (.arr .C 36) (.mul (.mul (.rd (.var .rho)) (.rd (.arr .y 36))) (.num 21736512602612643 18)),
  .set (.arr .C 37) (.mul (.mul (.rd (.var .rho)) (.rd (.arr .y 37))) (.num 22720621781623922 18)),
  .set (.arr .C 38) (.mul (.mul (.rd (.var .rho)) (.rd (.arr .y 38))) (.num 32243419762894791 18)),
  .set (.arr .C 39) (.mul (.mul (.rd (.var .rho)) (.rd (.arr .y 39))) (.num 38435313751309687 18)),
  .set (.arr .C 40) (.mul (.mul (.rd (.var .rho)) (.rd (.arr .y 40))) (.num 37001844171913524 18)),
  .set (.arr .C 41) (.mul (.mul (.rd (.var .rho)) (.rd (.arr .y 41))) (.num 35671454489288219 18)),
  .set (.arr .C 42) (.mul (.mul (.rd (.var .rho)) (.rd (.arr .y 42))) (.num 24370973001348689 18)),
  .set (.arr .C 43) (.mul (.mul (.rd (.var .rho)) (.rd (.arr .y 43))) (.num 2324225777151373 17)),
  .set (.arr .C 44) (.mul (.mul (.rd (.var .rho)) (.rd (.arr .y 44))) (.num 2324225777151373 17)),
  .set (.arr .C 45) (.mul (.mul (.rd (.var .rho)) (.rd (.arr .y 45))) (.num 2324225777151373 17)),
  .set (.arr .C 46) (.mul (.mul (.rd (.var .rho)) (.rd (.arr .y 46))) (.num 23799811219897406 18)),
  .set (.arr .C 47) (.mul (.mul (.rd (.var .rho)) (.rd (.arr .y 47))) (.num 25032542304996495 18)),
  .set (.arr .C 48) (.mul (.mul (.rd (.var .rho)) (.rd (.arr .y 48))) (.num 23208005462236166 18)),
  .set (.arr .C 49) (.mul (.mul (.rd (.var .rho)) (.rd (.arr .y 49))) (.num 22677526480547671 18)),
  .set (.arr .C 50) (.mul (.mul (.rd (.var .rho)) (.rd (.arr .y 50))) (.num 23231383182615861 18)),
  .set (.arr .C 51) (.mul (.mul (.rd (.var .rho)) (.rd (.arr .y 51))) (.num 22699847184628755 18)),
  .set (.arr .C 52) (.mul (.mul (.rd (.var .rho)) (.rd (.var .yN))) (.num 35697100110375433 18))]

/-- utilities/mechanisms/gri30/lib/src/chem_utils.c:202-522 -/
def evalH : List CStmt := [
  .ite (.rd (.var .T)) (.num 1000 0) (.arr .h 0) (.mul (.num 41244826576978785 13) (.add (.neg (.num 91793517299999996 14)) (.mul (.rd (.var .T)) (.add (.num 23443311200000001 16) (.mul (.rd (.var .T)) (.add (.num 39902603749999996 19) (.mul (.rd (.var .T)) (.add (.neg (.num 64927169999999995 22)) (.mul (.rd (.var .T)) (.add (.num 50393023500000001 25) (.mul (.neg (.num 14752235220000002 28)) (.rd (.var .T))))))))))))) (.mul (.num 41244826576978785 13) (.add (.neg (.num 95015892199999996 14)) (.mul (.rd (.var .T)) (.add (.num 33372791999999998 16) (.mul (.rd (.var .T)) (.add (.neg (.num 24701236549999999 21)) (.mul (.rd (.var .T)) (.add (.num 16648559266666665 23) (.mul (.rd (.var .T)) (.add (.neg (.num 44891598500000001 27)) (.mul (.num 40051075199999998 31) (.rd (.var .T))))))))))))),
  .ite (.rd (.var .T)) (.num 1000 0) (.arr .h 1) (.mul (.num 8248965315395757 12) (.add (.num 25473659899999999 12) (.mul (.rd (.var .T)) (.add (.num 25 1) (.mul (.rd (.var .T)) (.add (.num 35266640949999999 29) (.mul (.rd (.var .T)) (.add (.neg (.num 66530654666666665 32)) (.mul (.rd (.var .T)) (.add (.num 57520407999999997 35) (.mul (.neg (.num 18554646640000001 38)) (.rd (.var .T))))))))))))) (.mul (.num 8248965315395757 12) (.add (.num 25473659899999999 12) (.mul (.rd (.var .T)) (.add (.num 25000000099999999 16) (.mul (.rd (.var .T)) (.add (.neg (.num 11542148649999999 27)) (.mul (.rd (.var .T)) (.add (.num 53853982666666673 31) (.mul (.rd (.var .T)) (.add (.neg (.num 11837880875000001 34)) (.mul (.num 99639471400000006 39) (.rd (.var .T))))))))))))),
  .ite (.rd (.var .T)) (.num 1000 0) (.arr .h 2) (.mul (.num 51967336900133762 14) (.add (.num 291222592 4) (.mul (.rd (.var .T)) (.add (.num 31682671 7) (.mul (.rd (.var .T)) (.add (.neg (.num 163965942 11)) (.mul (.rd (.var .T)) (.add (.num 22143546533333334 22) (.mul (.rd (.var .T)) (.add (.neg (.num 153201656 17)) (.mul (.num 42253194199999998 29) (.rd (.var .T))))))))))))) (.mul (.num 51967336900133762 14) (.add (.num 29217579099999999 12) (.mul (.rd (.var .T)) (.add (.num 25694207800000002 16) (.mul (.rd (.var .T)) (.add (.neg (.num 42987056850000002 21)) (.mul (.rd (.var .T)) (.add (.num 13982819633333334 24) (.mul (.rd (.var .T)) (.add (.neg (.num 25044449749999998 28)) (.mul (.num 24566738199999997 32) (.rd (.var .T))))))))))))),
  .ite (.rd (.var .T)) (.num 1000 0) (.arr .h 3) (.mul (.num 25983668450066881 14) (.add (.neg (.num 10639435599999999 13)) (.mul (.rd (.var .T)) (.add (.num 37824563599999999 16) (.mul (.rd (.var .T)) (.add (.neg (.num 14983670799999999 19)) (.mul (.rd (.var .T)) (.add (.num 32824340033333332 22) (.mul (.rd (.var .T)) (.add (.neg (.num 24203237725000002 25)) (.mul (.num 648745674 21) (.rd (.var .T))))))))))))) (.mul (.num 25983668450066881 14) (.add (.neg (.num 10884577200000001 13)) (.mul (.rd (.var .T)) (.add (.num 32825378399999998 16) (.mul (.rd (.var .T)) (.add (.num 74154376999999996 20) (.mul (.rd (.var .T)) (.add (.neg (.num 25265555633333331 23)) (.mul (.rd (.var .T)) (.add (.num 52367638749999998 27) (.mul (.neg (.num 43343558799999996 31)) (.rd (.var .T))))))))))))),
  .ite (.rd (.var .T)) (.num 1000 0) (.arr .h 4) (.mul (.num 48887492694330808 14) (.add (.num 36150805599999999 13) (.mul (.rd (.var .T)) (.add (.num 39920154299999999 16) (.mul (.rd (.var .T)) (.add (.neg (.num 12006587600000001 19)) (.mul (.rd (.var .T)) (.add (.num 15393128033333333 22) (.mul (.rd (.var .T)) (.add (.neg (.num 97028333249999999 26)) (.mul (.num 27282293999999999 29) (.rd (.var .T))))))))))))) (.mul (.num 48887492694330808 14) (.add (.num 38586570000000002 13) (.mul (.rd (.var .T)) (.add (.num 30928876700000001 16) (.mul (.rd (.var .T)) (.add (.num 27421485799999999 20) (.mul (.rd (.var .T)) (.add (.num 42168409333333331 24) (.mul (.rd (.var .T)) (.add (.neg (.num 21986538899999999 27)) (.mul (.num 23482475199999999 31) (.rd (.var .T))))))))))))),
  .ite (.rd (.var .T)) (.num 1000 0) (.arr .h 5) (.mul (.num 4615227795515807 13) (.add (.neg (.num 30293726699999999 12)) (.mul (.rd (.var .T)) (.add (.num 41986405600000003 16) (.mul (.rd (.var .T)) (.add (.neg (.num 10182170500000001 19)) (.mul (.rd (.var .T)) (.add (.num 217346737 14) (.mul (.rd (.var .T)) (.add (.neg (.num 13719926550000001 25)) (.mul (.num 354395634 21) (.rd (.var .T))))))))))))) (.mul (.num 4615227795515807 13) (.add (.neg (.num 300042971 4)) (.mul (.rd (.var .T)) (.add (.num 30339924900000002 16) (.mul (.rd (.var .T)) (.add (.num 10884590200000001 19) (.mul (.rd (.var .T)) (.add (.neg (.num 54690839333333327 24)) (.mul (.rd (.var .T)) (.add (.neg (.num 2426049675 20)) (.mul (.num 33640198399999998 31) (.rd (.var .T))))))))))))),
  .ite (.rd (.var .T)) (.num 1000 0) (.arr .h 6) (.mul (.num 25190194790518544 14) (.add (.num 29480804000000001 14) (.mul (.rd (.var .T)) (.add (.num 43017980099999997 16) (.mul (.rd (.var .T)) (.add (.neg (.num 23745602549999998 19)) (.mul (.rd (.var .T)) (.add (.num 70527630333333326 22) (.mul (.rd (.var .T)) (.add (.neg (.num 606909735 17)) (.mul (.num 18584502480000002 28) (.rd (.var .T))))))))))))) (.mul (.num 25190194790518544 14) (.add (.num 111856713 6) (.mul (.rd (.var .T)) (.add (.num 40172109000000003 16) (.mul (.rd (.var .T)) (.add (.num 1119910065 12) (.mul (.rd (.var .T)) (.add (.neg (.num 21121938333333332 23)) (.mul (.rd (.var .T)) (.add (.num 28561592500000001 27) (.mul (.neg (.num 21581707 22)) (.rd (.var .T))))))))))))),
  .ite (.rd (.var .T)) (.num 1000 0) (.arr .h 7) (.mul (.num 24443746347165404 14) (.add (.neg (.num 177025821 4)) (.mul (.rd (.var .T)) (.add (.num 42761126899999997 16) (.mul (.rd (.var .T)) (.add (.neg (.num 27141120849999997 20)) (.mul (.rd (.var .T)) (.add (.num 55778567000000005 22) (.mul (.rd (.var .T)) (.add (.neg (.num 53942703249999999 25)) (.mul (.num 1724908726 21) (.rd (.var .T))))))))))))) (.mul (.num 24443746347165404 14) (.add (.neg (.num 17861787700000001 12)) (.mul (.rd (.var .T)) (.add (.num 41650028499999996 16) (.mul (.rd (.var .T)) (.add (.num 245415847 11) (.mul (.rd (.var .T)) (.add (.neg (.num 63379741666666662 23)) (.mul (.rd (.var .T)) (.add (.num 92796496499999996 27) (.mul (.neg (.num 57581661000000002 31)) (.rd (.var .T))))))))))))),
  .ite (.rd (.var .T)) (.num 1000 0) (.arr .h 8) (.mul (.num 6922372908167514 13) (.add (.num 85443883199999997 12) (.mul (.rd (.var .T)) (.add (.num 25542395500000001 16) (.mul (.rd (.var .T)) (.add (.neg (.num 16076886199999999 20)) (.mul (.rd (.var .T)) (.add (.num 244597415 15) (.mul (.rd (.var .T)) (.add (.neg (.num 18305872225 20)) (.mul (.num 53304289200000002 30) (.rd (.var .T))))))))))))) (.mul (.num 6922372908167514 13) (.add (.num 85451295299999998 12) (.mul (.rd (.var .T)) (.add (.num 24926688800000001 16) (.mul (.rd (.var .T)) (.add (.num 239944642 13) (.mul (.rd (.var .T)) (.add (.neg (.num 2414450066666667 23)) (.mul (.rd (.var .T)) (.add (.num 93572757250000007 28) (.mul (.neg (.num 97455578599999989 32)) (.rd (.var .T))))))))))))),
  .ite (.rd (.var .T)) (.num 1000 0) (.arr .h 9) (.mul (.num 6386435531617783 13) (.add (.num 70797293399999995 12) (.mul (.rd (.var .T)) (.add (.num 34898166499999999 16) (.mul (.rd (.var .T)) (.add (.num 16191777050000001 20) (.mul (.rd (.var .T)) (.add (.neg (.num 56299688333333337 23)) (.mul (.rd (.var .T)) (.add (.num 79054331749999998 26) (.mul (.neg (.num 28121813400000003 29)) (.rd (.var .T))))))))))))) (.mul (.num 6386435531617783 13) (.add (.num 71012436400000006 12) (.mul (.rd (.var .T)) (.add (.num 28784647300000001 16) (.mul (.rd (.var .T)) (.add (.num 4854568405 13) (.mul (.rd (.var .T)) (.add (.num 4814855166666666 23) (.mul (.rd (.var .T)) (.add (.neg (.num 32671962250000002 27)) (.mul (.num 35215876599999997 31) (.rd (.var .T))))))))))))),
  .ite (.rd (.var .T)) (.num 1000 0) (.arr .h 10) (.mul (.num 59275206603321635 14) (.add (.num 46004040099999998 12) (.mul (.rd (.var .T)) (.add (.num 37626786700000001 16) (.mul (.rd (.var .T)) (.add (.num 48443607150000002 20) (.mul (.rd (.var .T)) (.add (.num 93163280333333339 23) (.mul (.rd (.var .T)) (.add (.neg (.num 96272788250000007 26)) (.mul (.num 33748343799999999 29) (.rd (.var .T))))))))))))) (.mul (.num 59275206603321635 14) (.add (.num 46263603999999999 12) (.mul (.rd (.var .T)) (.add (.num 28741011300000001 16) (.mul (.rd (.var .T)) (.add (.num 18281964599999999 19) (.mul (.rd (.var .T)) (.add (.neg (.num 46964865666666667 23)) (.mul (.rd (.var .T)) (.add (.num 65044887249999998 27) (.mul (.neg (.num 375455134 23)) (.rd (.var .T))))))))))))),
  .ite (.rd (.var .T)) (.num 1000 0) (.arr .h 11) (.mul (.num 59275206603321635 14) (.add (.num 50496816299999999 12) (.mul (.rd (.var .T)) (.add (.num 41986041099999998 16) (.mul (.rd (.var .T)) (.add (.neg (.num 1183307095 12)) (.mul (.rd (.var .T)) (.add (.num 27443207333333332 22) (.mul (.rd (.var .T)) (.add (.neg (.num 16720399525000001 25)) (.mul (.num 38862947400000001 29) (.rd (.var .T))))))))))))) (.mul (.num 59275206603321635 14) (.add (.num 509259997 4) (.mul (.rd (.var .T)) (.add (.num 22920384199999999 16) (.mul (.rd (.var .T)) (.add (.num 2327943185 12) (.mul (.rd (.var .T)) (.add (.neg (.num 67063982333333332 23)) (.mul (.rd (.var .T)) (.add (.num 10447650000000001 26) (.mul (.neg (.num 67943272999999998 31)) (.rd (.var .T))))))))))))),
  .ite (.rd (.var .T)) (.num 1000 0) (.arr .h 12) (.mul (.num 55301374409537334 14) (.add (.num 16444998800000001 12) (.mul (.rd (.var .T)) (.add (.num 36735904000000001 16) (.mul (.rd (.var .T)) (.add (.num 1005475875 12) (.mul (.rd (.var .T)) (.add (.num 19100728533333335 22) (.mul (.rd (.var .T)) (.add (.neg (.num 17177935625 19)) (.mul (.num 50877146800000003 29) (.rd (.var .T))))))))))))) (.mul (.num 55301374409537334 14) (.add (.num 16775584299999999 12) (.mul (.rd (.var .T)) (.add (.num 22857177200000001 16) (.mul (.rd (.var .T)) (.add (.num 36199501849999999 19) (.mul (.rd (.var .T)) (.add (.neg (.num 99571449333333331 23)) (.mul (.rd (.var .T)) (.add (.num 14892116100000001 26) (.mul (.neg (.num 93430878800000005 31)) (.rd (.var .T))))))))))))),
  .ite (.rd (.var .T)) (.num 1000 0) (.arr .h 13) (.mul (.num 5182688078609915 13) (.add (.neg (.num 102466476 4)) (.mul (.rd (.var .T)) (.add (.num 514987613 8) (.mul (.rd (.var .T)) (.add (.neg (.num 68354894000000003 19)) (.mul (.rd (.var .T)) (.add (.num 16393353300000001 21) (.mul (.rd (.var .T)) (.add (.neg (.num 1211857565 17)) (.mul (.num 333387912 20) (.rd (.var .T))))))))))))) (.mul (.num 5182688078609915 13) (.add (.neg (.num 94683445900000006 13)) (.mul (.rd (.var .T)) (.add (.num 74851495000000004 18) (.mul (.rd (.var .T)) (.add (.num 66954733499999999 19) (.mul (.rd (.var .T)) (.add (.neg (.num 19109526966666665 22)) (.mul (.rd (.var .T)) (.add (.num 3057313375 19) (.mul (.neg (.num 20363046000000002 30)) (.rd (.var .T))))))))))))),
  .ite (.rd (.var .T)) (.num 1000 0) (.arr .h 14) (.mul (.num 29683482206608977 14) (.add (.neg (.num 14344085999999999 12)) (.mul (.rd (.var .T)) (.add (.num 35795334699999999 16) (.mul (.rd (.var .T)) (.add (.neg (.num 30517684 11)) (.mul (.rd (.var .T)) (.add (.num 33893811000000002 23) (.mul (.rd (.var .T)) (.add (.num 226751471 18) (.mul (.neg (.num 18088489979999999 29)) (.rd (.var .T))))))))))))) (.mul (.num 29683482206608977 14) (.add (.neg (.num 141518724 4)) (.mul (.rd (.var .T)) (.add (.num 27151856099999998 16) (.mul (.rd (.var .T)) (.add (.num 10312637150000001 19) (.mul (.rd (.var .T)) (.add (.neg (.num 33294192366666671 23)) (.mul (.rd (.var .T)) (.add (.num 57513252 18) (.mul (.neg (.num 40729543200000001 31)) (.rd (.var .T))))))))))))),
  .ite (.rd (.var .T)) (.num 1000 0) (.arr .h 15) (.mul (.num 18892296942953618 14) (.add (.neg (.num 48371969700000001 12)) (.mul (.rd (.var .T)) (.add (.num 235677352 8) (.mul (.rd (.var .T)) (.add (.num 44922983850000002 19) (.mul (.rd (.var .T)) (.add (.neg (.num 23745208966666665 22)) (.mul (.rd (.var .T)) (.add (.num 61479755499999995 26) (.mul (.neg (.num 28739909599999997 30)) (.rd (.var .T))))))))))))) (.mul (.num 18892296942953618 14) (.add (.neg (.num 48759165999999997 12)) (.mul (.rd (.var .T)) (.add (.num 38574602900000001 16) (.mul (.rd (.var .T)) (.add (.num 22071851299999999 19) (.mul (.rd (.var .T)) (.add (.neg (.num 73827134666666672 23)) (.mul (.rd (.var .T)) (.add (.num 13087254700000001 26) (.mul (.neg (.num 94416832800000002 31)) (.rd (.var .T))))))))))))),
  .ite (.rd (.var .T)) (.num 1000 0) (.arr .h 16) (.mul (.num 2865243876803429 13) (.add (.num 38395649600000002 13) (.mul (.rd (.var .T)) (.add (.num 42211858400000004 16) (.mul (.rd (.var .T)) (.add (.neg (.num 162196266 11)) (.mul (.rd (.var .T)) (.add (.num 45933148666666667 22) (.mul (.rd (.var .T)) (.add (.neg (.num 33286023250000002 25)) (.mul (.num 86753773 20) (.rd (.var .T))))))))))))) (.mul (.num 2865243876803429 13) (.add (.num 401191815 5) (.mul (.rd (.var .T)) (.add (.num 277217438 8) (.mul (.rd (.var .T)) (.add (.num 24784776299999998 19) (.mul (.rd (.var .T)) (.add (.neg (.num 82815204333333337 23)) (.mul (.rd (.var .T)) (.add (.num 14729044450000001 26) (.mul (.neg (.num 1067017422 23)) (.rd (.var .T))))))))))))),
  .ite (.rd (.var .T)) (.num 1000 0) (.arr .h 17) (.mul (.num 2769061668644934 13) (.add (.neg (.num 14308956700000001 12)) (.mul (.rd (.var .T)) (.add (.num 47937231499999999 16) (.mul (.rd (.var .T)) (.add (.neg (.num 4954166845 12)) (.mul (.rd (.var .T)) (.add (.num 12440666933333332 21) (.mul (.rd (.var .T)) (.add (.neg (.num 94821315249999995 25)) (.mul (.num 26354530400000001 28) (.rd (.var .T))))))))))))) (.mul (.num 2769061668644934 13) (.add (.neg (.num 139958323 4)) (.mul (.rd (.var .T)) (.add (.num 176069008 8) (.mul (.rd (.var .T)) (.add (.num 460000041 11) (.mul (.rd (.var .T)) (.add (.neg (.num 14741960433333332 22)) (.mul (.rd (.var .T)) (.add (.num 25160302999999999 26) (.mul (.neg (.num 17677112800000002 30)) (.rd (.var .T))))))))))))),
  .ite (.rd (.var .T)) (.num 1000 0) (.arr .h 18) (.mul (.num 26791271377208773 14) (.add (.neg (.num 31939136699999999 13)) (.mul (.rd (.var .T)) (.add (.num 38638891800000001 16) (.mul (.rd (.var .T)) (.add (.num 27983615200000002 19) (.mul (.rd (.var .T)) (.add (.num 19775726366666668 22) (.mul (.rd (.var .T)) (.add (.neg (.num 26133003000000002 25)) (.mul (.num 87393455600000001 29) (.rd (.var .T))))))))))))) (.mul (.num 26791271377208773 14) (.add (.neg (.num 32425062699999999 13)) (.mul (.rd (.var .T)) (.add (.num 36926656900000001 16) (.mul (.rd (.var .T)) (.add (.num 43228839850000004 19) (.mul (.rd (.var .T)) (.add (.neg (.num 12503370666666667 22)) (.mul (.rd (.var .T)) (.add (.num 196808659 18) (.mul (.neg (.num 12971084020000001 30)) (.rd (.var .T))))))))))))),
  .ite (.rd (.var .T)) (.num 1000 0) (.arr .h 19) (.mul (.num 26791271377208773 14) (.add (.num 97860109999999997 14) (.mul (.rd (.var .T)) (.add (.num 2106204 6) (.mul (.rd (.var .T)) (.add (.num 36082975000000001 19) (.mul (.rd (.var .T)) (.add (.num 17794906666666667 22) (.mul (.rd (.var .T)) (.add (.neg (.num 18444089999999999 25)) (.mul (.num 415122 18) (.rd (.var .T))))))))))))) (.mul (.num 26791271377208773 14) (.add (.num 12783252 5) (.mul (.rd (.var .T)) (.add (.num 37707989999999998 16) (.mul (.rd (.var .T)) (.add (.num 39357484999999999 19) (.mul (.rd (.var .T)) (.add (.neg (.num 88546133333333336 23)) (.mul (.rd (.var .T)) (.add (.num 98610774999999998 27) (.mul (.neg (.num 42252319999999999 31)) (.rd (.var .T))))))))))))),
  .ite (.rd (.var .T)) (.num 1000 0) (.arr .h 20) (.mul (.num 25948506904653124 14) (.add (.neg (.num 25642765599999999 12)) (.mul (.rd (.var .T)) (.add (.num 57153958200000003 16) (.mul (.rd (.var .T)) (.add (.neg (.num 76154564500000004 19)) (.mul (.rd (.var .T)) (.add (.num 21748038500000001 21) (.mul (.rd (.var .T)) (.add (.neg (.num 17770172225 18)) (.mul (.num 52270539599999996 28) (.rd (.var .T))))))))))))) (.mul (.num 25948506904653124 14) (.add (.neg (.num 253748747 4)) (.mul (.rd (.var .T)) (.add (.num 178970791 8) (.mul (.rd (.var .T)) (.add (.num 70469145999999998 19) (.mul (.rd (.var .T)) (.add (.neg (.num 21216694499999999 22)) (.mul (.rd (.var .T)) (.add (.num 34542771250000001 26) (.mul (.neg (.num 23412043999999999 30)) (.rd (.var .T))))))))))))),
  .ite (.rd (.var .T)) (.num 1000 0) (.arr .h 21) (.mul (.num 33218066443627117 14) (.add (.num 66839393200000006 12) (.mul (.rd (.var .T)) (.add (.num 28896573299999999 16) (.mul (.rd (.var .T)) (.add (.num 67049805499999997 19) (.mul (.rd (.var .T)) (.add (.neg (.num 94923167000000006 22)) (.mul (.rd (.var .T)) (.add (.num 73697761250000002 25) (.mul (.neg (.num 21866302199999998 28)) (.rd (.var .T))))))))))))) (.mul (.num 33218066443627117 14) (.add (.num 67121065000000002 12) (.mul (.rd (.var .T)) (.add (.num 31678065200000001 16) (.mul (.rd (.var .T)) (.add (.num 23761095100000001 19) (.mul (.rd (.var .T)) (.add (.neg (.num 61262358999999999 23)) (.mul (.rd (.var .T)) (.add (.num 76047562999999994 27) (.mul (.neg (.num 35446553999999999 31)) (.rd (.var .T))))))))))))),
  .ite (.rd (.var .T)) (.num 1000 0) (.arr .h 22) (.mul (.num 31932177658088915 14) (.add (.num 264289807 4) (.mul (.rd (.var .T)) (.add (.num 80868109399999999 17) (.mul (.rd (.var .T)) (.add (.num 1168078145 11) (.mul (.rd (.var .T)) (.add (.neg (.num 118390605 13)) (.mul (.rd (.var .T)) (.add (.num 70038109249999999 25) (.mul (.neg (.num 17001459479999999 28)) (.rd (.var .T))))))))))))) (.mul (.num 31932177658088915 14) (.add (.num 25935999199999998 12) (.mul (.rd (.var .T)) (.add (.num 41475696400000004 16) (.mul (.rd (.var .T)) (.add (.num 298083332 11) (.mul (.rd (.var .T)) (.add (.neg (.num 79098284000000004 23)) (.mul (.rd (.var .T)) (.add (.num 11685304275000001 26) (.mul (.neg (.num 72247042600000001 31)) (.rd (.var .T))))))))))))),
  .ite (.rd (.var .T)) (.num 1000 0) (.arr .h 23) (.mul (.num 30742133534867867 14) (.add (.num 34859846799999999 12) (.mul (.rd (.var .T)) (.add (.num 321246645 8) (.mul (.rd (.var .T)) (.add (.num 75739581000000002 20) (.mul (.rd (.var .T)) (.add (.num 86403137333333327 22) (.mul (.rd (.var .T)) (.add (.neg (.num 8941446175 18)) (.mul (.num 29430174599999999 28) (.rd (.var .T))))))))))))) (.mul (.num 30742133534867867 14) (.add (.num 34612873899999999 12) (.mul (.rd (.var .T)) (.add (.num 3016724 6) (.mul (.rd (.var .T)) (.add (.num 51651146000000004 19) (.mul (.rd (.var .T)) (.add (.neg (.num 15602744966666665 22)) (.mul (.rd (.var .T)) (.add (.num 25440821999999998 26) (.mul (.neg (.num 17252140819999999 30)) (.rd (.var .T))))))))))))),
  .ite (.rd (.var .T)) (.num 1000 0) (.arr .h 24) (.mul (.num 29637603301660818 14) (.add (.num 50897759299999998 13) (.mul (.rd (.var .T)) (.add (.num 39592014799999999 16) (.mul (.rd (.var .T)) (.add (.neg (.num 37852612350000002 19)) (.mul (.rd (.var .T)) (.add (.num 19033009733333333 21) (.mul (.rd (.var .T)) (.add (.neg (.num 17289718825 18)) (.mul (.num 53976874600000004 28) (.rd (.var .T))))))))))))) (.mul (.num 29637603301660818 14) (.add (.num 49398861399999996 13) (.mul (.rd (.var .T)) (.add (.num 20361111599999999 16) (.mul (.rd (.var .T)) (.add (.num 73227075499999999 19) (.mul (.rd (.var .T)) (.add (.neg (.num 22369263833333335 22)) (.mul (.rd (.var .T)) (.add (.num 36805730750000002 26) (.mul (.neg (.num 251412122 22)) (.rd (.var .T))))))))))))),
  .ite (.rd (.var .T)) (.num 1000 0) (.arr .h 25) (.mul (.num 28609689384998131 14) (.add (.num 128416265 4) (.mul (.rd (.var .T)) (.add (.num 43064656799999996 16) (.mul (.rd (.var .T)) (.add (.neg (.num 20932944600000002 19)) (.mul (.rd (.var .T)) (.add (.num 16571426900000001 21) (.mul (.rd (.var .T)) (.add (.neg (.num 14978165149999999 24)) (.mul (.num 46101800800000003 28) (.rd (.var .T))))))))))))) (.mul (.num 28609689384998131 14) (.add (.num 1285752 2) (.mul (.rd (.var .T)) (.add (.num 19546564200000001 16) (.mul (.rd (.var .T)) (.add (.num 86986361000000005 19) (.mul (.rd (.var .T)) (.add (.neg (.num 26606888933333333 22)) (.mul (.rd (.var .T)) (.add (.num 43804422250000001 26) (.mul (.neg (.num 29928315199999999 30)) (.rd (.var .T))))))))))))),
  .ite (.rd (.var .T)) (.num 1000 0) (.arr .h 26) (.mul (.num 27650687204768667 14) (.add (.neg (.num 115222055 4)) (.mul (.rd (.var .T)) (.add (.num 42914249199999999 16) (.mul (.rd (.var .T)) (.add (.neg (.num 27507713499999998 19)) (.mul (.rd (.var .T)) (.add (.num 19981276266666669 21) (.mul (.rd (.var .T)) (.add (.neg (.num 17711657125 18)) (.mul (.num 53737154200000002 28) (.rd (.var .T))))))))))))) (.mul (.num 27650687204768667 14) (.add (.neg (.num 114263932 4)) (.mul (.rd (.var .T)) (.add (.num 10718814999999999 16) (.mul (.rd (.var .T)) (.add (.num 1084263385 11) (.mul (.rd (.var .T)) (.add (.neg (.num 33418689 13)) (.mul (.rd (.var .T)) (.add (.num 55353000250000001 26) (.mul (.neg (.num 38000577999999999 30)) (.rd (.var .T))))))))))))),
  .ite (.rd (.var .T)) (.num 1000 0) (.arr .h 27) (.mul (.num 2026467425505748 13) (.add (.num 20059449000000001 12) (.mul (.rd (.var .T)) (.add (.num 22517214000000001 16) (.mul (.rd (.var .T)) (.add (.num 88275105 10) (.mul (.rd (.var .T)) (.add (.neg (.num 7909700333333333 21)) (.mul (.rd (.var .T)) (.add (.num 43189397500000003 25) (.mul (.neg (.num 10132962200000001 28)) (.rd (.var .T))))))))))))) (.mul (.num 2026467425505748 13) (.add (.num 19327215 3) (.mul (.rd (.var .T)) (.add (.num 56282057999999999 16) (.mul (.rd (.var .T)) (.add (.num 20426700500000001 19) (.mul (.rd (.var .T)) (.add (.neg (.num 53115156666666666 23)) (.mul (.rd (.var .T)) (.add (.num 71565129999999998 27) (.mul (.neg (.num 38815663999999995 31)) (.rd (.var .T))))))))))))),
  .ite (.rd (.var .T)) (.num 1000 0) (.arr .h 28) (.mul (.num 19778782309416789 14) (.add (.neg (.num 70429180399999996 13)) (.mul (.rd (.var .T)) (.add (.num 21358362999999998 16) (.mul (.rd (.var .T)) (.add (.num 90594360499999995 19) (.mul (.rd (.var .T)) (.add (.neg (.num 57982491333333329 22)) (.mul (.rd (.var .T)) (.add (.num 233599392 17) (.mul (.neg (.num 40291522999999998 29)) (.rd (.var .T))))))))))))) (.mul (.num 19778782309416789 14) (.add (.neg (.num 75510531099999998 13)) (.mul (.rd (.var .T)) (.add (.num 45112973199999997 16) (.mul (.rd (.var .T)) (.add (.num 45017987249999997 19) (.mul (.rd (.var .T)) (.add (.neg (.num 13897987833333332 22)) (.mul (.rd (.var .T)) (.add (.num 23083647049999999 26) (.mul (.neg (.num 15896764019999999 30)) (.rd (.var .T))))))))))))),
  .ite (.rd (.var .T)) (.num 1000 0) (.arr .h 29) (.mul (.num 19778782309416789 14) (.add (.num 80316143000000002 13) (.mul (.rd (.var .T)) (.add (.num 12423732999999999 16) (.mul (.rd (.var .T)) (.add (.num 155361005 10) (.mul (.rd (.var .T)) (.add (.neg (.num 16955621333333335 21)) (.mul (.rd (.var .T)) (.add (.num 10784282750000001 24) (.mul (.neg (.num 28029188000000001 28)) (.rd (.var .T))))))))))))) (.mul (.num 19778782309416789 14) (.add (.num 72646260000000002 13) (.mul (.rd (.var .T)) (.add (.num 59238290999999998 16) (.mul (.rd (.var .T)) (.add (.num 33961799999999999 19) (.mul (.rd (.var .T)) (.add (.neg (.num 8552854666666667 22)) (.mul (.rd (.var .T)) (.add (.num 1124696025 19) (.mul (.neg (.num 59880201999999998 31)) (.rd (.var .T))))))))))))),
  .ite (.rd (.var .T)) (.num 1000 0) (.arr .h 30) (.mul (.num 59360437189524475 14) (.add (.num 56104637000000002 12) (.mul (.rd (.var .T)) (.add (.num 25 1) (.mul (.rd (.var .T)) (.add (.num 0 0) (.mul (.rd (.var .T)) (.add (.num 0 0) (.mul (.rd (.var .T)) (.add (.num 0 0) (.mul (.num 0 0) (.rd (.var .T))))))))))))) (.mul (.num 59360437189524475 14) (.add (.num 56133773000000001 12) (.mul (.rd (.var .T)) (.add (.num 24159429000000001 16) (.mul (.rd (.var .T)) (.add (.num 87445325000000003 21) (.mul (.rd (.var .T)) (.add (.neg (.num 39674563333333332 24)) (.mul (.rd (.var .T)) (.add (.num 75565612499999998 28) (.mul (.neg (.num 40721964 23)) (.rd (.var .T))))))))))))),
  .ite (.rd (.var .T)) (.num 1000 0) (.arr .h 31) (.mul (.num 55375553125341332 14) (.add (.num 41880629000000001 12) (.mul (.rd (.var .T)) (.add (.num 34929085 7) (.mul (.rd (.var .T)) (.add (.num 15589599 11) (.mul (.rd (.var .T)) (.add (.neg (.num 49634946666666669 23)) (.mul (.rd (.var .T)) (.add (.num 62041104999999995 26) (.mul (.neg (.num 20713934000000001 29)) (.rd (.var .T))))))))))))) (.mul (.num 55375553125341332 14) (.add (.num 42120847999999998 12) (.mul (.rd (.var .T)) (.add (.num 27836927999999999 16) (.mul (.rd (.var .T)) (.add (.num 66492150000000002 20) (.mul (.rd (.var .T)) (.add (.neg (.num 14159348999999999 23)) (.mul (.rd (.var .T)) (.add (.num 1958712525 20) (.mul (.neg (.num 11008894000000001 31)) (.rd (.var .T))))))))))))),
  .ite (.rd (.var .T)) (.num 1000 0) (.arr .h 32) (.mul (.num 51892025773562625 14) (.add (.num 2188591 2) (.mul (.rd (.var .T)) (.add (.num 42040028999999999 16) (.mul (.rd (.var .T)) (.add (.neg (.num 10530692500000001 19)) (.mul (.rd (.var .T)) (.add (.num 23689449333333334 22) (.mul (.rd (.var .T)) (.add (.neg (.num 1402879925 18)) (.mul (.num 32881433999999999 29) (.rd (.var .T))))))))))))) (.mul (.num 51892025773562625 14) (.add (.num 22171956999999999 12) (.mul (.rd (.var .T)) (.add (.num 28347421000000002 16) (.mul (.rd (.var .T)) (.add (.num 16036541 10) (.mul (.rd (.var .T)) (.add (.neg (.num 31130268000000002 23)) (.mul (.rd (.var .T)) (.add (.num 34257382499999998 27) (.mul (.neg (.num 15841228800000001 31)) (.rd (.var .T))))))))))))),
  .ite (.rd (.var .T)) (.num 1000 0) (.arr .h 33) (.mul (.num 48820837952480719 14) (.add (.neg (.num 67417285000000002 13)) (.mul (.rd (.var .T)) (.add (.num 42860274 7) (.mul (.rd (.var .T)) (.add (.neg (.num 23302614999999999 19)) (.mul (.rd (.var .T)) (.add (.num 7239504333333334 21) (.mul (.rd (.var .T)) (.add (.neg (.num 57022217499999999 25)) (.mul (.num 165276092 20) (.rd (.var .T))))))))))))) (.mul (.num 48820837952480719 14) (.add (.neg (.num 65446958000000004 13)) (.mul (.rd (.var .T)) (.add (.num 26344520999999999 16) (.mul (.rd (.var .T)) (.add (.num 28331279999999999 19) (.mul (.rd (.var .T)) (.add (.neg (.num 57595586666666667 23)) (.mul (.rd (.var .T)) (.add (.num 596679025 19) (.mul (.neg (.num 25157571999999998 31)) (.rd (.var .T))))))))))))),
  .ite (.rd (.var .T)) (.num 1000 0) (.arr .h 34) (.mul (.num 28649397927461854 14) (.add (.num 28791973000000002 12) (.mul (.rd (.var .T)) (.add (.num 43446927000000004 16) (.mul (.rd (.var .T)) (.add (.neg (.num 24248536 10)) (.mul (.rd (.var .T)) (.add (.num 66864863333333334 22) (.mul (.rd (.var .T)) (.add (.neg (.num 54316160000000003 25)) (.mul (.num 158939078 20) (.rd (.var .T))))))))))))) (.mul (.num 28649397927461854 14) (.add (.num 28650697 3) (.mul (.rd (.var .T)) (.add (.num 37667543999999999 16) (.mul (.rd (.var .T)) (.add (.num 14457541000000001 19) (.mul (.rd (.var .T)) (.add (.neg (.num 34722066666666664 23)) (.mul (.rd (.var .T)) (.add (.num 42106484999999997 27) (.mul (.neg (.num 20183792 22)) (.rd (.var .T))))))))))))),
  .ite (.rd (.var .T)) (.num 1000 0) (.arr .h 35) (.mul (.num 27709202516551613 14) (.add (.num 98446229999999996 13) (.mul (.rd (.var .T)) (.add (.num 42184762999999998 16) (.mul (.rd (.var .T)) (.add (.neg (.num 23194880000000002 19)) (.mul (.rd (.var .T)) (.add (.num 36803406666666667 22) (.mul (.rd (.var .T)) (.add (.neg (.num 233403385 17)) (.mul (.num 56071540000000003 29) (.rd (.var .T))))))))))))) (.mul (.num 27709202516551613 14) (.add (.num 99209745999999996 13) (.mul (.rd (.var .T)) (.add (.num 32606055999999999 16) (.mul (.rd (.var .T)) (.add (.num 59555215 11) (.mul (.rd (.var .T)) (.add (.neg (.num 14305682666666666 23)) (.mul (.rd (.var .T)) (.add (.num 17364417250000001 27) (.mul (.neg (.num 80672197999999996 32)) (.rd (.var .T))))))))))))),
  .ite (.rd (.var .T)) (.num 1000 0) (.arr .h 36) (.mul (.num 1807274102205952 13) (.add (.num 28966179000000002 13) (.mul (.rd (.var .T)) (.add (.num 39440312 7) (.mul (.rd (.var .T)) (.add (.neg (.num 79271449999999998 20)) (.mul (.rd (.var .T)) (.add (.num 55526040000000001 22) (.mul (.rd (.var .T)) (.add (.neg (.num 51188565 16)) (.mul (.num 156701128 20) (.rd (.var .T))))))))))))) (.mul (.num 1807274102205952 13) (.add (.num 23164983000000002 13) (.mul (.rd (.var .T)) (.add (.num 48847541999999997 16) (.mul (.rd (.var .T)) (.add (.num 10861978 10) (.mul (.rd (.var .T)) (.add (.neg (.num 27602302 14)) (.mul (.rd (.var .T)) (.add (.num 39368774999999999 27) (.mul (.neg (.num 2102179 21)) (.rd (.var .T))))))))))))),
  .ite (.rd (.var .T)) (.num 1000 0) (.arr .h 37) (.mul (.num 18890974869174661 14) (.add (.num 87417744000000002 13) (.mul (.rd (.var .T)) (.add (.num 22571501999999999 16) (.mul (.rd (.var .T)) (.add (.num 5652364 9) (.mul (.rd (.var .T)) (.add (.neg (.num 45571063333333328 22)) (.mul (.rd (.var .T)) (.add (.num 24204951500000002 25) (.mul (.neg (.num 58614363999999997 29)) (.rd (.var .T))))))))))))) (.mul (.num 18890974869174661 14) (.add (.num 80734048000000003 13) (.mul (.rd (.var .T)) (.add (.num 48230728999999997 16) (.mul (.rd (.var .T)) (.add (.num 13135125499999999 19) (.mul (.rd (.var .T)) (.add (.neg (.num 3195029133333333 22)) (.mul (.rd (.var .T)) (.add (.num 40001779999999998 27) (.mul (.neg (.num 195504606 23)) (.rd (.var .T))))))))))))),
  .ite (.rd (.var .T)) (.num 1000 0) (.arr .h 38) (.mul (.num 26808669159297972 14) (.add (.num 11548297 3) (.mul (.rd (.var .T)) (.add (.num 45334915999999996 16) (.mul (.rd (.var .T)) (.add (.neg (.num 28348085499999998 19)) (.mul (.rd (.var .T)) (.add (.num 61577356666666665 22) (.mul (.rd (.var .T)) (.add (.neg (.num 42842735 16)) (.mul (.num 110909146 20) (.rd (.var .T))))))))))))) (.mul (.num 26808669159297972 14) (.add (.num 11750582 3) (.mul (.rd (.var .T)) (.add (.num 29792508999999998 16) (.mul (.rd (.var .T)) (.add (.num 17472029500000001 19) (.mul (.rd (.var .T)) (.add (.neg (.num 26183259333333334 23)) (.mul (.rd (.var .T)) (.add (.num 14369898500000001 27) (.mul (.neg (.num 38671832000000001 33)) (.rd (.var .T))))))))))))),
  .ite (.rd (.var .T)) (.num 1000 0) (.arr .h 39) (.mul (.num 31956895948687321 14) (.add (.num 51708339999999997 12) (.mul (.rd (.var .T)) (.add (.num 36129351000000001 16) (.mul (.rd (.var .T)) (.add (.neg (.num 47775663499999998 20)) (.mul (.rd (.var .T)) (.add (.num 71476589999999999 23) (.mul (.rd (.var .T)) (.add (.neg (.num 78790807499999998 27)) (.mul (.neg (.num 92860711999999993 30)) (.rd (.var .T))))))))))))) (.mul (.num 31956895948687321 14) (.add (.num 51536188000000002 12) (.mul (.rd (.var .T)) (.add (.num 37459804999999999 16) (.mul (.rd (.var .T)) (.add (.num 217253875 13) (.mul (.rd (.var .T)) (.add (.num 99019946666666663 24) (.mul (.rd (.var .T)) (.add (.neg (.num 171629515 19)) (.mul (.num 88268346000000005 32) (.rd (.var .T))))))))))))),
  .ite (.rd (.var .T)) (.num 1000 0) (.arr .h 40) (.mul (.num 3076504309974809 13) (.add (.num 14712633 3) (.mul (.rd (.var .T)) (.add (.num 22589885999999999 16) (.mul (.rd (.var .T)) (.add (.num 50255849999999999 19) (.mul (.rd (.var .T)) (.add (.neg (.num 44505876666666668 22)) (.mul (.rd (.var .T)) (.add (.num 25230872500000002 25) (.mul (.neg (.num 60178055999999999 29)) (.rd (.var .T))))))))))))) (.mul (.num 3076504309974809 13) (.add (.num 14407291999999999 12) (.mul (.rd (.var .T)) (.add (.num 38022391999999998 16) (.mul (.rd (.var .T)) (.add (.num 15732114000000001 19) (.mul (.rd (.var .T)) (.add (.neg (.num 35440616666666668 23)) (.mul (.rd (.var .T)) (.add (.num 41549392500000003 27) (.mul (.neg (.num 19599514 22)) (.rd (.var .T))))))))))))),
  .ite (.rd (.var .T)) (.num 1000 0) (.arr .h 41) (.mul (.num 29658895640306179 14) (.add (.num 2863782 2) (.mul (.rd (.var .T)) (.add (.num 2851661 6) (.mul (.rd (.var .T)) (.add (.num 28476165499999998 19) (.mul (.rd (.var .T)) (.add (.num 35704666666666666 23) (.mul (.rd (.var .T)) (.add (.neg (.num 40565300000000002 26)) (.mul (.neg (.num 47022162 21)) (.rd (.var .T))))))))))))) (.mul (.num 29658895640306179 14) (.add (.num 27677109 3) (.mul (.rd (.var .T)) (.add (.num 52097030000000002 16) (.mul (.rd (.var .T)) (.add (.num 14846455499999999 19) (.mul (.rd (.var .T)) (.add (.neg (.num 95186303333333329 24)) (.mul (.rd (.var .T)) (.add (.neg (.num 40888750000000003 27)) (.mul (.num 60865177999999998 31) (.rd (.var .T))))))))))))),
  .ite (.rd (.var .T)) (.num 1000 0) (.arr .h 42) (.mul (.num 20263153135983694 14) (.add (.num 54261983999999997 12) (.mul (.rd (.var .T)) (.add (.num 25243194 7) (.mul (.rd (.var .T)) (.add (.num 79803094999999994 19) (.mul (.rd (.var .T)) (.add (.neg (.num 62721179999999997 22)) (.mul (.rd (.var .T)) (.add (.num 30313849999999999 25) (.mul (.neg (.num 64714756000000001 29)) (.rd (.var .T))))))))))))) (.mul (.num 20263153135983694 14) (.add (.num 53452940999999999 12) (.mul (.rd (.var .T)) (.add (.num 58946361999999999 16) (.mul (.rd (.var .T)) (.add (.num 19947979500000001 19) (.mul (.rd (.var .T)) (.add (.neg (.num 532746 12)) (.mul (.rd (.var .T)) (.add (.num 73123487500000002 27) (.mul (.neg (.num 40189372000000003 31)) (.rd (.var .T))))))))))))),
  .ite (.rd (.var .T)) (.num 1382 0) (.arr .h 43) (.mul (.num 19324687135968139 14) (.add (.num 192990252 4) (.mul (.rd (.var .T)) (.add (.num 26472798900000001 16) (.mul (.rd (.var .T)) (.add (.num 63752671 10) (.mul (.rd (.var .T)) (.add (.neg (.num 34931411999999996 22)) (.mul (.rd (.var .T)) (.add (.num 110358209 17) (.mul (.neg (.num 15150429320000001 29)) (.rd (.var .T))))))))))))) (.mul (.num 19324687135968139 14) (.add (.num 17966133900000001 12) (.mul (.rd (.var .T)) (.add (.num 65986045600000001 16) (.mul (.rd (.var .T)) (.add (.num 151389313 11) (.mul (.rd (.var .T)) (.add (.neg (.num 35901448666666666 23)) (.mul (.rd (.var .T)) (.add (.num 42916632 18) (.mul (.neg (.num 202878782 23)) (.rd (.var .T))))))))))))),
  .ite (.rd (.var .T)) (.num 1368 0) (.arr .h 44) (.mul (.num 19324687135968139 14) (.add (.neg (.num 28269839999999999 13)) (.mul (.rd (.var .T)) (.add (.num 37860495200000002 16) (.mul (.rd (.var .T)) (.add (.num 34433396099999999 19) (.mul (.rd (.var .T)) (.add (.neg (.num 10716262133333332 22)) (.mul (.rd (.var .T)) (.add (.num 12929894174999999 26) (.mul (.num 23872157600000001 31) (.rd (.var .T))))))))))))) (.mul (.num 19324687135968139 14) (.add (.neg (.num 37065333099999998 13)) (.mul (.rd (.var .T)) (.add (.num 58978488499999999 16) (.mul (.rd (.var .T)) (.add (.num 1583946965 12) (.mul (.rd (.var .T)) (.add (.neg (.num 37267021333333335 23)) (.mul (.rd (.var .T)) (.add (.num 44310786000000001 27) (.mul (.neg (.num 20867835399999997 31)) (.rd (.var .T))))))))))))),
  .ite (.rd (.var .T)) (.num 1478 0) (.arr .h 45) (.mul (.num 19324687135968139 14) (.add (.neg (.num 15587363600000001 12)) (.mul (.rd (.var .T)) (.add (.num 36309631699999998 16) (.mul (.rd (.var .T)) (.add (.num 36514117850000001 19) (.mul (.rd (.var .T)) (.add (.neg (.num 76016667666666667 23)) (.mul (.rd (.var .T)) (.add (.neg (.num 16531782450000001 26)) (.mul (.num 72447150399999992 30) (.rd (.var .T))))))))))))) (.mul (.num 19324687135968139 14) (.add (.neg (.num 16659934399999998 12)) (.mul (.rd (.var .T)) (.add (.num 62239513400000002 16) (.mul (.rd (.var .T)) (.add (.num 15893200200000001 19) (.mul (.rd (.var .T)) (.add (.neg (.num 36459585 14)) (.mul (.rd (.var .T)) (.add (.num 42683790750000001 27) (.mul (.neg (.num 199004391 23)) (.rd (.var .T))))))))))))),
  .ite (.rd (.var .T)) (.num 1000 0) (.arr .h 46) (.mul (.num 19788262837499175 14) (.add (.num 14682477000000001 12) (.mul (.rd (.var .T)) (.add (.num 28269308 7) (.mul (.rd (.var .T)) (.add (.num 44025844000000003 19) (.mul (.rd (.var .T)) (.add (.neg (.num 27955378000000001 22)) (.mul (.rd (.var .T)) (.add (.num 12004240999999999 25) (.mul (.neg (.num 26627190000000002 29)) (.rd (.var .T))))))))))))) (.mul (.num 19788262837499175 14) (.add (.num 14004123 3) (.mul (.rd (.var .T)) (.add (.num 51521844999999997 16) (.mul (.rd (.var .T)) (.add (.num 115258805 11) (.mul (.rd (.var .T)) (.add (.neg (.num 29344384333333333 23)) (.mul (.rd (.var .T)) (.add (.num 36972744999999997 27) (.mul (.neg (.num 18195599199999999 31)) (.rd (.var .T))))))))))))),
  .ite (.rd (.var .T)) (.num 1000 0) (.arr .h 47) (.mul (.num 20813212426154001 14) (.add (.neg (.num 745375 3)) (.mul (.rd (.var .T)) (.add (.num 25 1) (.mul (.rd (.var .T)) (.add (.num 0 0) (.mul (.rd (.var .T)) (.add (.num 0 0) (.mul (.rd (.var .T)) (.add (.num 0 0) (.mul (.num 0 0) (.rd (.var .T))))))))))))) (.mul (.num 20813212426154001 14) (.add (.neg (.num 745375 3)) (.mul (.rd (.var .T)) (.add (.num 25 1) (.mul (.rd (.var .T)) (.add (.num 0 0) (.mul (.rd (.var .T)) (.add (.num 0 0) (.mul (.rd (.var .T)) (.add (.num 0 0) (.mul (.num 0 0) (.rd (.var .T))))))))))))),
  .ite (.rd (.var .T)) (.num 1000 0) (.arr .h 48) (.mul (.num 19296208183235558 14) (.add (.num 10631862999999999 12) (.mul (.rd (.var .T)) (.add (.num 10515517999999999 16) (.mul (.rd (.var .T)) (.add (.num 12995990000000001 18) (.mul (.rd (.var .T)) (.add (.num 79335133333333326 23) (.mul (.rd (.var .T)) (.add (.neg (.num 490239225 17)) (.mul (.num 18746494 19) (.rd (.var .T))))))))))))) (.mul (.num 19296208183235558 14) (.add (.num 82984336000000003 13) (.mul (.rd (.var .T)) (.add (.num 77026987 7) (.mul (.rd (.var .T)) (.add (.num 80221015 10) (.mul (.rd (.var .T)) (.add (.neg (.num 17611073333333333 22)) (.mul (.rd (.var .T)) (.add (.num 190746475 18) (.mul (.neg (.num 78784568000000004 31)) (.rd (.var .T))))))))))))),
  .ite (.rd (.var .T)) (.num 1000 0) (.arr .h 49) (.mul (.num 18855143444426002 14) (.add (.neg (.num 1395852 2)) (.mul (.rd (.var .T)) (.add (.num 93355381000000004 17) (.mul (.rd (.var .T)) (.add (.num 132122895 10) (.mul (.rd (.var .T)) (.add (.num 20353242333333332 22) (.mul (.rd (.var .T)) (.add (.neg (.num 54943747499999998 25)) (.mul (.num 19029850599999998 28) (.rd (.var .T))))))))))))) (.mul (.num 18855143444426002 14) (.add (.neg (.num 16467516 3)) (.mul (.rd (.var .T)) (.add (.num 75341367999999997 16) (.mul (.rd (.var .T)) (.add (.num 94361194999999995 19) (.mul (.rd (.var .T)) (.add (.neg (.num 20906163666666664 22)) (.mul (.rd (.var .T)) (.add (.num 22868912250000001 26) (.mul (.neg (.num 9567613800000001 30)) (.rd (.var .T))))))))))))),
  .ite (.rd (.var .T)) (.num 1000 0) (.arr .h 50) (.mul (.num 19315645500243699 14) (.add (.num 15214766 4) (.mul (.rd (.var .T)) (.add (.num 3409062 6) (.mul (.rd (.var .T)) (.add (.num 53692870000000004 19) (.mul (.rd (.var .T)) (.add (.num 6304973333333333 22) (.mul (.rd (.var .T)) (.add (.neg (.num 178964575 17)) (.mul (.num 57347699999999998 29) (.rd (.var .T))))))))))))) (.mul (.num 19315645500243699 14) (.add (.num 4903218 4) (.mul (.rd (.var .T)) (.add (.num 597567 5) (.mul (.rd (.var .T)) (.add (.num 40652954999999998 19) (.mul (.rd (.var .T)) (.add (.neg (.num 91454133333333341 23)) (.mul (.rd (.var .T)) (.add (.num 1017576 16) (.mul (.neg (.num 43520339999999999 31)) (.rd (.var .T))))))))))))),
  .ite (.rd (.var .T)) (.num 1000 0) (.arr .h 51) (.mul (.num 1887370190923875 13) (.add (.neg (.num 21572878000000001 12)) (.mul (.rd (.var .T)) (.add (.num 47294594999999999 16) (.mul (.rd (.var .T)) (.add (.neg (.num 15966429 10)) (.mul (.rd (.var .T)) (.add (.num 15844973666666667 21) (.mul (.rd (.var .T)) (.add (.neg (.num 14364652749999999 24)) (.mul (.num 43862224 19) (.rd (.var .T))))))))))))) (.mul (.num 1887370190923875 13) (.add (.neg (.num 22593121999999999 12)) (.mul (.rd (.var .T)) (.add (.num 54041107999999998 16) (.mul (.rd (.var .T)) (.add (.num 58615294999999996 19) (.mul (.rd (.var .T)) (.add (.neg (.num 14087712333333332 22)) (.mul (.rd (.var .T)) (.add (.num 17093112750000001 26) (.mul (.neg (.num 81969725999999999 31)) (.rd (.var .T))))))))))))),
  .ite (.rd (.var .T)) (.num 1000 0) (.arr .h 52) (.mul (.num 29680218594762238 14) (.add (.neg (.num 10208999 4)) (.mul (.rd (.var .T)) (.add (.num 32986770000000001 16) (.mul (.rd (.var .T)) (.add (.num 70412019999999999 20) (.mul (.rd (.var .T)) (.add (.neg (.num 13210739999999999 22)) (.mul (.rd (.var .T)) (.add (.num 14103787500000001 25) (.mul (.neg (.num 48897079999999994 29)) (.rd (.var .T))))))))))))) (.mul (.num 29680218594762238 14) (.add (.neg (.num 92279769999999996 14)) (.mul (.rd (.var .T)) (.add (.num 29266399999999999 16) (.mul (.rd (.var .T)) (.add (.num 74398840000000003 20) (.mul (.rd (.var .T)) (.add (.neg (.num 18949200000000001 23)) (.mul (.rd (.var .T)) (.add (.num 25242595 18) (.mul (.neg (.num 13506701999999999 31)) (.rd (.var .T)))))))))))))]

/-- utilities/mechanisms/gri30/lib/src/chem_utils.c:1168-1488 -/
def evalCp : List CStmt := [
  .ite (.rd (.var .T)) (.num 1000 0) (.arr .cp 0) (.mul (.num 41244826576978785 13) (.add (.num 23443311200000001 16) (.mul (.rd (.var .T)) (.add (.num 79805207499999992 19) (.mul (.rd (.var .T)) (.add (.neg (.num 19478150999999999 21)) (.mul (.rd (.var .T)) (.add (.num 201572094 16) (.mul (.neg (.num 73761176100000006 28)) (.rd (.var .T))))))))))) (.mul (.num 41244826576978785 13) (.add (.num 33372791999999998 16) (.mul (.rd (.var .T)) (.add (.neg (.num 49402473099999998 21)) (.mul (.rd (.var .T)) (.add (.num 49945677799999996 23) (.mul (.rd (.var .T)) (.add (.neg (.num 17956639400000001 26)) (.mul (.num 200255376 22) (.rd (.var .T))))))))))),
  .ite (.rd (.var .T)) (.num 1000 0) (.arr .cp 1) (.mul (.num 8248965315395757 12) (.add (.num 25 1) (.mul (.rd (.var .T)) (.add (.num 70533281899999999 29) (.mul (.rd (.var .T)) (.add (.neg (.num 199591964 23)) (.mul (.rd (.var .T)) (.add (.num 23008163199999999 34) (.mul (.neg (.num 92773233200000006 38)) (.rd (.var .T))))))))))) (.mul (.num 8248965315395757 12) (.add (.num 25000000099999999 16) (.mul (.rd (.var .T)) (.add (.neg (.num 23084297299999999 27)) (.mul (.rd (.var .T)) (.add (.num 16156194800000001 30) (.mul (.rd (.var .T)) (.add (.neg (.num 47351523500000003 34)) (.mul (.num 49819735700000002 38) (.rd (.var .T))))))))))),
  .ite (.rd (.var .T)) (.num 1000 0) (.arr .cp 2) (.mul (.num 51967336900133762 14) (.add (.num 31682671 7) (.mul (.rd (.var .T)) (.add (.neg (.num 32793188399999999 19)) (.mul (.rd (.var .T)) (.add (.num 66430639599999997 22) (.mul (.rd (.var .T)) (.add (.neg (.num 61280662400000001 25)) (.mul (.num 21126597099999999 28) (.rd (.var .T))))))))))) (.mul (.num 51967336900133762 14) (.add (.num 25694207800000002 16) (.mul (.rd (.var .T)) (.add (.neg (.num 85974113700000004 21)) (.mul (.rd (.var .T)) (.add (.num 41948458900000002 24) (.mul (.rd (.var .T)) (.add (.neg (.num 10017779899999999 27)) (.mul (.num 12283369099999999 31) (.rd (.var .T))))))))))),
  .ite (.rd (.var .T)) (.num 1000 0) (.arr .cp 3) (.mul (.num 25983668450066881 14) (.add (.num 37824563599999999 16) (.mul (.rd (.var .T)) (.add (.neg (.num 29967341599999998 19)) (.mul (.rd (.var .T)) (.add (.num 984730201 14) (.mul (.rd (.var .T)) (.add (.neg (.num 96812950900000007 25)) (.mul (.num 324372837 20) (.rd (.var .T))))))))))) (.mul (.num 25983668450066881 14) (.add (.num 32825378399999998 16) (.mul (.rd (.var .T)) (.add (.num 14830875399999999 19) (.mul (.rd (.var .T)) (.add (.neg (.num 75796666899999999 23)) (.mul (.rd (.var .T)) (.add (.num 20947055499999999 26) (.mul (.neg (.num 21671779399999999 30)) (.rd (.var .T))))))))))),
  .ite (.rd (.var .T)) (.num 1000 0) (.arr .cp 4) (.mul (.num 48887492694330808 14) (.add (.num 39920154299999999 16) (.mul (.rd (.var .T)) (.add (.neg (.num 24013175200000001 19)) (.mul (.rd (.var .T)) (.add (.num 46179384099999996 22) (.mul (.rd (.var .T)) (.add (.neg (.num 388113333 17)) (.mul (.num 13641147 19) (.rd (.var .T))))))))))) (.mul (.num 48887492694330808 14) (.add (.num 30928876700000001 16) (.mul (.rd (.var .T)) (.add (.num 54842971599999998 20) (.mul (.rd (.var .T)) (.add (.num 12650522799999999 23) (.mul (.rd (.var .T)) (.add (.neg (.num 87946155599999995 27)) (.mul (.num 117412376 22) (.rd (.var .T))))))))))),
  .ite (.rd (.var .T)) (.num 1000 0) (.arr .cp 5) (.mul (.num 4615227795515807 13) (.add (.num 41986405600000003 16) (.mul (.rd (.var .T)) (.add (.neg (.num 20364341000000002 19)) (.mul (.rd (.var .T)) (.add (.num 65204021099999997 22) (.mul (.rd (.var .T)) (.add (.neg (.num 54879706200000003 25)) (.mul (.num 177197817 20) (.rd (.var .T))))))))))) (.mul (.num 4615227795515807 13) (.add (.num 30339924900000002 16) (.mul (.rd (.var .T)) (.add (.num 21769180400000002 19) (.mul (.rd (.var .T)) (.add (.neg (.num 16407251799999999 23)) (.mul (.rd (.var .T)) (.add (.neg (.num 97041986999999998 27)) (.mul (.num 16820099199999999 30) (.rd (.var .T))))))))))),
  .ite (.rd (.var .T)) (.num 1000 0) (.arr .cp 6) (.mul (.num 25190194790518544 14) (.add (.num 43017980099999997 16) (.mul (.rd (.var .T)) (.add (.neg (.num 47491205099999996 19)) (.mul (.rd (.var .T)) (.add (.num 21158289099999999 21) (.mul (.rd (.var .T)) (.add (.neg (.num 242763894 16)) (.mul (.num 92922512400000003 28) (.rd (.var .T))))))))))) (.mul (.num 25190194790518544 14) (.add (.num 40172109000000003 16) (.mul (.rd (.var .T)) (.add (.num 22398201299999999 19) (.mul (.rd (.var .T)) (.add (.neg (.num 63365814999999998 23)) (.mul (.rd (.var .T)) (.add (.num 11424637 17) (.mul (.neg (.num 107908535 22)) (.rd (.var .T))))))))))),
  .ite (.rd (.var .T)) (.num 1000 0) (.arr .cp 7) (.mul (.num 24443746347165404 14) (.add (.num 42761126899999997 16) (.mul (.rd (.var .T)) (.add (.neg (.num 54282241699999995 20)) (.mul (.rd (.var .T)) (.add (.num 16733570100000001 21) (.mul (.rd (.var .T)) (.add (.neg (.num 215770813 16)) (.mul (.num 86245436299999998 28) (.rd (.var .T))))))))))) (.mul (.num 24443746347165404 14) (.add (.num 41650028499999996 16) (.mul (.rd (.var .T)) (.add (.num 490831694 11) (.mul (.rd (.var .T)) (.add (.neg (.num 190139225 14)) (.mul (.rd (.var .T)) (.add (.num 37118598599999998 26) (.mul (.neg (.num 28790830500000002 30)) (.rd (.var .T))))))))))),
  .ite (.rd (.var .T)) (.num 1000 0) (.arr .cp 8) (.mul (.num 6922372908167514 13) (.add (.num 25542395500000001 16) (.mul (.rd (.var .T)) (.add (.neg (.num 32153772399999997 20)) (.mul (.rd (.var .T)) (.add (.num 733792245 15) (.mul (.rd (.var .T)) (.add (.neg (.num 73223488899999999 26)) (.mul (.num 26652144600000001 29) (.rd (.var .T))))))))))) (.mul (.num 6922372908167514 13) (.add (.num 24926688800000001 16) (.mul (.rd (.var .T)) (.add (.num 479889284 13) (.mul (.rd (.var .T)) (.add (.neg (.num 72433502000000005 24)) (.mul (.rd (.var .T)) (.add (.num 37429102900000003 27) (.mul (.neg (.num 48727789299999997 31)) (.rd (.var .T))))))))))),
  .ite (.rd (.var .T)) (.num 1000 0) (.arr .cp 9) (.mul (.num 6386435531617783 13) (.add (.num 34898166499999999 16) (.mul (.rd (.var .T)) (.add (.num 32383554100000003 20) (.mul (.rd (.var .T)) (.add (.neg (.num 168899065 14)) (.mul (.rd (.var .T)) (.add (.num 31621732699999999 25) (.mul (.neg (.num 14060906700000001 28)) (.rd (.var .T))))))))))) (.mul (.num 6386435531617783 13) (.add (.num 28784647300000001 16) (.mul (.rd (.var .T)) (.add (.num 970913681 12) (.mul (.rd (.var .T)) (.add (.num 14444565499999999 23) (.mul (.rd (.var .T)) (.add (.neg (.num 13068784900000001 26)) (.mul (.num 17607938299999999 30) (.rd (.var .T))))))))))),
  .ite (.rd (.var .T)) (.num 1000 0) (.arr .cp 10) (.mul (.num 59275206603321635 14) (.add (.num 37626786700000001 16) (.mul (.rd (.var .T)) (.add (.num 96887214300000004 20) (.mul (.rd (.var .T)) (.add (.num 27948984100000001 22) (.mul (.rd (.var .T)) (.add (.neg (.num 38509115300000003 25)) (.mul (.num 168741719 20) (.rd (.var .T))))))))))) (.mul (.num 59275206603321635 14) (.add (.num 28741011300000001 16) (.mul (.rd (.var .T)) (.add (.num 36563929199999999 19) (.mul (.rd (.var .T)) (.add (.neg (.num 14089459700000001 22)) (.mul (.rd (.var .T)) (.add (.num 26017954899999999 26) (.mul (.neg (.num 18772756700000001 30)) (.rd (.var .T))))))))))),
  .ite (.rd (.var .T)) (.num 1000 0) (.arr .cp 11) (.mul (.num 59275206603321635 14) (.add (.num 41986041099999998 16) (.mul (.rd (.var .T)) (.add (.neg (.num 23666141900000001 19)) (.mul (.rd (.var .T)) (.add (.num 82329621999999999 22) (.mul (.rd (.var .T)) (.add (.neg (.num 66881598100000004 25)) (.mul (.num 19431473700000001 28) (.rd (.var .T))))))))))) (.mul (.num 59275206603321635 14) (.add (.num 22920384199999999 16) (.mul (.rd (.var .T)) (.add (.num 465588637 11) (.mul (.rd (.var .T)) (.add (.neg (.num 20119194699999999 22)) (.mul (.rd (.var .T)) (.add (.num 41790600000000002 26) (.mul (.neg (.num 33971636499999998 30)) (.rd (.var .T))))))))))),
  .ite (.rd (.var .T)) (.num 1000 0) (.arr .cp 12) (.mul (.num 55301374409537334 14) (.add (.num 36735904000000001 16) (.mul (.rd (.var .T)) (.add (.num 201095175 11) (.mul (.rd (.var .T)) (.add (.num 57302185600000002 22) (.mul (.rd (.var .T)) (.add (.neg (.num 68711742500000001 25)) (.mul (.num 254385734 20) (.rd (.var .T))))))))))) (.mul (.num 55301374409537334 14) (.add (.num 22857177200000001 16) (.mul (.rd (.var .T)) (.add (.num 72399003699999999 19) (.mul (.rd (.var .T)) (.add (.neg (.num 29871434799999999 22)) (.mul (.rd (.var .T)) (.add (.num 59568464400000002 26) (.mul (.neg (.num 46715439400000003 30)) (.rd (.var .T))))))))))),
  .ite (.rd (.var .T)) (.num 1000 0) (.arr .cp 13) (.mul (.num 5182688078609915 13) (.add (.num 514987613 8) (.mul (.rd (.var .T)) (.add (.neg (.num 13670978800000001 18)) (.mul (.rd (.var .T)) (.add (.num 49180059899999999 21) (.mul (.rd (.var .T)) (.add (.neg (.num 48474302600000002 24)) (.mul (.num 16669395599999999 27) (.rd (.var .T))))))))))) (.mul (.num 5182688078609915 13) (.add (.num 74851495000000004 18) (.mul (.rd (.var .T)) (.add (.num 133909467 10) (.mul (.rd (.var .T)) (.add (.neg (.num 573285809 14)) (.mul (.rd (.var .T)) (.add (.num 122292535 17) (.mul (.neg (.num 10181523 20)) (.rd (.var .T))))))))))),
  .ite (.rd (.var .T)) (.num 1000 0) (.arr .cp 14) (.mul (.num 29683482206608977 14) (.add (.num 35795334699999999 16) (.mul (.rd (.var .T)) (.add (.neg (.num 61035368 11)) (.mul (.rd (.var .T)) (.add (.num 101681433 14) (.mul (.rd (.var .T)) (.add (.num 90700588399999998 26) (.mul (.neg (.num 904424499 21)) (.rd (.var .T))))))))))) (.mul (.num 29683482206608977 14) (.add (.num 27151856099999998 16) (.mul (.rd (.var .T)) (.add (.num 20625274300000002 19) (.mul (.rd (.var .T)) (.add (.neg (.num 99882577100000007 23)) (.mul (.rd (.var .T)) (.add (.num 230053008 18) (.mul (.neg (.num 203647716 22)) (.rd (.var .T))))))))))),
  .ite (.rd (.var .T)) (.num 1000 0) (.arr .cp 15) (.mul (.num 18892296942953618 14) (.add (.num 235677352 8) (.mul (.rd (.var .T)) (.add (.num 89845967700000005 19) (.mul (.rd (.var .T)) (.add (.neg (.num 71235626899999998 22)) (.mul (.rd (.var .T)) (.add (.num 24591902199999998 25) (.mul (.neg (.num 14369954799999999 29)) (.rd (.var .T))))))))))) (.mul (.num 18892296942953618 14) (.add (.num 38574602900000001 16) (.mul (.rd (.var .T)) (.add (.num 44143702599999998 19) (.mul (.rd (.var .T)) (.add (.neg (.num 22148140400000001 22)) (.mul (.rd (.var .T)) (.add (.num 52349018800000005 26) (.mul (.neg (.num 47208416400000003 30)) (.rd (.var .T))))))))))),
  .ite (.rd (.var .T)) (.num 1000 0) (.arr .cp 16) (.mul (.num 2865243876803429 13) (.add (.num 42211858400000004 16) (.mul (.rd (.var .T)) (.add (.neg (.num 324392532 11)) (.mul (.rd (.var .T)) (.add (.num 137799446 13) (.mul (.rd (.var .T)) (.add (.neg (.num 13314409300000001 24)) (.mul (.num 43376886499999999 28) (.rd (.var .T))))))))))) (.mul (.num 2865243876803429 13) (.add (.num 277217438 8) (.mul (.rd (.var .T)) (.add (.num 49569552599999997 19) (.mul (.rd (.var .T)) (.add (.neg (.num 248445613 14)) (.mul (.rd (.var .T)) (.add (.num 58916177800000004 26) (.mul (.neg (.num 53350871099999999 30)) (.rd (.var .T))))))))))),
  .ite (.rd (.var .T)) (.num 1000 0) (.arr .cp 17) (.mul (.num 2769061668644934 13) (.add (.num 47937231499999999 16) (.mul (.rd (.var .T)) (.add (.neg (.num 99083336899999999 19)) (.mul (.rd (.var .T)) (.add (.num 37322000799999999 21) (.mul (.rd (.var .T)) (.add (.neg (.num 37928526099999998 24)) (.mul (.num 131772652 19) (.rd (.var .T))))))))))) (.mul (.num 2769061668644934 13) (.add (.num 176069008 8) (.mul (.rd (.var .T)) (.add (.num 920000082 11) (.mul (.rd (.var .T)) (.add (.neg (.num 44225881299999997 22)) (.mul (.rd (.var .T)) (.add (.num 100641212 17) (.mul (.neg (.num 88385564000000006 30)) (.rd (.var .T))))))))))),
  .ite (.rd (.var .T)) (.num 1000 0) (.arr .cp 18) (.mul (.num 26791271377208773 14) (.add (.num 38638891800000001 16) (.mul (.rd (.var .T)) (.add (.num 55967230400000003 19) (.mul (.rd (.var .T)) (.add (.num 59327179099999999 22) (.mul (.rd (.var .T)) (.add (.neg (.num 10453201200000001 24)) (.mul (.num 43696727800000001 28) (.rd (.var .T))))))))))) (.mul (.num 26791271377208773 14) (.add (.num 36926656900000001 16) (.mul (.rd (.var .T)) (.add (.num 86457679700000008 19) (.mul (.rd (.var .T)) (.add (.neg (.num 37510112000000001 22)) (.mul (.rd (.var .T)) (.add (.num 78723463599999999 26) (.mul (.neg (.num 64855420100000002 30)) (.rd (.var .T))))))))))),
  .ite (.rd (.var .T)) (.num 1000 0) (.arr .cp 19) (.mul (.num 26791271377208773 14) (.add (.num 2106204 6) (.mul (.rd (.var .T)) (.add (.num 72165950000000001 19) (.mul (.rd (.var .T)) (.add (.num 53384719999999999 22) (.mul (.rd (.var .T)) (.add (.neg (.num 73776359999999997 25)) (.mul (.num 20756099999999999 28) (.rd (.var .T))))))))))) (.mul (.num 26791271377208773 14) (.add (.num 37707989999999998 16) (.mul (.rd (.var .T)) (.add (.num 78714969999999999 19) (.mul (.rd (.var .T)) (.add (.neg (.num 26563840000000001 22)) (.mul (.rd (.var .T)) (.add (.num 39444309999999999 26) (.mul (.neg (.num 21126160000000001 30)) (.rd (.var .T))))))))))),
  .ite (.rd (.var .T)) (.num 1000 0) (.arr .cp 20) (.mul (.num 25948506904653124 14) (.add (.num 57153958200000003 16) (.mul (.rd (.var .T)) (.add (.neg (.num 15230912900000001 18)) (.mul (.rd (.var .T)) (.add (.num 652441155 13) (.mul (.rd (.var .T)) (.add (.neg (.num 71080688900000001 24)) (.mul (.num 26135269799999999 27) (.rd (.var .T))))))))))) (.mul (.num 25948506904653124 14) (.add (.num 178970791 8) (.mul (.rd (.var .T)) (.add (.num 140938292 10) (.mul (.rd (.var .T)) (.add (.neg (.num 63650083500000001 22)) (.mul (.rd (.var .T)) (.add (.num 138171085 17) (.mul (.neg (.num 11706021999999999 29)) (.rd (.var .T))))))))))),
  .ite (.rd (.var .T)) (.num 1000 0) (.arr .cp 21) (.mul (.num 33218066443627117 14) (.add (.num 28896573299999999 16) (.mul (.rd (.var .T)) (.add (.num 13409961099999999 18) (.mul (.rd (.var .T)) (.add (.neg (.num 284769501 13)) (.mul (.rd (.var .T)) (.add (.num 29479104500000001 24) (.mul (.neg (.num 109331511 19)) (.rd (.var .T))))))))))) (.mul (.num 33218066443627117 14) (.add (.num 31678065200000001 16) (.mul (.rd (.var .T)) (.add (.num 47522190200000002 19) (.mul (.rd (.var .T)) (.add (.neg (.num 18378707700000001 22)) (.mul (.rd (.var .T)) (.add (.num 30419025199999998 26) (.mul (.neg (.num 17723276999999999 30)) (.rd (.var .T))))))))))),
  .ite (.rd (.var .T)) (.num 1000 0) (.arr .cp 22) (.mul (.num 31932177658088915 14) (.add (.num 80868109399999999 17) (.mul (.rd (.var .T)) (.add (.num 23361562900000001 18) (.mul (.rd (.var .T)) (.add (.neg (.num 35517181499999999 21)) (.mul (.rd (.var .T)) (.add (.num 280152437 16) (.mul (.neg (.num 85007297399999996 28)) (.rd (.var .T))))))))))) (.mul (.num 31932177658088915 14) (.add (.num 41475696400000004 16) (.mul (.rd (.var .T)) (.add (.num 59616666400000001 19) (.mul (.rd (.var .T)) (.add (.neg (.num 237294852 14)) (.mul (.rd (.var .T)) (.add (.num 46741217100000004 26) (.mul (.neg (.num 36123521300000002 30)) (.rd (.var .T))))))))))),
  .ite (.rd (.var .T)) (.num 1000 0) (.arr .cp 23) (.mul (.num 30742133534867867 14) (.add (.num 321246645 8) (.mul (.rd (.var .T)) (.add (.num 151479162 11) (.mul (.rd (.var .T)) (.add (.num 259209412 13) (.mul (.rd (.var .T)) (.add (.neg (.num 357657847 16)) (.mul (.num 147150873 19) (.rd (.var .T))))))))))) (.mul (.num 30742133534867867 14) (.add (.num 3016724 6) (.mul (.rd (.var .T)) (.add (.num 10330229200000001 18) (.mul (.rd (.var .T)) (.add (.neg (.num 46808234899999996 22)) (.mul (.rd (.var .T)) (.add (.num 10176328799999999 25) (.mul (.neg (.num 86260704099999999 30)) (.rd (.var .T))))))))))),
  .ite (.rd (.var .T)) (.num 1000 0) (.arr .cp 24) (.mul (.num 29637603301660818 14) (.add (.num 39592014799999999 16) (.mul (.rd (.var .T)) (.add (.neg (.num 75705224700000004 19)) (.mul (.rd (.var .T)) (.add (.num 57099029199999999 21) (.mul (.rd (.var .T)) (.add (.neg (.num 69158875299999999 24)) (.mul (.num 26988437300000001 27) (.rd (.var .T))))))))))) (.mul (.num 29637603301660818 14) (.add (.num 20361111599999999 16) (.mul (.rd (.var .T)) (.add (.num 146454151 10) (.mul (.rd (.var .T)) (.add (.neg (.num 67107791500000002 22)) (.mul (.rd (.var .T)) (.add (.num 14722292300000001 25) (.mul (.neg (.num 125706061 21)) (.rd (.var .T))))))))))),
  .ite (.rd (.var .T)) (.num 1000 0) (.arr .cp 25) (.mul (.num 28609689384998131 14) (.add (.num 43064656799999996 16) (.mul (.rd (.var .T)) (.add (.neg (.num 41865889200000004 19)) (.mul (.rd (.var .T)) (.add (.num 49714280699999999 21) (.mul (.rd (.var .T)) (.add (.neg (.num 59912660599999996 24)) (.mul (.num 230509004 19) (.rd (.var .T))))))))))) (.mul (.num 28609689384998131 14) (.add (.num 19546564200000001 16) (.mul (.rd (.var .T)) (.add (.num 17397272200000001 18) (.mul (.rd (.var .T)) (.add (.neg (.num 79820666799999996 22)) (.mul (.rd (.var .T)) (.add (.num 175217689 17) (.mul (.neg (.num 149641576 21)) (.rd (.var .T))))))))))),
  .ite (.rd (.var .T)) (.num 1000 0) (.arr .cp 26) (.mul (.num 27650687204768667 14) (.add (.num 42914249199999999 16) (.mul (.rd (.var .T)) (.add (.neg (.num 55015426999999997 19)) (.mul (.rd (.var .T)) (.add (.num 59943828800000003 21) (.mul (.rd (.var .T)) (.add (.neg (.num 70846628500000001 24)) (.mul (.num 26868577099999999 27) (.rd (.var .T))))))))))) (.mul (.num 27650687204768667 14) (.add (.num 10718814999999999 16) (.mul (.rd (.var .T)) (.add (.num 216852677 10) (.mul (.rd (.var .T)) (.add (.neg (.num 100256067 13)) (.mul (.rd (.var .T)) (.add (.num 221412001 17) (.mul (.neg (.num 19000289 20)) (.rd (.var .T))))))))))),
  .ite (.rd (.var .T)) (.num 1000 0) (.arr .cp 27) (.mul (.num 2026467425505748 13) (.add (.num 22517214000000001 16) (.mul (.rd (.var .T)) (.add (.num 17655021 9) (.mul (.rd (.var .T)) (.add (.neg (.num 23729100999999999 21)) (.mul (.rd (.var .T)) (.add (.num 17275759000000001 24) (.mul (.neg (.num 50664811000000003 28)) (.rd (.var .T))))))))))) (.mul (.num 2026467425505748 13) (.add (.num 56282057999999999 16) (.mul (.rd (.var .T)) (.add (.num 40853401000000003 19) (.mul (.rd (.var .T)) (.add (.neg (.num 15934547000000001 22)) (.mul (.rd (.var .T)) (.add (.num 28626051999999999 26) (.mul (.neg (.num 19407831999999999 30)) (.rd (.var .T))))))))))),
  .ite (.rd (.var .T)) (.num 1000 0) (.arr .cp 28) (.mul (.num 19778782309416789 14) (.add (.num 21358362999999998 16) (.mul (.rd (.var .T)) (.add (.num 18118872099999999 18) (.mul (.rd (.var .T)) (.add (.neg (.num 173947474 13)) (.mul (.rd (.var .T)) (.add (.num 934397568 17) (.mul (.neg (.num 20145761499999999 28)) (.rd (.var .T))))))))))) (.mul (.num 19778782309416789 14) (.add (.num 45112973199999997 16) (.mul (.rd (.var .T)) (.add (.num 90035974499999994 19) (.mul (.rd (.var .T)) (.add (.neg (.num 41693963499999999 22)) (.mul (.rd (.var .T)) (.add (.num 92334588199999996 26) (.mul (.neg (.num 79483820099999996 30)) (.rd (.var .T))))))))))),
  .ite (.rd (.var .T)) (.num 1000 0) (.arr .cp 29) (.mul (.num 19778782309416789 14) (.add (.num 12423732999999999 16) (.mul (.rd (.var .T)) (.add (.num 31072201000000001 18) (.mul (.rd (.var .T)) (.add (.neg (.num 50866864000000001 21)) (.mul (.rd (.var .T)) (.add (.num 43137131000000003 24) (.mul (.neg (.num 14014593999999999 27)) (.rd (.var .T))))))))))) (.mul (.num 19778782309416789 14) (.add (.num 59238290999999998 16) (.mul (.rd (.var .T)) (.add (.num 67923599999999999 19) (.mul (.rd (.var .T)) (.add (.neg (.num 25658564000000001 22)) (.mul (.rd (.var .T)) (.add (.num 44987841 17) (.mul (.neg (.num 29940100999999997 30)) (.rd (.var .T))))))))))),
  .ite (.rd (.var .T)) (.num 1000 0) (.arr .cp 30) (.mul (.num 59360437189524475 14) (.add (.num 25 1) (.mul (.rd (.var .T)) (.add (.num 0 0) (.mul (.rd (.var .T)) (.add (.num 0 0) (.mul (.rd (.var .T)) (.add (.num 0 0) (.mul (.num 0 0) (.rd (.var .T))))))))))) (.mul (.num 59360437189524475 14) (.add (.num 24159429000000001 16) (.mul (.rd (.var .T)) (.add (.num 17489065000000001 20) (.mul (.rd (.var .T)) (.add (.neg (.num 11902368999999999 23)) (.mul (.rd (.var .T)) (.add (.num 30226244999999999 27) (.mul (.neg (.num 20360982 22)) (.rd (.var .T))))))))))),
  .ite (.rd (.var .T)) (.num 1000 0) (.arr .cp 31) (.mul (.num 55375553125341332 14) (.add (.num 34929085 7) (.mul (.rd (.var .T)) (.add (.num 31179198 11) (.mul (.rd (.var .T)) (.add (.neg (.num 14890484000000001 22)) (.mul (.rd (.var .T)) (.add (.num 24816441999999998 25) (.mul (.neg (.num 10356967 19)) (.rd (.var .T))))))))))) (.mul (.num 55375553125341332 14) (.add (.num 27836927999999999 16) (.mul (.rd (.var .T)) (.add (.num 1329843 9) (.mul (.rd (.var .T)) (.add (.neg (.num 42478046999999998 23)) (.mul (.rd (.var .T)) (.add (.num 78348501 18) (.mul (.neg (.num 55044470000000003 31)) (.rd (.var .T))))))))))),
  .ite (.rd (.var .T)) (.num 1000 0) (.arr .cp 32) (.mul (.num 51892025773562625 14) (.add (.num 42040028999999999 16) (.mul (.rd (.var .T)) (.add (.neg (.num 21061385000000002 19)) (.mul (.rd (.var .T)) (.add (.num 71068348000000003 22) (.mul (.rd (.var .T)) (.add (.neg (.num 56115197 16)) (.mul (.num 16440717000000001 28) (.rd (.var .T))))))))))) (.mul (.num 51892025773562625 14) (.add (.num 28347421000000002 16) (.mul (.rd (.var .T)) (.add (.num 32073081999999999 19) (.mul (.rd (.var .T)) (.add (.neg (.num 93390804000000001 23)) (.mul (.rd (.var .T)) (.add (.num 13702952999999999 26) (.mul (.neg (.num 79206144000000007 31)) (.rd (.var .T))))))))))),
  .ite (.rd (.var .T)) (.num 1000 0) (.arr .cp 33) (.mul (.num 48820837952480719 14) (.add (.num 42860274 7) (.mul (.rd (.var .T)) (.add (.neg (.num 46605229999999997 19)) (.mul (.rd (.var .T)) (.add (.num 21718513000000001 21) (.mul (.rd (.var .T)) (.add (.neg (.num 22808887 15)) (.mul (.num 82638045999999998 28) (.rd (.var .T))))))))))) (.mul (.num 48820837952480719 14) (.add (.num 26344520999999999 16) (.mul (.rd (.var .T)) (.add (.num 56662559999999997 19) (.mul (.rd (.var .T)) (.add (.neg (.num 17278676 13)) (.mul (.rd (.var .T)) (.add (.num 23867161 17) (.mul (.neg (.num 12578785999999999 30)) (.rd (.var .T))))))))))),
  .ite (.rd (.var .T)) (.num 1000 0) (.arr .cp 34) (.mul (.num 28649397927461854 14) (.add (.num 43446927000000004 16) (.mul (.rd (.var .T)) (.add (.neg (.num 48497072 10)) (.mul (.rd (.var .T)) (.add (.num 20059459000000001 21) (.mul (.rd (.var .T)) (.add (.neg (.num 21726464000000001 24)) (.mul (.num 79469539 19) (.rd (.var .T))))))))))) (.mul (.num 28649397927461854 14) (.add (.num 37667543999999999 16) (.mul (.rd (.var .T)) (.add (.num 28915082000000002 19) (.mul (.rd (.var .T)) (.add (.neg (.num 10416619999999999 22)) (.mul (.rd (.var .T)) (.add (.num 16842593999999999 26) (.mul (.neg (.num 10091896 21)) (.rd (.var .T))))))))))),
  .ite (.rd (.var .T)) (.num 1000 0) (.arr .cp 35) (.mul (.num 27709202516551613 14) (.add (.num 42184762999999998 16) (.mul (.rd (.var .T)) (.add (.neg (.num 46389760000000004 19)) (.mul (.rd (.var .T)) (.add (.num 11041022 12) (.mul (.rd (.var .T)) (.add (.neg (.num 93361354000000002 25)) (.mul (.num 28035769999999999 28) (.rd (.var .T))))))))))) (.mul (.num 27709202516551613 14) (.add (.num 32606055999999999 16) (.mul (.rd (.var .T)) (.add (.num 11911043 10) (.mul (.rd (.var .T)) (.add (.neg (.num 42917048000000002 23)) (.mul (.rd (.var .T)) (.add (.num 69457669000000003 27) (.mul (.neg (.num 40336098999999997 31)) (.rd (.var .T))))))))))),
  .ite (.rd (.var .T)) (.num 1000 0) (.arr .cp 36) (.mul (.num 1807274102205952 13) (.add (.num 39440312 7) (.mul (.rd (.var .T)) (.add (.neg (.num 1585429 9)) (.mul (.rd (.var .T)) (.add (.num 16657812000000001 21) (.mul (.rd (.var .T)) (.add (.neg (.num 20475426 15)) (.mul (.num 78350563999999999 28) (.rd (.var .T))))))))))) (.mul (.num 1807274102205952 13) (.add (.num 48847541999999997 16) (.mul (.rd (.var .T)) (.add (.num 21723955999999999 19) (.mul (.rd (.var .T)) (.add (.neg (.num 82806905999999995 23)) (.mul (.rd (.var .T)) (.add (.num 1574751 16) (.mul (.neg (.num 10510895000000001 30)) (.rd (.var .T))))))))))),
  .ite (.rd (.var .T)) (.num 1000 0) (.arr .cp 37) (.mul (.num 18890974869174661 14) (.add (.num 22571501999999999 16) (.mul (.rd (.var .T)) (.add (.num 11304728 9) (.mul (.rd (.var .T)) (.add (.neg (.num 13671318999999999 21)) (.mul (.rd (.var .T)) (.add (.num 96819806000000007 25) (.mul (.neg (.num 29307182 19)) (.rd (.var .T))))))))))) (.mul (.num 18890974869174661 14) (.add (.num 48230728999999997 16) (.mul (.rd (.var .T)) (.add (.num 26270250999999999 19) (.mul (.rd (.var .T)) (.add (.neg (.num 95850873999999995 23)) (.mul (.rd (.var .T)) (.add (.num 16000711999999999 26) (.mul (.neg (.num 97752302999999992 31)) (.rd (.var .T))))))))))),
  .ite (.rd (.var .T)) (.num 1000 0) (.arr .cp 38) (.mul (.num 26808669159297972 14) (.add (.num 45334915999999996 16) (.mul (.rd (.var .T)) (.add (.neg (.num 56696170999999997 19)) (.mul (.rd (.var .T)) (.add (.num 18473207 12) (.mul (.rd (.var .T)) (.add (.neg (.num 17137094 15)) (.mul (.num 55454573000000001 28) (.rd (.var .T))))))))))) (.mul (.num 26808669159297972 14) (.add (.num 29792508999999998 16) (.mul (.rd (.var .T)) (.add (.num 34944059000000002 19) (.mul (.rd (.var .T)) (.add (.neg (.num 78549778000000003 23)) (.mul (.rd (.var .T)) (.add (.num 57479594000000003 27) (.mul (.neg (.num 19335916 23)) (.rd (.var .T))))))))))),
  .ite (.rd (.var .T)) (.num 1000 0) (.arr .cp 39) (.mul (.num 31956895948687321 14) (.add (.num 36129351000000001 16) (.mul (.rd (.var .T)) (.add (.neg (.num 95551326999999996 20)) (.mul (.rd (.var .T)) (.add (.num 21442977000000001 22) (.mul (.rd (.var .T)) (.add (.neg (.num 31516322999999999 26)) (.mul (.neg (.num 46430355999999997 29)) (.rd (.var .T))))))))))) (.mul (.num 31956895948687321 14) (.add (.num 37459804999999999 16) (.mul (.rd (.var .T)) (.add (.num 43450774999999999 21) (.mul (.rd (.var .T)) (.add (.num 29705983999999999 23) (.mul (.rd (.var .T)) (.add (.neg (.num 68651805999999999 27)) (.mul (.num 44134173000000003 31) (.rd (.var .T))))))))))),
  .ite (.rd (.var .T)) (.num 1000 0) (.arr .cp 40) (.mul (.num 3076504309974809 13) (.add (.num 22589885999999999 16) (.mul (.rd (.var .T)) (.add (.num 1005117 8) (.mul (.rd (.var .T)) (.add (.neg (.num 13351763 12)) (.mul (.rd (.var .T)) (.add (.num 10092349000000001 24) (.mul (.neg (.num 30089027999999998 28)) (.rd (.var .T))))))))))) (.mul (.num 3076504309974809 13) (.add (.num 38022391999999998 16) (.mul (.rd (.var .T)) (.add (.num 31464228000000001 19) (.mul (.rd (.var .T)) (.add (.neg (.num 10632185 13)) (.mul (.rd (.var .T)) (.add (.num 16619757000000001 26) (.mul (.neg (.num 97997569999999995 31)) (.rd (.var .T))))))))))),
  .ite (.rd (.var .T)) (.num 1000 0) (.arr .cp 41) (.mul (.num 29658895640306179 14) (.add (.num 2851661 6) (.mul (.rd (.var .T)) (.add (.num 56952330999999997 19) (.mul (.rd (.var .T)) (.add (.num 107114 11) (.mul (.rd (.var .T)) (.add (.neg (.num 16226120000000001 25)) (.mul (.neg (.num 23511080999999999 29)) (.rd (.var .T))))))))))) (.mul (.num 29658895640306179 14) (.add (.num 52097030000000002 16) (.mul (.rd (.var .T)) (.add (.num 29692910999999998 19) (.mul (.rd (.var .T)) (.add (.neg (.num 28555890999999999 23)) (.mul (.rd (.var .T)) (.add (.neg (.num 16355500000000001 26)) (.mul (.num 30432588999999997 30) (.rd (.var .T))))))))))),
  .ite (.rd (.var .T)) (.num 1000 0) (.arr .cp 42) (.mul (.num 20263153135983694 14) (.add (.num 25243194 7) (.mul (.rd (.var .T)) (.add (.num 15960618999999999 18) (.mul (.rd (.var .T)) (.add (.neg (.num 18816353999999999 21)) (.mul (.rd (.var .T)) (.add (.num 12125539999999999 24) (.mul (.neg (.num 32357378 19)) (.rd (.var .T))))))))))) (.mul (.num 20263153135983694 14) (.add (.num 58946361999999999 16) (.mul (.rd (.var .T)) (.add (.num 39895959000000002 19) (.mul (.rd (.var .T)) (.add (.neg (.num 1598238 12)) (.mul (.rd (.var .T)) (.add (.num 29249395000000001 26) (.mul (.neg (.num 20094686000000001 30)) (.rd (.var .T))))))))))),
  .ite (.rd (.var .T)) (.num 1382 0) (.arr .cp 43) (.mul (.num 19324687135968139 14) (.add (.num 26472798900000001 16) (.mul (.rd (.var .T)) (.add (.num 127505342 10) (.mul (.rd (.var .T)) (.add (.neg (.num 10479423599999999 21)) (.mul (.rd (.var .T)) (.add (.num 44143283600000001 25) (.mul (.neg (.num 75752146600000001 29)) (.rd (.var .T))))))))))) (.mul (.num 19324687135968139 14) (.add (.num 65986045600000001 16) (.mul (.rd (.var .T)) (.add (.num 302778626 11) (.mul (.rd (.var .T)) (.add (.neg (.num 10770434599999999 22)) (.mul (.rd (.var .T)) (.add (.num 171666528 18) (.mul (.neg (.num 10143939100000001 30)) (.rd (.var .T))))))))))),
  .ite (.rd (.var .T)) (.num 1368 0) (.arr .cp 44) (.mul (.num 19324687135968139 14) (.add (.num 37860495200000002 16) (.mul (.rd (.var .T)) (.add (.num 68866792199999997 19) (.mul (.rd (.var .T)) (.add (.neg (.num 32148786399999999 22)) (.mul (.rd (.var .T)) (.add (.num 51719576699999997 26) (.mul (.num 119360788 22) (.rd (.var .T))))))))))) (.mul (.num 19324687135968139 14) (.add (.num 58978488499999999 16) (.mul (.rd (.var .T)) (.add (.num 31678939299999999 19) (.mul (.rd (.var .T)) (.add (.neg (.num 111801064 14)) (.mul (.rd (.var .T)) (.add (.num 17724314400000001 26) (.mul (.neg (.num 10433917699999999 30)) (.rd (.var .T))))))))))),
  .ite (.rd (.var .T)) (.num 1478 0) (.arr .cp 45) (.mul (.num 19324687135968139 14) (.add (.num 36309631699999998 16) (.mul (.rd (.var .T)) (.add (.num 73028235700000003 19) (.mul (.rd (.var .T)) (.add (.neg (.num 22805000299999999 22)) (.mul (.rd (.var .T)) (.add (.neg (.num 66127129800000005 26)) (.mul (.num 36223575199999999 29) (.rd (.var .T))))))))))) (.mul (.num 19324687135968139 14) (.add (.num 62239513400000002 16) (.mul (.rd (.var .T)) (.add (.num 31786400400000002 19) (.mul (.rd (.var .T)) (.add (.neg (.num 109378755 14)) (.mul (.rd (.var .T)) (.add (.num 170735163 18) (.mul (.neg (.num 99502195499999995 31)) (.rd (.var .T))))))))))),
  .ite (.rd (.var .T)) (.num 1000 0) (.arr .cp 46) (.mul (.num 19788262837499175 14) (.add (.num 28269308 7) (.mul (.rd (.var .T)) (.add (.num 88051688000000006 19) (.mul (.rd (.var .T)) (.add (.neg (.num 83866134000000006 22)) (.mul (.rd (.var .T)) (.add (.num 48016963999999998 25) (.mul (.neg (.num 13313595 19)) (.rd (.var .T))))))))))) (.mul (.num 19788262837499175 14) (.add (.num 51521844999999997 16) (.mul (.rd (.var .T)) (.add (.num 23051761 10) (.mul (.rd (.var .T)) (.add (.neg (.num 88033152999999999 23)) (.mul (.rd (.var .T)) (.add (.num 14789097999999999 26) (.mul (.neg (.num 90977996000000005 31)) (.rd (.var .T))))))))))),
  .ite (.rd (.var .T)) (.num 1000 0) (.arr .cp 47) (.mul (.num 20813212426154001 14) (.add (.num 25 1) (.mul (.rd (.var .T)) (.add (.num 0 0) (.mul (.rd (.var .T)) (.add (.num 0 0) (.mul (.rd (.var .T)) (.add (.num 0 0) (.mul (.num 0 0) (.rd (.var .T))))))))))) (.mul (.num 20813212426154001 14) (.add (.num 25 1) (.mul (.rd (.var .T)) (.add (.num 0 0) (.mul (.rd (.var .T)) (.add (.num 0 0) (.mul (.rd (.var .T)) (.add (.num 0 0) (.mul (.num 0 0) (.rd (.var .T))))))))))),
  .ite (.rd (.var .T)) (.num 1000 0) (.arr .cp 48) (.mul (.num 19296208183235558 14) (.add (.num 10515517999999999 16) (.mul (.rd (.var .T)) (.add (.num 25991980000000001 18) (.mul (.rd (.var .T)) (.add (.num 23800539999999999 22) (.mul (.rd (.var .T)) (.add (.neg (.num 19609569 15)) (.mul (.num 93732469999999993 28) (.rd (.var .T))))))))))) (.mul (.num 19296208183235558 14) (.add (.num 77026987 7) (.mul (.rd (.var .T)) (.add (.num 16044203 9) (.mul (.rd (.var .T)) (.add (.neg (.num 52833220000000001 22)) (.mul (.rd (.var .T)) (.add (.num 7629859 16) (.mul (.neg (.num 39392284000000002 30)) (.rd (.var .T))))))))))),
  .ite (.rd (.var .T)) (.num 1000 0) (.arr .cp 49) (.mul (.num 18855143444426002 14) (.add (.num 93355381000000004 17) (.mul (.rd (.var .T)) (.add (.num 26424579 9) (.mul (.rd (.var .T)) (.add (.num 61059727000000001 22) (.mul (.rd (.var .T)) (.add (.neg (.num 21977498999999999 24)) (.mul (.num 95149252999999994 28) (.rd (.var .T))))))))))) (.mul (.num 18855143444426002 14) (.add (.num 75341367999999997 16) (.mul (.rd (.var .T)) (.add (.num 18872238999999999 18) (.mul (.rd (.var .T)) (.add (.neg (.num 62718490999999996 22)) (.mul (.rd (.var .T)) (.add (.num 91475649000000003 26) (.mul (.neg (.num 47838069000000002 30)) (.rd (.var .T))))))))))),
  .ite (.rd (.var .T)) (.num 1000 0) (.arr .cp 50) (.mul (.num 19315645500243699 14) (.add (.num 3409062 6) (.mul (.rd (.var .T)) (.add (.num 10738574000000001 18) (.mul (.rd (.var .T)) (.add (.num 1891492 12) (.mul (.rd (.var .T)) (.add (.neg (.num 7158583 15)) (.mul (.num 28673849999999999 28) (.rd (.var .T))))))))))) (.mul (.num 19315645500243699 14) (.add (.num 597567 5) (.mul (.rd (.var .T)) (.add (.num 81305909999999995 19) (.mul (.rd (.var .T)) (.add (.neg (.num 27436240000000001 22)) (.mul (.rd (.var .T)) (.add (.num 40703040000000001 26) (.mul (.neg (.num 21760170000000001 30)) (.rd (.var .T))))))))))),
  .ite (.rd (.var .T)) (.num 1000 0) (.arr .cp 51) (.mul (.num 1887370190923875 13) (.add (.num 47294594999999999 16) (.mul (.rd (.var .T)) (.add (.neg (.num 31932858 10)) (.mul (.rd (.var .T)) (.add (.num 47534921000000002 21) (.mul (.rd (.var .T)) (.add (.neg (.num 57458610999999997 24)) (.mul (.num 21931112000000001 27) (.rd (.var .T))))))))))) (.mul (.num 1887370190923875 13) (.add (.num 54041107999999998 16) (.mul (.rd (.var .T)) (.add (.num 11723058999999999 18) (.mul (.rd (.var .T)) (.add (.neg (.num 42263136999999998 22)) (.mul (.rd (.var .T)) (.add (.num 68372451000000002 26) (.mul (.neg (.num 40984863000000001 30)) (.rd (.var .T))))))))))),
  .ite (.rd (.var .T)) (.num 1000 0) (.arr .cp 52) (.mul (.num 29680218594762238 14) (.add (.num 32986770000000001 16) (.mul (.rd (.var .T)) (.add (.num 14082404 10) (.mul (.rd (.var .T)) (.add (.neg (.num 39632219999999998 22)) (.mul (.rd (.var .T)) (.add (.num 56415150000000002 25) (.mul (.neg (.num 24448539999999999 28)) (.rd (.var .T))))))))))) (.mul (.num 29680218594762238 14) (.add (.num 29266399999999999 16) (.mul (.rd (.var .T)) (.add (.num 14879768000000001 19) (.mul (.rd (.var .T)) (.add (.neg (.num 56847600000000001 23)) (.mul (.rd (.var .T)) (.add (.num 10097038 17) (.mul (.neg (.num 67533509999999998 31)) (.rd (.var .T)))))))))))]

/-- utilities/mechanisms/gri30/lib/src/mass_mole.c:8-129 -/
def mole2mass : List CStmt := [
  .set (.var .xN) (.sub (.num 1 0) (.add (.add (.add (.add (.add (.add (.add (.add (.add (.add (.add (.add (.add (.add (.add (.add (.add (.add (.add (.add (.add (.add (.add (.add (.add (.add (.add (.add (.add (.add (.add (.add (.add (.add (.add (.add (.add (.add (.add (.add (.add (.add (.add (.add (.add (.add (.add (.add (.add (.add (.add (.rd (.arr .X 0)) (.rd (.arr .X 1))) (.rd (.arr .X 2))) (.rd (.arr .X 3))) (.rd (.arr .X 4))) (.rd (.arr .X 5))) (.rd (.arr .X 6))) (.rd (.arr .X 7))) (.rd (.arr .X 8))) (.rd (.arr .X 9))) (.rd (.arr .X 10))) (.rd (.arr .X 11))) (.rd (.arr .X 12))) (.rd (.arr .X 13))) (.rd (.arr .X 14))) (.rd (.arr .X 15))) (.rd (.arr .X 16))) (.rd (.arr .X 17))) (.rd (.arr .X 18))) (.rd (.arr .X 19))) (.rd (.arr .X 20))) (.rd (.arr .X 21))) (.rd (.arr .X 22))) (.rd (.arr .X 23))) (.rd (.arr .X 24))) (.rd (.arr .X 25))) (.rd (.arr .X 26))) (.rd (.arr .X 27))) (.rd (.arr .X 28))) (.rd (.arr .X 29))) (.rd (.arr .X 30))) (.rd (.arr .X 31))) (.rd (.arr .X 32))) (.rd (.arr .X 33))) (.rd (.arr .X 34))) (.rd (.arr .X 35))) (.rd (.arr .X 36))) (.rd (.arr .X 37))) (.rd (.arr .X 38))) (.rd (.arr .X 39))) (.rd (.arr .X 40))) (.rd (.arr .X 41))) (.rd (.arr .X 42))) (.rd (.arr .X 43))) (.rd (.arr .X 44))) (.rd (.arr .X 45))) (.rd (.arr .X 46))) (.rd (.arr .X 47))) (.rd (.arr .X 48))) (.rd (.arr .X 49))) (.rd (.arr .X 50))) (.rd (.arr .X 51)))),
  .set (.var .mwAvg) (.num 0 0),
  .set (.var .mwAvg) (.add (.rd (.var .mwAvg)) (.mul (.rd (.arr .X 0)) (.num 20158800000000001 16))),
  .set (.var .mwAvg) (.add (.rd (.var .mwAvg)) (.mul (.rd (.arr .X 1)) (.num 10079400000000001 16))),
  .set (.var .mwAvg) (.add (.rd (.var .mwAvg)) (.mul (.rd (.arr .X 2)) (.num 159994 4))),
  .set (.var .mwAvg) (.add (.rd (.var .mwAvg)) (.mul (.rd (.arr .X 3)) (.num 31998799999999999 15))),
  .set (.var .mwAvg) (.add (.rd (.var .mwAvg)) (.mul (.rd (.arr .X 4)) (.num 17007339999999999 15))),
  .set (.var .mwAvg) (.add (.rd (.var .mwAvg)) (.mul (.rd (.arr .X 5)) (.num 18015280000000001 15))),
  .set (.var .mwAvg) (.add (.rd (.var .mwAvg)) (.mul (.rd (.arr .X 6)) (.num 33006740000000001 15))),
  .set (.var .mwAvg) (.add (.rd (.var .mwAvg)) (.mul (.rd (.arr .X 7)) (.num 34014679999999998 15))),
  .set (.var .mwAvg) (.add (.rd (.var .mwAvg)) (.mul (.rd (.arr .X 8)) (.num 12010999999999999 15))),
  .set (.var .mwAvg) (.add (.rd (.var .mwAvg)) (.mul (.rd (.arr .X 9)) (.num 13018939999999999 15))),
  .set (.var .mwAvg) (.add (.rd (.var .mwAvg)) (.mul (.rd (.arr .X 10)) (.num 14026879999999998 15))),
  .set (.var .mwAvg) (.add (.rd (.var .mwAvg)) (.mul (.rd (.arr .X 11)) (.num 14026879999999998 15))),
  .set (.var .mwAvg) (.add (.rd (.var .mwAvg)) (.mul (.rd (.arr .X 12)) (.num 1503482 5))),
  .set (.var .mwAvg) (.add (.rd (.var .mwAvg)) (.mul (.rd (.arr .X 13)) (.num 16042760000000001 15))),
  .set (.var .mwAvg) (.add (.rd (.var .mwAvg)) (.mul (.rd (.arr .X 14)) (.num 28010399999999997 15))),
  .set (.var .mwAvg) (.add (.rd (.var .mwAvg)) (.mul (.rd (.arr .X 15)) (.num 44009799999999998 15))),
  .set (.var .mwAvg) (.add (.rd (.var .mwAvg)) (.mul (.rd (.arr .X 16)) (.num 29018339999999998 15))),
  .set (.var .mwAvg) (.add (.rd (.var .mwAvg)) (.mul (.rd (.arr .X 17)) (.num 3002628 5))),
  .set (.var .mwAvg) (.add (.rd (.var .mwAvg)) (.mul (.rd (.arr .X 18)) (.num 31034219999999998 15))),
  .set (.var .mwAvg) (.add (.rd (.var .mwAvg)) (.mul (.rd (.arr .X 19)) (.num 31034219999999998 15))),
  .set (.var .mwAvg) (.add (.rd (.var .mwAvg)) (.mul (.rd (.arr .X 20)) (.num 32042159999999996 15))),
  .set (.var .mwAvg) (.add (.rd (.var .mwAvg)) (.mul (.rd (.arr .X 21)) (.num 2502994 5))),
  .set (.var .mwAvg) (.add (.rd (.var .mwAvg)) (.mul (.rd (.arr .X 22)) (.num 26037879999999998 15))),
  .set (.var .mwAvg) (.add (.rd (.var .mwAvg)) (.mul (.rd (.arr .X 23)) (.num 27045819999999999 15))),
  .set (.var .mwAvg) (.add (.rd (.var .mwAvg)) (.mul (.rd (.arr .X 24)) (.num 28053759999999997 15))),
  .set (.var .mwAvg) (.add (.rd (.var .mwAvg)) (.mul (.rd (.arr .X 25)) (.num 29061699999999998 15))),
  .set (.var .mwAvg) (.add (.rd (.var .mwAvg)) (.mul (.rd (.arr .X 26)) (.num 3006964 5))),
  .set (.var .mwAvg) (.add (.rd (.var .mwAvg)) (.mul (.rd (.arr .X 27)) (.num 41029339999999998 15))),
  .set (.var .mwAvg) (.add (.rd (.var .mwAvg)) (.mul (.rd (.arr .X 28)) (.num 42037279999999996 15))),
  .set (.var .mwAvg) (.add (.rd (.var .mwAvg)) (.mul (.rd (.arr .X 29)) (.num 42037279999999996 15))),
  .set (.var .mwAvg) (.add (.rd (.var .mwAvg)) (.mul (.rd (.arr .X 30)) (.num 14006740000000001 15))),
  .set (.var .mwAvg) (.add (.rd (.var .mwAvg)) (.mul (.rd (.arr .X 31)) (.num 1501468 5))),
  .set (.var .mwAvg) (.add (.rd (.var .mwAvg)) (.mul (.rd (.arr .X 32)) (.num 1602262 5))),
  .set (.var .mwAvg) (.add (.rd (.var .mwAvg)) (.mul (.rd (.arr .X 33)) (.num 17030560000000001 15))),
  .set (.var .mwAvg) (.add (.rd (.var .mwAvg)) (.mul (.rd (.arr .X 34)) (.num 29021420000000003 15))),
  .set (.var .mwAvg) (.add (.rd (.var .mwAvg)) (.mul (.rd (.arr .X 35)) (.num 30006140000000002 15))),
  .set (.var .mwAvg) (.add (.rd (.var .mwAvg)) (.mul (.rd (.arr .X 36)) (.num 46005539999999996 15))),
  .set (.var .mwAvg) (.add (.rd (.var .mwAvg)) (.mul (.rd (.arr .X 37)) (.num 44012880000000003 15))),
  .set (.var .mwAvg) (.add (.rd (.var .mwAvg)) (.mul (.rd (.arr .X 38)) (.num 3101408 5))),
  .set (.var .mwAvg) (.add (.rd (.var .mwAvg)) (.mul (.rd (.arr .X 39)) (.num 2601774 5))),
  .set (.var .mwAvg) (.add (.rd (.var .mwAvg)) (.mul (.rd (.arr .X 40)) (.num 27025680000000001 15))),
  .set (.var .mwAvg) (.add (.rd (.var .mwAvg)) (.mul (.rd (.arr .X 41)) (.num 28033619999999999 15))),
  .set (.var .mwAvg) (.add (.rd (.var .mwAvg)) (.mul (.rd (.arr .X 42)) (.num 41032420000000002 15))),
  .set (.var .mwAvg) (.add (.rd (.var .mwAvg)) (.mul (.rd (.arr .X 43)) (.num 43025080000000003 15))),
  .set (.var .mwAvg) (.add (.rd (.var .mwAvg)) (.mul (.rd (.arr .X 44)) (.num 43025080000000003 15))),
  .set (.var .mwAvg) (.add (.rd (.var .mwAvg)) (.mul (.rd (.arr .X 45)) (.num 43025080000000003 15))),
  .set (.var .mwAvg) (.add (.rd (.var .mwAvg)) (.mul (.rd (.arr .X 46)) (.num 42017139999999998 15))),
  .set (.var .mwAvg) (.add (.rd (.var .mwAvg)) (.mul (.rd (.arr .X 47)) (.num 39948 3))),
  .set (.var .mwAvg) (.add (.rd (.var .mwAvg)) (.mul (.rd (.arr .X 48)) (.num 4308858 5))),
  .set (.var .mwAvg) (.add (.rd (.var .mwAvg)) (.mul (.rd (.arr .X 49)) (.num 44096519999999998 15))),
  .set (.var .mwAvg) (.add (.rd (.var .mwAvg)) (.mul (.rd (.arr .X 50)) (.num 4304522 5))),
  .set (.var .mwAvg) (.add (.rd (.var .mwAvg)) (.mul (.rd (.arr .X 51)) (.num 44053159999999998 15))),
  .set (.var .mwAvg) (.add (.rd (.var .mwAvg)) (.mul (.rd (.var .xN)) (.num 28013480000000001 15))),
  .set (.arr .Y 0) (.div (.mul (.rd (.arr .X 0)) (.num 20158800000000001 16)) (.rd (.var .mwAvg))),
  .set (.arr .Y 1) (.div (.mul (.rd (.arr .X 1)) (.num 10079400000000001 16)) (.rd (.var .mwAvg))),
  .set (.arr .Y 2) (.div (.mul (.rd (.arr .X 2)) (.num 159994 4)) (.rd (.var .mwAvg))),
  .set (.arr .Y 3) (.div (.mul (.rd (.arr .X 3)) (.num 31998799999999999 15)) (.rd (.var .mwAvg))),
  .set (.arr .Y 4) (.div (.mul (.rd (.arr .X 4)) (.num 17007339999999999 15)) (.rd (.var .mwAvg))),
  .set (.arr .Y 5) (.div (.mul (.rd (.arr .X 5)) (.num 18015280000000001 15)) (.rd (.var .mwAvg))),
  .set (.arr .Y 6) (.div (.mul (.rd (.arr .X 6)) (.num 33006740000000001 15)) (.rd (.var .mwAvg))),
  .set (.arr .Y 7) (.div (.mul (.rd (.arr .X 7)) (.num 34014679999999998 15)) (.rd (.var .mwAvg))),
  .set (.arr .Y 8) (.div (.mul (.rd (.arr .X 8)) (.num 12010999999999999 15)) (.rd (.var .mwAvg))),
  .set (.arr .Y 9) (.div (.mul (.rd (.arr .X 9)) (.num 13018939999999999 15)) (.rd (.var .mwAvg))),
  .set (.arr .Y 10) (.div (.mul (.rd (.arr .X 10)) (.num 14026879999999998 15)) (.rd (.var .mwAvg))),
  .set (.arr .Y 11) (.div (.mul (.rd (.arr .X 11)) (.num 14026879999999998 15)) (.rd (.var .mwAvg))),
  .set (.arr .Y 12) (.div (.mul (.rd (.arr .X 12)) (.num 1503482 5)) (.rd (.var .mwAvg))),
  .set (.arr .Y 13) (.div (.mul (.rd (.arr .X 13)) (.num 16042760000000001 15)) (.rd (.var .mwAvg))),
  .set (.arr .Y 14) (.div (.mul (.rd (.arr .X 14)) (.num 28010399999999997 15)) (.rd (.var .mwAvg))),
  .set (.arr .Y 15) (.div (.mul (.rd (.arr .X 15)) (.num 44009799999999998 15)) (.rd (.var .mwAvg))),
  .set (.arr .Y 16) (.div (.mul (.rd (.arr .X 16)) (.num 29018339999999998 15)) (.rd (.var .mwAvg))),
  .set (.arr .Y 17) (.div (.mul (.rd (.arr .X 17)) (.num 3002628 5)) (.rd (.var .mwAvg))),
  .set (.arr .Y 18) (.div (.mul (.rd (.arr .X 18)) (.num 31034219999999998 15)) (.rd (.var .mwAvg))),
  .set (.arr .Y 19) (.div (.mul (.rd (.arr .X 19)) (.num 31034219999999998 15)) (.rd (.var .mwAvg))),
  .set (.arr .Y 20) (.div (.mul (.rd (.arr .X 20)) (.num 32042159999999996 15)) (.rd (.var .mwAvg))),
  .set (.arr .Y 21) (.div (.mul (.rd (.arr .X 21)) (.num 2502994 5)) (.rd (.var .mwAvg))),
  .set (.arr .Y 22) (.div (.mul (.rd (.arr .X 22)) (.num 26037879999999998 15)) (.rd (.var .mwAvg))),
  .set (.arr .Y 23) (.div (.mul (.rd (.arr .X 23)) (.num 27045819999999999 15)) (.rd (.var .mwAvg))),
  .set (.arr .Y 24) (.div (.mul (.rd (.arr .X 24)) (.num 28053759999999997 15)) (.rd (.var .mwAvg))),
  .set (.arr .Y 25) (.div (.mul (.rd (.arr .X 25)) (.num 29061699999999998 15)) (.rd (.var .mwAvg))),
  .set (.arr .Y 26) (.div (.mul (.rd (.arr .X 26)) (.num 3006964 5)) (.rd (.var .mwAvg))),
  .set (.arr .Y 27) (.div (.mul (.rd (.arr .X 27)) (.num 41029339999999998 15)) (.rd (.var .mwAvg))),
  .set (.arr .Y 28) (.div (.mul (.rd (.arr .X 28)) (.num 42037279999999996 15)) (.rd (.var .mwAvg))),
  .set (.arr .Y 29) (.div (.mul (.rd (.arr .X 29)) (.num 42037279999999996 15)) (.rd (.var .mwAvg))),
  .set (.arr .Y 30) (.div (.mul (.rd (.arr .X 30)) (.num 14006740000000001 15)) (.rd (.var .mwAvg))),
  .set (.arr .Y 31) (.div (.mul (.rd (.arr .X 31)) (.num 1501468 5)) (.rd (.var .mwAvg))),
  .set (.arr .Y 32) (.div (.mul (.rd (.arr .X 32)) (.num 1602262 5)) (.rd (.var .mwAvg))),
  .set (.arr .Y 33) (.div (.mul (.rd (.arr .X 33)) (.num 17030560000000001 15)) (.rd (.var .mwAvg))),
  .set (.arr .Y 34) (.div (.mul (.rd (.arr .X 34)) (.num 29021420000000003 15)) (.rd (.var .mwAvg))),
  .set (.arr .Y 35) (.div (.mul (.rd (.arr .X 35)) (.num 30006140000000002 15)) (.rd (.var .mwAvg))),
  .set (.arr .Y 36) (.div (.mul (.rd (.arr .X 36)) (.num 46005539999999996 15)) (.rd (.var .mwAvg))),
  .set (.arr .Y 37) (.div (.mul (.rd (.arr .X 37)) (.num 44012880000000003 15)) (.rd (.var .mwAvg))),
  .set (.arr .Y 38) (.div (.mul (.rd (.arr .X 38)) (.num 3101408 5)) (.rd (.var .mwAvg))),
  .set (.arr .Y 39) (.div (.mul (.rd (.arr .X 39)) (.num 2601774 5)) (.rd (.var .mwAvg))),
  .set (.arr .Y 40) (.div (.mul (.rd (.arr .X 40)) (.num 27025680000000001 15)) (.rd (.var .mwAvg))),
  .set (.arr .Y 41) (.div (.mul (.rd (.arr .X 41)) (.num 28033619999999999 15)) (.rd (.var .mwAvg))),
  .set (.arr .Y 42) (.div (.mul (.rd (.arr .X 42)) (.num 41032420000000002 15)) (.rd (.var .mwAvg))),
  .set (.arr .Y 43) (.div (.mul (.rd (.arr .X 43)) (.num 43025080000000003 15)) (.rd (.var .mwAvg))),
  .set (.arr .Y 44) (.div (.mul (.rd (.arr .X 44)) (.num 43025080000000003 15)) (.rd (.var .mwAvg))),
  .set (.arr .Y 45) (.div (.mul (.rd (.arr .X 45)) (.num 43025080000000003 15)) (.rd (.var .mwAvg))),
  .set (.arr .Y 46) (.div (.mul (.rd (.arr .X 46)) (.num 42017139999999998 15)) (.rd (.var .mwAvg))),
  .set (.arr .Y 47) (.div (.mul (.rd (.arr .X 47)) (.num 39948 3)) (.rd (.var .mwAvg))),
  .set (.arr .Y 48) (.div (.mul (.rd (.arr .X 48)) (.num 4308858 5)) (.rd (.var .mwAvg))),
  .set (.arr .Y 49) (.div (.mul (.rd (.arr .X 49)) (.num 44096519999999998 15)) (.rd (.var .mwAvg))),
  .set (.arr .Y 50) (.div (.mul (.rd (.arr .X 50)) (.num 4304522 5)) (.rd (.var .mwAvg))),
  .set (.arr .Y 51) (.div (.mul (.rd (.arr .X 51)) (.num 44053159999999998 15)) (.rd (.var .mwAvg)))]

/-- utilities/mechanisms/gri30/lib/src/mass_mole.c:136-258 -/
def mass2mole : List CStmt := [
  .set (.var .yN) (.sub (.num 1 0) (.add (.add (.add (.add (.add (.add (.add (.add (.add (.add (.add (.add (.add (.add (.add (.add (.add (.add (.add (.add (.add (.add (.add (.add (.add (.add (.add (.add (.add (.add (.add (.add (.add (.add (.add (.add (.add (.add (.add (.add (.add (.add (.add (.add (.add (.add (.add (.add (.add (.add (.add (.rd (.arr .Y 0)) (.rd (.arr .Y 1))) (.rd (.arr .Y 2))) (.rd (.arr .Y 3))) (.rd (.arr .Y 4))) (.rd (.arr .Y 5))) (.rd (.arr .Y 6))) (.rd (.arr .Y 7))) (.rd (.arr .Y 8))) (.rd (.arr .Y 9))) (.rd (.arr .Y 10))) (.rd (.arr .Y 11))) (.rd (.arr .Y 12))) (.rd (.arr .Y 13))) (.rd (.arr .Y 14))) (.rd (.arr .Y 15))) (.rd (.arr .Y 16))) (.rd (.arr .Y 17))) (.rd (.arr .Y 18))) (.rd (.arr .Y 19))) (.rd (.arr .Y 20))) (.rd (.arr .Y 21))) (.rd (.arr .Y 22))) (.rd (.arr .Y 23))) (.rd (.arr .Y 24))) (.rd (.arr .Y 25))) (.rd (.arr .Y 26))) (.rd (.arr .Y 27))) (.rd (.arr .Y 28))) (.rd (.arr .Y 29))) (.rd (.arr .Y 30))) (.rd (.arr .Y 31))) (.rd (.arr .Y 32))) (.rd (.arr .Y 33))) (.rd (.arr .Y 34))) (.rd (.arr .Y 35))) (.rd (.arr .Y 36))) (.rd (.arr .Y 37))) (.rd (.arr .Y 38))) (.rd (.arr .Y 39))) (.rd (.arr .Y 40))) (.rd (.arr .Y 41))) (.rd (.arr .Y 42))) (.rd (.arr .Y 43))) (.rd (.arr .Y 44))) (.rd (.arr .Y 45))) (.rd (.arr .Y 46))) (.rd (.arr .Y 47))) (.rd (.arr .Y 48))) (.rd (.arr .Y 49))) (.rd (.arr .Y 50))) (.rd (.arr .Y 51)))),
  .set (.var .mwAvg) (.num 0 0),
  .set (.var .mwAvg) (.add (.rd (.var .mwAvg)) (.div (.rd (.arr .Y 0)) (.num 20158800000000001 16))),
  .set (.var .mwAvg) (.add (.rd (.var .mwAvg)) (.div (.rd (.arr .Y 1)) (.num 10079400000000001 16))),
  .set (.var .mwAvg) (.add (.rd (.var .mwAvg)) (.div (.rd (.arr .Y 2)) (.num 159994 4))),
  .set (.var .mwAvg) (.add (.rd (.var .mwAvg)) (.div (.rd (.arr .Y 3)) (.num 31998799999999999 15))),
  .set (.var .mwAvg) (.add (.rd (.var .mwAvg)) (.div (.rd (.arr .Y 4)) (.num 17007339999999999 15))),
  .set (.var .mwAvg) (.add (.rd (.var .mwAvg)) (.div (.rd (.arr .Y 5)) (.num 18015280000000001 15))),
  .set (.var .mwAvg) (.add (.rd (.var .mwAvg)) (.div (.rd (.arr .Y 6)) (.num 33006740000000001 15))),
  .set (.var .mwAvg) (.add (.rd (.var .mwAvg)) (.div (.rd (.arr .Y 7)) (.num 34014679999999998 15))),
  .set (.var .mwAvg) (.add (.rd (.var .mwAvg)) (.div (.rd (.arr .Y 8)) (.num 12010999999999999 15))),
  .set (.var .mwAvg) (.add (.rd (.var .mwAvg)) (.div (.rd (.arr .Y 9)) (.num 13018939999999999 15))),
  .set (.var .mwAvg) (.add (.rd (.var .mwAvg)) (.div (.rd (.arr .Y 10)) (.num 14026879999999998 15))),
  .set (.var .mwAvg) (.add (.rd (.var .mwAvg)) (.div (.rd (.arr .Y 11)) (.num 14026879999999998 15))),
  .set (.var .mwAvg) (.add (.rd (.var .mwAvg)) (.div (.rd (.arr .Y 12)) (.num 1503482 5))),
  .set (.var .mwAvg) (.add (.rd (.var .mwAvg)) (.div (.rd (.arr .Y 13)) (.num 16042760000000001 15))),
  .set (.var .mwAvg) (.add (.rd (.var .mwAvg)) (.div (.rd (.arr .Y 14)) (.num 28010399999999997 15))),
  .set (.var .mwAvg) (.add (.rd (.var .mwAvg)) (.div (.rd (.arr .Y 15)) (.num 44009799999999998 15))),
  .set (.var .mwAvg) (.add (.rd (.var .mwAvg)) (.div (.rd (.arr .Y 16)) (.num 29018339999999998 15))),
  .set (.var .mwAvg) (.add (.rd (.var .mwAvg)) (.div (.rd (.arr .Y 17)) (.num 3002628 5))),
  .set (.var .mwAvg) (.add (.rd (.var .mwAvg)) (.div (.rd (.arr .Y 18)) (.num 31034219999999998 15))),
  .set (.var .mwAvg) (.add (.rd (.var .mwAvg)) (.div (.rd (.arr .Y 19)) (.num 31034219999999998 15))),
  .set (.var .mwAvg) (.add (.rd (.var .mwAvg)) (.div (.rd (.arr .Y 20)) (.num 32042159999999996 15))),
  .set (.var .mwAvg) (.add (.rd (.var .mwAvg)) (.div (.rd (.arr .Y 21)) (.num 2502994 5))),
  .set (.var .mwAvg) (.add (.rd (.var .mwAvg)) (.div (.rd (.arr .Y 22)) (.num 26037879999999998 15))),
  .set (.var .mwAvg) (.add (.rd (.var .mwAvg)) (.div (.rd (.arr .Y 23)) (.num 27045819999999999 15))),
  .set (.var .mwAvg) (.add (.rd (.var .mwAvg)) (.div (.rd (.arr .Y 24)) (.num 28053759999999997 15))),
  .set (.var .mwAvg) (.add (.rd (.var .mwAvg)) (.div (.rd (.arr .Y 25)) (.num 29061699999999998 15))),
  .set (.var .mwAvg) (.add (.rd (.var .mwAvg)) (.div (.rd (.arr .Y 26)) (.num 3006964 5))),
  .set (.var .mwAvg) (.add (.rd (.var .mwAvg)) (.div (.rd (.arr .Y 27)) (.num 41029339999999998 15))),
  .set (.var .mwAvg) (.add (.rd (.var .mwAvg)) (.div (.rd (.arr .Y 28)) (.num 42037279999999996 15))),
  .set (.var .mwAvg) (.add (.rd (.var .mwAvg)) (.div (.rd (.arr .Y 29)) (.num 42037279999999996 15))),
  .set (.var .mwAvg) (.add (.rd (.var .mwAvg)) (.div (.rd (.arr .Y 30)) (.num 14006740000000001 15))),
  .set (.var .mwAvg) (.add (.rd (.var .mwAvg)) (.div (.rd (.arr .Y 31)) (.num 1501468 5))),
  .set (.var .mwAvg) (.add (.rd (.var .mwAvg)) (.div (.rd (.arr .Y 32)) (.num 1602262 5))),
  .set (.var .mwAvg) (.add (.rd (.var .mwAvg)) (.div (.rd (.arr .Y 33)) (.num 17030560000000001 15))),
  .set (.var .mwAvg) (.add (.rd (.var .mwAvg)) (.div (.rd (.arr .Y 34)) (.num 29021420000000003 15))),
  .set (.var .mwAvg) (.add (.rd (.var .mwAvg)) (.div (.rd (.arr .Y 35)) (.num 30006140000000002 15))),
  .set (.var .mwAvg) (.add (.rd (.var .mwAvg)) (.div (.rd (.arr .Y 36)) (.num 46005539999999996 15))),
  .set (.var .mwAvg) (.add (.rd (.var .mwAvg)) (.div (.rd (.arr .Y 37)) (.num 44012880000000003 15))),
  .set (.var .mwAvg) (.add (.rd (.var .mwAvg)) (.div (.rd (.arr .Y 38)) (.num 3101408 5))),
  .set (.var .mwAvg) (.add (.rd (.var .mwAvg)) (.div (.rd (.arr .Y 39)) (.num 2601774 5))),
  .set (.var .mwAvg) (.add (.rd (.var .mwAvg)) (.div (.rd (.arr .Y 40)) (.num 27025680000000001 15))),
  .set (.var .mwAvg) (.add (.rd (.var .mwAvg)) (.div (.rd (.arr .Y 41)) (.num 28033619999999999 15))),
  .set (.var .mwAvg) (.add (.rd (.var .mwAvg)) (.div (.rd (.arr .Y 42)) (.num 41032420000000002 15))),
  .set (.var .mwAvg) (.add (.rd (.var .mwAvg)) (.div (.rd (.arr .Y 43)) (.num 43025080000000003 15))),
  .set (.var .mwAvg) (.add (.rd (.var .mwAvg)) (.div (.rd (.arr .Y 44)) (.num 43025080000000003 15))),
  .set (.var .mwAvg) (.add (.rd (.var .mwAvg)) (.div (.rd (.arr .Y 45)) (.num 43025080000000003 15))),
  .set (.var .mwAvg) (.add (.rd (.var .mwAvg)) (.div (.rd (.arr .Y 46)) (.num 42017139999999998 15))),
  .set (.var .mwAvg) (.add (.rd (.var .mwAvg)) (.div (.rd (.arr .Y 47)) (.num 39948 3))),
  .set (.var .mwAvg) (.add (.rd (.var .mwAvg)) (.div (.rd (.arr .Y 48)) (.num 4308858 5))),
  .set (.var .mwAvg) (.add (.rd (.var .mwAvg)) (.div (.rd (.arr .Y 49)) (.num 44096519999999998 15))),
  .set (.var .mwAvg) (.add (.rd (.var .mwAvg)) (.div (.rd (.arr .Y 50)) (.num 4304522 5))),
  .set (.var .mwAvg) (.add (.rd (.var .mwAvg)) (.div (.rd (.arr .Y 51)) (.num 44053159999999998 15))),
  .set (.var .mwAvg) (.add (.rd (.var .mwAvg)) (.div (.rd (.var .yN)) (.num 28013480000000001 15))),
  .set (.var .mwAvg) (.div (.num 1 0) (.rd (.var .mwAvg))),
  .set (.arr .X 0) (.div (.mul (.rd (.arr .Y 0)) (.rd (.var .mwAvg))) (.num 20158800000000001 16)),
  .set (.arr .X 1) (.div (.mul (.rd (.arr .Y 1)) (.rd (.var .mwAvg))) (.num 10079400000000001 16)),
  .set (.arr .X 2) (.div (.mul (.rd (.arr .Y 2)) (.rd (.var .mwAvg))) (.num 159994 4)),
  .set (.arr .X 3) (.div (.mul (.rd (.arr .Y 3)) (.rd (.var .mwAvg))) (.num 31998799999999999 15)),
  .set (.arr .X 4) (.div (.mul (.rd (.arr .Y 4)) (.rd (.var .mwAvg))) (.num 17007339999999999 15)),
  .set (.arr .X 5) (.div (.mul (.rd (.arr .Y 5)) (.rd (.var .mwAvg))) (.num 18015280000000001 15)),
  .set (.arr .X 6) (.div (.mul (.rd (.arr .Y 6)) (.rd (.var .mwAvg))) (.num 33006740000000001 15)),
  .set (.arr .X 7) (.div (.mul (.rd (.arr .Y 7)) (.rd (.var .mwAvg))) (.num 34014679999999998 15)),
  .set (.arr .X 8) (.div (.mul (.rd (.arr .Y 8)) (.rd (.var .mwAvg))) (.num 12010999999999999 15)),
  .set (.arr .X 9) (.div (.mul (.rd (.arr .Y 9)) (.rd (.var .mwAvg))) (.num 13018939999999999 15)),
  .set (.arr .X 10) (.div (.mul (.rd (.arr .Y 10)) (.rd (.var .mwAvg))) (.num 14026879999999998 15)),
  .set (.arr .X 11) (.div (.mul (.rd (.arr .Y 11)) (.rd (.var .mwAvg))) (.num 14026879999999998 15)),
  .set (.arr .X 12) (.div (.mul (.rd (.arr .Y 12)) (.rd (.var .mwAvg))) (.num 1503482 5)),
  .set (.arr .X 13) (.div (.mul (.rd (.arr .Y 13)) (.rd (.var .mwAvg))) (.num 16042760000000001 15)),
  .set (.arr .X 14) (.div (.mul (.rd (.arr .Y 14)) (.rd (.var .mwAvg))) (.num 28010399999999997 15)),
  .set (.arr .X 15) (.div (.mul (.rd (.arr .Y 15)) (.rd (.var .mwAvg))) (.num 44009799999999998 15)),
  .set (.arr .X 16) (.div (.mul (.rd (.arr .Y 16)) (.rd (.var .mwAvg))) (.num 29018339999999998 15)),
  .set (.arr .X 17) (.div (.mul (.rd (.arr .Y 17)) (.rd (.var .mwAvg))) (.num 3002628 5)),
  .set (.arr .X 18) (.div (.mul (.rd (.arr .Y 18)) (.rd (.var .mwAvg))) (.num 31034219999999998 15)),
  .set (.arr .X 19) (.div (.mul (.rd (.arr .Y 19)) (.rd (.var .mwAvg))) (.num 31034219999999998 15)),
  .set (.arr .X 20) (.div (.mul (.rd (.arr .Y 20)) (.rd (.var .mwAvg))) (.num 32042159999999996 15)),
  .set (.arr .X 21) (.div (.mul (.rd (.arr .Y 21)) (.rd (.var .mwAvg))) (.num 2502994 5)),
  .set (.arr .X 22) (.div (.mul (.rd (.arr .Y 22)) (.rd (.var .mwAvg))) (.num 26037879999999998 15)),
  .set (.arr .X 23) (.div (.mul (.rd (.arr .Y 23)) (.rd (.var .mwAvg))) (.num 27045819999999999 15)),
  .set (.arr .X 24) (.div (.mul (.rd (.arr .Y 24)) (.rd (.var .mwAvg))) (.num 28053759999999997 15)),
  .set (.arr .X 25) (.div (.mul (.rd (.arr .Y 25)) (.rd (.var .mwAvg))) (.num 29061699999999998 15)),
  .set (.arr .X 26) (.div (.mul (.rd (.arr .Y 26)) (.rd (.var .mwAvg))) (.num 3006964 5)),
  .set (.arr .X 27) (.div (.mul (.rd (.arr .Y 27)) (.rd (.var .mwAvg))) (.num 41029339999999998 15)),
  .set (.arr .X 28) (.div (.mul (.rd (.arr .Y 28)) (.rd (.var .mwAvg))) (.num 42037279999999996 15)),
  .set (.arr .X 29) (.div (.mul (.rd (.arr .Y 29)) (.rd (.var .mwAvg))) (.num 42037279999999996 15)),
  .set (.arr .X 30) (.div (.mul (.rd (.arr .Y 30)) (.rd (.var .mwAvg))) (.num 14006740000000001 15)),
  .set (.arr .X 31) (.div (.mul (.rd (.arr .Y 31)) (.rd (.var .mwAvg))) (.num 1501468 5)),
  .set (.arr .X 32) (.div (.mul (.rd (.arr .Y 32)) (.rd (.var .mwAvg))) (.num 1602262 5)),
  .set (.arr .X 33) (.div (.mul (.rd (.arr .Y 33)) (.rd (.var .mwAvg))) (.num 17030560000000001 15)),
  .set (.arr .X 34) (.div (.mul (.rd (.arr .Y 34)) (.rd (.var .mwAvg))) (.num 29021420000000003 15)),
  .set (.arr .X 35) (.div (.mul (.rd (.arr .Y 35)) (.rd (.var .mwAvg))) (.num 30006140000000002 15)),
  .set (.arr .X 36) (.div (.mul (.rd (.arr .Y 36)) (.rd (.var .mwAvg))) (.num 46005539999999996 15)),
  .set (.arr .X 37) (.div (.mul (.rd (.arr .Y 37)) (.rd (.var .mwAvg))) (.num 44012880000000003 15)),
  .set (.arr .X 38) (.div (.mul (.rd (.arr .Y 38)) (.rd (.var .mwAvg))) (.num 3101408 5)),
  .set (.arr .X 39) (.div (.mul (.rd (.arr .Y 39)) (.rd (.var .mwAvg))) (.num 2601774 5)),
  .set (.arr .X 40) (.div (.mul (.rd (.arr .Y 40)) (.rd (.var .mwAvg))) (.num 27025680000000001 15)),
  .set (.arr .X 41) (.div (.mul (.rd (.arr .Y 41)) (.rd (.var .mwAvg))) (.num 28033619999999999 15)),
  .set (.arr .X 42) (.div (.mul (.rd (.arr .Y 42)) (.rd (.var .mwAvg))) (.num 41032420000000002 15)),
  .set (.arr .X 43) (.div (.mul (.rd (.arr .Y 43)) (.rd (.var .mwAvg))) (.num 43025080000000003 15)),
  .set (.arr .X 44) (.div (.mul (.rd (.arr .Y 44)) (.rd (.var .mwAvg))) (.num 43025080000000003 15)),
  .set (.arr .X 45) (.div (.mul (.rd (.arr .Y 45)) (.rd (.var .mwAvg))) (.num 43025080000000003 15)),
  .set (.arr .X 46) (.div (.mul (.rd (.arr .Y 46)) (.rd (.var .mwAvg))) (.num 42017139999999998 15)),
  .set (.arr .X 47) (.div (.mul (.rd (.arr .Y 47)) (.rd (.var .mwAvg))) (.num 39948 3)),
  .set (.arr .X 48) (.div (.mul (.rd (.arr .Y 48)) (.rd (.var .mwAvg))) (.num 4308858 5)),
  .set (.arr .X 49) (.div (.mul (.rd (.arr .Y 49)) (.rd (.var .mwAvg))) (.num 44096519999999998 15)),
  .set (.arr .X 50) (.div (.mul (.rd (.arr .Y 50)) (.rd (.var .mwAvg))) (.num 4304522 5)),
  .set (.arr .X 51) (.div (.mul (.rd (.arr .Y 51)) (.rd (.var .mwAvg))) (.num 44053159999999998 15))]

/-- utilities/mechanisms/gri30/lib/src/mass_mole.c:267-333 -/
def getDensity : List CStmt := [
  .set (.var .xN) (.sub (.num 1 0) (.add (.add (.add (.add (.add (.add (.add (.add (.add (.add (.add (.add (.add (.add (.add (.add (.add (.add (.add (.add (.add (.add (.add (.add (.add (.add (.add (.add (.add (.add (.add (.add (.add (.add (.add (.add (.add (.add (.add (.add (.add (.add (.add (.add (.add (.add (.add (.add (.add (.add (.add (.rd (.arr .X 0)) (.rd (.arr .X 1))) (.rd (.arr .X 2))) (.rd (.arr .X 3))) (.rd (.arr .X 4))) (.rd (.arr .X 5))) (.rd (.arr .X 6))) (.rd (.arr .X 7))) (.rd (.arr .X 8))) (.rd (.arr .X 9))) (.rd (.arr .X 10))) (.rd (.arr .X 11))) (.rd (.arr .X 12))) (.rd (.arr .X 13))) (.rd (.arr .X 14))) (.rd (.arr .X 15))) (.rd (.arr .X 16))) (.rd (.arr .X 17))) (.rd (.arr .X 18))) (.rd (.arr .X 19))) (.rd (.arr .X 20))) (.rd (.arr .X 21))) (.rd (.arr .X 22))) (.rd (.arr .X 23))) (.rd (.arr .X 24))) (.rd (.arr .X 25))) (.rd (.arr .X 26))) (.rd (.arr .X 27))) (.rd (.arr .X 28))) (.rd (.arr .X 29))) (.rd (.arr .X 30))) (.rd (.arr .X 31))) (.rd (.arr .X 32))) (.rd (.arr .X 33))) (.rd (.arr .X 34))) (.rd (.arr .X 35))) (.rd (.arr .X 36))) (.rd (.arr .X 37))) (.rd (.arr .X 38))) (.rd (.arr .X 39))) (.rd (.arr .X 40))) (.rd (.arr .X 41))) (.rd (.arr .X 42))) (.rd (.arr .X 43))) (.rd (.arr .X 44))) (.rd (.arr .X 45))) (.rd (.arr .X 46))) (.rd (.arr .X 47))) (.rd (.arr .X 48))) (.rd (.arr .X 49))) (.rd (.arr .X 50))) (.rd (.arr .X 51)))),
  .set (.var .mwAvg) (.num 0 0),
  .set (.var .mwAvg) (.add (.rd (.var .mwAvg)) (.mul (.rd (.arr .X 0)) (.num 20158800000000001 16))),
  .set (.var .mwAvg) (.add (.rd (.var .mwAvg)) (.mul (.rd (.arr .X 1)) (.num 10079400000000001 16))),
  .set (.var .mwAvg) (.add (.rd (.var .mwAvg)) (.mul (.rd (.arr .X 2)) (.num 159994 4))),
  .set (.var .mwAvg) (.add (.rd (.var .mwAvg)) (.mul (.rd (.arr .X 3)) (.num 31998799999999999 15))),
  .set (.var .mwAvg) (.add (.rd (.var .mwAvg)) (.mul (.rd (.arr .X 4)) (.num 17007339999999999 15))),
  .set (.var .mwAvg) (.add (.rd (.var .mwAvg)) (.mul (.rd (.arr .X 5)) (.num 18015280000000001 15))),
  .set (.var .mwAvg) (.add (.rd (.var .mwAvg)) (.mul (.rd (.arr .X 6)) (.num 33006740000000001 15))),
  .set (.var .mwAvg) (.add (.rd (.var .mwAvg)) (.mul (.rd (.arr .X 7)) (.num 34014679999999998 15))),
  .set (.var .mwAvg) (.add (.rd (.var .mwAvg)) (.mul (.rd (.arr .X 8)) (.num 12010999999999999 15))),
  .set (.var .mwAvg) (.add (.rd (.var .mwAvg)) (.mul (.rd (.arr .X 9)) (.num 13018939999999999 15))),
  .set (.var .mwAvg) (.add (.rd (.var .mwAvg)) (.mul (.rd (.arr .X 10)) (.num 14026879999999998 15))),
  .set (.var .mwAvg) (.add (.rd (.var .mwAvg)) (.mul (.rd (.arr .X 11)) (.num 14026879999999998 15))),
  .set (.var .mwAvg) (.add (.rd (.var .mwAvg)) (.mul (.rd (.arr .X 12)) (.num 1503482 5))),
  .set (.var .mwAvg) (.add (.rd (.var .mwAvg)) (.mul (.rd (.arr .X 13)) (.num 16042760000000001 15))),
  .set (.var .mwAvg) (.add (.rd (.var .mwAvg)) (.mul (.rd (.arr .X 14)) (.num 28010399999999997 15))),
  .set (.var .mwAvg) (.add (.rd (.var .mwAvg)) (.mul (.rd (.arr .X 15)) (.num 44009799999999998 15))),
  .set (.var .mwAvg) (.add (.rd (.var .mwAvg)) (.mul (.rd (.arr .X 16)) (.num 29018339999999998 15))),
  .set (.var .mwAvg) (.add (.rd (.var .mwAvg)) (.mul (.rd (.arr .X 17)) (.num 3002628 5))),
  .set (.var .mwAvg) (.add (.rd (.var .mwAvg)) (.mul (.rd (.arr .X 18)) (.num 31034219999999998 15))),
  .set (.var .mwAvg) (.add (.rd (.var .mwAvg)) (.mul (.rd (.arr .X 19)) (.num 31034219999999998 15))),
  .set (.var .mwAvg) (.add (.rd (.var .mwAvg)) (.mul (.rd (.arr .X 20)) (.num 32042159999999996 15))),
  .set (.var .mwAvg) (.add (.rd (.var .mwAvg)) (.mul (.rd (.arr .X 21)) (.num 2502994 5))),
  .set (.var .mwAvg) (.add (.rd (.var .mwAvg)) (.mul (.rd (.arr .X 22)) (.num 26037879999999998 15))),
  .set (.var .mwAvg) (.add (.rd (.var .mwAvg)) (.mul (.rd (.arr .X 23)) (.num 27045819999999999 15))),
  .set (.var .mwAvg) (.add (.rd (.var .mwAvg)) (.mul (.rd (.arr .X 24)) (.num 28053759999999997 15))),
  .set (.var .mwAvg) (.add (.rd (.var .mwAvg)) (.mul (.rd (.arr .X 25)) (.num 29061699999999998 15))),
  .set (.var .mwAvg) (.add (.rd (.var .mwAvg)) (.mul (.rd (.arr .X 26)) (.num 3006964 5))),
  .set (.var .mwAvg) (.add (.rd (.var .mwAvg)) (.mul (.rd (.arr .X 27)) (.num 41029339999999998 15))),
  .set (.var .mwAvg) (.add (.rd (.var .mwAvg)) (.mul (.rd (.arr .X 28)) (.num 42037279999999996 15))),
  .set (.var .mwAvg) (.add (.rd (.var .mwAvg)) (.mul (.rd (.arr .X 29)) (.num 42037279999999996 15))),
  .set (.var .mwAvg) (.add (.rd (.var .mwAvg)) (.mul (.rd (.arr .X 30)) (.num 14006740000000001 15))),
  .set (.var .mwAvg) (.add (.rd (.var .mwAvg)) (.mul (.rd (.arr .X 31)) (.num 1501468 5))),
  .set (.var .mwAvg) (.add (.rd (.var .mwAvg)) (.mul (.rd (.arr .X 32)) (.num 1602262 5))),
  .set (.var .mwAvg) (.add (.rd (.var .mwAvg)) (.mul (.rd (.arr .X 33)) (.num 17030560000000001 15))),
  .set (.var .mwAvg) (.add (.rd (.var .mwAvg)) (.mul (.rd (.arr .X 34)) (.num 29021420000000003 15))),
  .set (.var .mwAvg) (.add (.rd (.var .mwAvg)) (.mul (.rd (.arr .X 35)) (.num 30006140000000002 15))),
  .set (.var .mwAvg) (.add (.rd (.var .mwAvg)) (.mul (.rd (.arr .X 36)) (.num 46005539999999996 15))),
  .set (.var .mwAvg) (.add (.rd (.var .mwAvg)) (.mul (.rd (.arr .X 37)) (.num 44012880000000003 15))),
  .set (.var .mwAvg) (.add (.rd (.var .mwAvg)) (.mul (.rd (.arr .X 38)) (.num 3101408 5))),
  .set (.var .mwAvg) (.add (.rd (.var .mwAvg)) (.mul (.rd (.arr .X 39)) (.num 2601774 5))),
  .set (.var .mwAvg) (.add (.rd (.var .mwAvg)) (.mul (.rd (.arr .X 40)) (.num 27025680000000001 15))),
  .set (.var .mwAvg) (.add (.rd (.var .mwAvg)) (.mul (.rd (.arr .X 41)) (.num 28033619999999999 15))),
  .set (.var .mwAvg) (.add (.rd (.var .mwAvg)) (.mul (.rd (.arr .X 42)) (.num 41032420000000002 15))),
  .set (.var .mwAvg) (.add (.rd (.var .mwAvg)) (.mul (.rd (.arr .X 43)) (.num 43025080000000003 15))),
  .set (.var .mwAvg) (.add (.rd (.var .mwAvg)) (.mul (.rd (.arr .X 44)) (.num 43025080000000003 15))),
  .set (.var .mwAvg) (.add (.rd (.var .mwAvg)) (.mul (.rd (.arr .X 45)) (.num 43025080000000003 15))),
  .set (.var .mwAvg) (.add (.rd (.var .mwAvg)) (.mul (.rd (.arr .X 46)) (.num 42017139999999998 15))),
  .set (.var .mwAvg) (.add (.rd (.var .mwAvg)) (.mul (.rd (.arr .X 47)) (.num 39948 3))),
  .set (.var .mwAvg) (.add (.rd (.var .mwAvg)) (.mul (.rd (.arr .X 48)) (.num 4308858 5))),
  .set (.var .mwAvg) (.add (.rd (.var .mwAvg)) (.mul (.rd (.arr .X 49)) (.num 44096519999999998 15))),
  .set (.var .mwAvg) (.add (.rd (.var .mwAvg)) (.mul (.rd (.arr .X 50)) (.num 4304522 5))),
  .set (.var .mwAvg) (.add (.rd (.var .mwAvg)) (.mul (.rd (.arr .X 51)) (.num 44053159999999998 15))),
  .set (.var .mwAvg) (.add (.rd (.var .mwAvg)) (.mul (.rd (.var .xN)) (.num 28013480000000001 15)))]

/-- The returned expression, utilities/mechanisms/gri30/lib/src/mass_mole.c:334 -/
def getDensityResult : CExpr := (.div (.mul (.rd (.var .pres)) (.rd (.var .mwAvg))) (.mul (.num 83144621 4) (.rd (.var .T))))

/-- utilities/mechanisms/gri30/lib/src/mechanism.c:8-60 (after the memcpy to temp) -/
def applyMask : List CStmt := [
  .set (.arr .y 0) (.rd (.arr .temp 0)),
  .set (.arr .y 1) (.rd (.arr .temp 1)),
  .set (.arr .y 2) (.rd (.arr .temp 2)),
  .set (.arr .y 3) (.rd (.arr .temp 3)),
  .set (.arr .y 4) (.rd (.arr .temp 4)),
  .set (.arr .y 5) (.rd (.arr .temp 5)),
  .set (.arr .y 6) (.rd (.arr .temp 6)),
  .set (.arr .y 7) (.rd (.arr .temp 7)),
  .set (.arr .y 8) (.rd (.arr .temp 8)),
  .set (.arr .y 9) (.rd (.arr .temp 9)),
  .set (.arr .y 10) (.rd (.arr .temp 10)),
  .set (.arr .y 11) (.rd (.arr .temp 11)),
  .set (.arr .y 12) (.rd (.arr .temp 12)),
  .set (.arr .y 13) (.rd (.arr .temp 13)),
  .set (.arr .y 14) (.rd (.arr .temp 14)),
  .set (.arr .y 15) (.rd (.arr .temp 15)),
  .set (.arr .y 16) (.rd (.arr .temp 16)),
  .set (.arr .y 17) (.rd (.arr .temp 17)),
  .set (.arr .y 18) (.rd (.arr .temp 18)),
  .set (.arr .y 19) (.rd (.arr .temp 19)),
  .set (.arr .y 20) (.rd (.arr .temp 20)),
  .set (.arr .y 21) (.rd (.arr .temp 21)),
  .set (.arr .y 22) (.rd (.arr .temp 22)),
  .set (.arr .y 23) (.rd (.arr .temp 23)),
  .set (.arr .y 24) (.rd (.arr .temp 24)),
  .set (.arr .y 25) (.rd (.arr .temp 25)),
  .set (.arr .y 26) (.rd (.arr .temp 26)),
  .set (.arr .y 27) (.rd (.arr .temp 27)),
  .set (.arr .y 28) (.rd (.arr .temp 28)),
  .set (.arr .y 29) (.rd (.arr .temp 29)),
  .set (.arr .y 30) (.rd (.arr .temp 30)),
  .set (.arr .y 31) (.rd (.arr .temp 31)),
  .set (.arr .y 32) (.rd (.arr .temp 32)),
  .set (.arr .y 33) (.rd (.arr .temp 33)),
  .set (.arr .y 34) (.rd (.arr .temp 34)),
  .set (.arr .y 35) (.rd (.arr .temp 35)),
  .set (.arr .y 36) (.rd (.arr .temp 36)),
  .set (.arr .y 37) (.rd (.arr .temp 37)),
  .set (.arr .y 38) (.rd (.arr .temp 38)),
  .set (.arr .y 39) (.rd (.arr .temp 39)),
  .set (.arr .y 40) (.rd (.arr .temp 40)),
  .set (.arr .y 41) (.rd (.arr .temp 41)),
  .set (.arr .y 42) (.rd (.arr .temp 42)),
  .set (.arr .y 43) (.rd (.arr .temp 43)),
  .set (.arr .y 44) (.rd (.arr .temp 44)),
  .set (.arr .y 45) (.rd (.arr .temp 45)),
  .set (.arr .y 46) (.rd (.arr .temp 46)),
  .set (.arr .y 47) (.rd (.arr .temp 48)),
  .set (.arr .y 48) (.rd (.arr .temp 49)),
  .set (.arr .y 49) (.rd (.arr .temp 50)),
  .set (.arr .y 50) (.rd (.arr .temp 51)),
  .set (.arr .y 51) (.rd (.arr .temp 52)),
  .set (.arr .y 52) (.rd (.arr .temp 47))]

/-- utilities/mechanisms/gri30/lib/src/mechanism.c:66-118 (after the memcpy to temp) -/
def applyReverseMask : List CStmt := [
  .set (.arr .y 0) (.rd (.arr .temp 0)),
  .set (.arr .y 1) (.rd (.arr .temp 1)),
  .set (.arr .y 2) (.rd (.arr .temp 2)),
  .set (.arr .y 3) (.rd (.arr .temp 3)),
  .set (.arr .y 4) (.rd (.arr .temp 4)),
  .set (.arr .y 5) (.rd (.arr .temp 5)),
  .set (.arr .y 6) (.rd (.arr .temp 6)),
  .set (.arr .y 7) (.rd (.arr .temp 7)),
  .set (.arr .y 8) (.rd (.arr .temp 8)),
  .set (.arr .y 9) (.rd (.arr .temp 9)),
  .set (.arr .y 10) (.rd (.arr .temp 10)),
  .set (.arr .y 11) (.rd (.arr .temp 11)),
  .set (.arr .y 12) (.rd (.arr .temp 12)),
  .set (.arr .y 13) (.rd (.arr .temp 13)),
  .set (.arr .y 14) (.rd (.arr .temp 14)),
  .set (.arr .y 15) (.rd (.arr .temp 15)),
  .set (.arr .y 16) (.rd (.arr .temp 16)),
  .set (.arr .y 17) (.rd (.arr .temp 17)),
  .set (.arr .y 18) (.rd (.arr .temp 18)),
  .set (.arr .y 19) (.rd (.arr .temp 19)),
  .set (.arr .y 20) (.rd (.arr .temp 20)),
  .set (.arr .y 21) (.rd (.arr .temp 21)),
  .set (.arr .y 22) (.rd (.arr .temp 22)),
  .set (.arr .y 23) (.rd (.arr .temp 23)),
  .set (.arr .y 24) (.rd (.arr .temp 24)),
  .set (.arr .y 25) (.rd (.arr .temp 25)),
  .set (.arr .y 26) (.rd (.arr .temp 26)),
  .set (.arr .y 27) (.rd (.arr .temp 27)),
  .set (.arr .y 28) (.rd (.arr .temp 28)),
  .set (.arr .y 29) (.rd (.arr .temp 29)),
  .set (.arr .y 30) (.rd (.arr .temp 30)),
  .set (.arr .y 31) (.rd (.arr .temp 31)),
  .set (.arr .y 32) (.rd (.arr .temp 32)),
  .set (.arr .y 33) (.rd (.arr .temp 33)),
  .set (.arr .y 34) (.rd (.arr .temp 34)),
  .set (.arr .y 35) (.rd (.arr .temp 35)),
  .set (.arr .y 36) (.rd (.arr .temp 36)),
  .set (.arr .y 37) (.rd (.arr .temp 37)),
  .set (.arr .y 38) (.rd (.arr .temp 38)),
  .set (.arr .y 39) (.rd (.arr .temp 39)),
  .set (.arr .y 40) (.rd (.arr .temp 40)),
  .set (.arr .y 41) (.rd (.arr .temp 41)),
  .set (.arr .y 42) (.rd (.arr .temp 42)),
  .set (.arr .y 43) (.rd (.arr .temp 43)),
  .set (.arr .y 44) (.rd (.arr .temp 44)),
  .set (.arr .y 45) (.rd (.arr .temp 45)),
  .set (.arr .y 46) (.rd (.arr .temp 46)),
  .set (.arr .y 47) (.rd (.arr .temp 52)),
  .set (.arr .y 48) (.rd (.arr .temp 47)),
  .set (.arr .y 49) (.rd (.arr .temp 48)),
  .set (.arr .y 50) (.rd (.arr .temp 49)),
  .set (.arr .y 51) (.rd (.arr .temp 50)),
  .set (.arr .y 52) (.rd (.arr .temp 51))]

/-- the assignment of cp_avg, utilities/mechanisms/gri30/lib/src/dydt.c:7-133 -/
def dydtCpAvg : List CStmt := [
  .set (.var .cpAvg) (.add (.add (.add (.add (.add (.add (.add (.add (.add (.add (.add (.add (.add (.add (.add (.add (.add (.add (.add (.add (.add (.add (.add (.add (.add (.add (.add (.add (.add (.add (.add (.add (.add (.add (.add (.add (.add (.add (.add (.add (.add (.add (.add (.add (.add (.add (.add (.add (.add (.add (.add (.add (.mul (.rd (.arr .cp 0)) (.rd (.arr .y 1))) (.mul (.rd (.arr .cp 1)) (.rd (.arr .y 2)))) (.mul (.rd (.arr .cp 2)) (.rd (.arr .y 3)))) (.mul (.rd (.arr .cp 3)) (.rd (.arr .y 4)))) (.mul (.rd (.arr .cp 4)) (.rd (.arr .y 5)))) (.mul (.rd (.arr .cp 5)) (.rd (.arr .y 6)))) (.mul (.rd (.arr .cp 6)) (.rd (.arr .y 7)))) (.mul (.rd (.arr .cp 7)) (.rd (.arr .y 8)))) (.mul (.rd (.arr .cp 8)) (.rd (.arr .y 9)))) (.mul (.rd (.arr .cp 9)) (.rd (.arr .y 10)))) (.mul (.rd (.arr .cp 10)) (.rd (.arr .y 11)))) (.mul (.rd (.arr .cp 11)) (.rd (.arr .y 12)))) (.mul (.rd (.arr .cp 12)) (.rd (.arr .y 13)))) (.mul (.rd (.arr .cp 13)) (.rd (.arr .y 14)))) (.mul (.rd (.arr .cp 14)) (.rd (.arr .y 15)))) (.mul (.rd (.arr .cp 15)) (.rd (.arr .y 16)))) (.mul (.rd (.arr .cp 16)) (.rd (.arr .y 17)))) (.mul (.rd (.arr .cp 17)) (.rd (.arr .y 18)))) (.mul (.rd (.arr .cp 18)) (.rd (.arr .y 19)))) (.mul (.rd (.arr .cp 19)) (.rd (.arr .y 20)))) (.mul (.rd (.arr .cp 20)) (.rd (.arr .y 21)))) (.mul (.rd (.arr .cp 21)) (.rd (.arr .y 22)))) (.mul (.rd (.arr .cp 22)) (.rd (.arr .y 23)))) (.mul (.rd (.arr .cp 23)) (.rd (.arr .y 24)))) (.mul (.rd (.arr .cp 24)) (.rd (.arr .y 25)))) (.mul (.rd (.arr .cp 25)) (.rd (.arr .y 26)))) (.mul (.rd (.arr .cp 26)) (.rd (.arr .y 27)))) (.mul (.rd (.arr .cp 27)) (.rd (.arr .y 28)))) (.mul (.rd (.arr .cp 28)) (.rd (.arr .y 29)))) (.mul (.rd (.arr .cp 29)) (.rd (.arr .y 30)))) (.mul (.rd (.arr .cp 30)) (.rd (.arr .y 31)))) (.mul (.rd (.arr .cp 31)) (.rd (.arr .y 32)))) (.mul (.rd (.arr .cp 32)) (.rd (.arr .y 33)))) (.mul (.rd (.arr .cp 33)) (.rd (.arr .y 34)))) (.mul (.rd (.arr .cp 34)) (.rd (.arr .y 35)))) (.mul (.rd (.arr .cp 35)) (.rd (.arr .y 36)))) (.mul (.rd (.arr .cp 36)) (.rd (.arr .y 37)))) (.mul (.rd (.arr .cp 37)) (.rd (.arr .y 38)))) (.mul (.rd (.arr .cp 38)) (.rd (.arr .y 39)))) (.mul (.rd (.arr .cp 39)) (.rd (.arr .y 40)))) (.mul (.rd (.arr .cp 40)) (.rd (.arr .y 41)))) (.mul (.rd (.arr .cp 41)) (.rd (.arr .y 42)))) (.mul (.rd (.arr .cp 42)) (.rd (.arr .y 43)))) (.mul (.rd (.arr .cp 43)) (.rd (.arr .y 44)))) (.mul (.rd (.arr .cp 44)) (.rd (.arr .y 45)))) (.mul (.rd (.arr .cp 45)) (.rd (.arr .y 46)))) (.mul (.rd (.arr .cp 46)) (.rd (.arr .y 47)))) (.mul (.rd (.arr .cp 47)) (.rd (.arr .y 48)))) (.mul (.rd (.arr .cp 48)) (.rd (.arr .y 49)))) (.mul (.rd (.arr .cp 49)) (.rd (.arr .y 50)))) (.mul (.rd (.arr .cp 50)) (.rd (.arr .y 51)))) (.mul (.rd (.arr .cp 51)) (.rd (.arr .y 52)))) (.mul (.rd (.arr .cp 52)) (.rd (.var .yN))))]

/-- the assignments to dy, utilities/mechanisms/gri30/lib/src/dydt.c:7-133 -/
def dydtRest : List CStmt := [
  .set (.arr .dy 0) (.mul (.div (.neg (.num 1 0)) (.mul (.rd (.var .rho)) (.rd (.var .cpAvg)))) (.add (.add (.add (.add (.add (.add (.add (.add (.add (.add (.add (.add (.add (.add (.add (.add (.add (.add (.add (.add (.add (.add (.add (.add (.add (.add (.add (.add (.add (.add (.add (.add (.add (.add (.add (.add (.add (.add (.add (.add (.add (.add (.add (.add (.add (.add (.add (.add (.add (.add (.add (.mul (.mul (.rd (.arr .dy 1)) (.rd (.arr .h 0))) (.num 20158800000000001 16)) (.mul (.mul (.rd (.arr .dy 2)) (.rd (.arr .h 1))) (.num 10079400000000001 16))) (.mul (.mul (.rd (.arr .dy 3)) (.rd (.arr .h 2))) (.num 159994 4))) (.mul (.mul (.rd (.arr .dy 4)) (.rd (.arr .h 3))) (.num 31998799999999999 15))) (.mul (.mul (.rd (.arr .dy 5)) (.rd (.arr .h 4))) (.num 17007339999999999 15))) (.mul (.mul (.rd (.arr .dy 6)) (.rd (.arr .h 5))) (.num 18015280000000001 15))) (.mul (.mul (.rd (.arr .dy 7)) (.rd (.arr .h 6))) (.num 33006740000000001 15))) (.mul (.mul (.rd (.arr .dy 8)) (.rd (.arr .h 7))) (.num 34014679999999998 15))) (.mul (.mul (.rd (.arr .dy 9)) (.rd (.arr .h 8))) (.num 12010999999999999 15))) (.mul (.mul (.rd (.arr .dy 10)) (.rd (.arr .h 9))) (.num 13018939999999999 15))) (.mul (.mul (.rd (.arr .dy 11)) (.rd (.arr .h 10))) (.num 14026879999999998 15))) (.mul (.mul (.rd (.arr .dy 12)) (.rd (.arr .h 11))) (.num 14026879999999998 15))) (.mul (.mul (.rd (.arr .dy 13)) (.rd (.arr .h 12))) (.num 1503482 5))) (.mul (.mul (.rd (.arr .dy 14)) (.rd (.arr .h 13))) (.num 16042760000000001 15))) (.mul (.mul (.rd (.arr .dy 15)) (.rd (.arr .h 14))) (.num 28010399999999997 15))) (.mul (.mul (.rd (.arr .dy 16)) (.rd (.arr .h 15))) (.num 44009799999999998 15))) (.mul (.mul (.rd (.arr .dy 17)) (.rd (.arr .h 16))) (.num 29018339999999998 15))) (.mul (.mul (.rd (.arr .dy 18)) (.rd (.arr .h 17))) (.num 3002628 5))) (.mul (.mul (.rd (.arr .dy 19)) (.rd (.arr .h 18))) (.num 31034219999999998 15))) (.mul (.mul (.rd (.arr .dy 20)) (.rd (.arr .h 19))) (.num 31034219999999998 15))) (.mul (.mul (.rd (.arr .dy 21)) (.rd (.arr .h 20))) (.num 32042159999999996 15))) (.mul (.mul (.rd (.arr .dy 22)) (.rd (.arr .h 21))) (.num 2502994 5))) (.mul (.mul (.rd (.arr .dy 23)) (.rd (.arr .h 22))) (.num 26037879999999998 15))) (.mul (.mul (.rd (.arr .dy 24)) (.rd (.arr .h 23))) (.num 27045819999999999 15))) (.mul (.mul (.rd (.arr .dy 25)) (.rd (.arr .h 24))) (.num 28053759999999997 15))) (.mul (.mul (.rd (.arr .dy 26)) (.rd (.arr .h 25))) (.num 29061699999999998 15))) (.mul (.mul (.rd (.arr .dy 27)) (.rd (.arr .h 26))) (.num 3006964 5))) (.mul (.mul (.rd (.arr .dy 28)) (.rd (.arr .h 27))) (.num 41029339999999998 15))) (.mul (.mul (.rd (.arr .dy 29)) (.rd (.arr .h 28))) (.num 42037279999999996 15))) (.mul (.mul (.rd (.arr .dy 30)) (.rd (.arr .h 29))) (.num 42037279999999996 15))) (.mul (.mul (.rd (.arr .dy 31)) (.rd (.arr .h 30))) (.num 14006740000000001 15))) (.mul (.mul (.rd (.arr .dy 32)) (.rd (.arr .h 31))) (.num 1501468 5))) (.mul (.mul (.rd (.arr .dy 33)) (.rd (.arr .h 32))) (.num 1602262 5))) (.mul (.mul (.rd (.arr .dy 34)) (.rd (.arr .h 33))) (.num 17030560000000001 15))) (.mul (.mul (.rd (.arr .dy 35)) (.rd (.arr .h 34))) (.num 29021420000000003 15))) (.mul (.mul (.rd (.arr .dy 36)) (.rd (.arr .h 35))) (.num 30006140000000002 15))) (.mul (.mul (.rd (.arr .dy 37)) (.rd (.arr .h 36))) (.num 46005539999999996 15))) (.mul (.mul (.rd (.arr .dy 38)) (.rd (.arr .h 37))) (.num 44012880000000003 15))) (.mul (.mul (.rd (.arr .dy 39)) (.rd (.arr .h 38))) (.num 3101408 5))) (.mul (.mul (.rd (.arr .dy 40)) (.rd (.arr .h 39))) (.num 2601774 5))) (.mul (.mul (.rd (.arr .dy 41)) (.rd (.arr .h 40))) (.num 27025680000000001 15))) (.mul (.mul (.rd (.arr .dy 42)) (.rd (.arr .h 41))) (.num 28033619999999999 15))) (.mul (.mul (.rd (.arr .dy 43)) (.rd (.arr .h 42))) (.num 41032420000000002 15))) (.mul (.mul (.rd (.arr .dy 44)) (.rd (.arr .h 43))) (.num 43025080000000003 15))) (.mul (.mul (.rd (.arr .dy 45)) (.rd (.arr .h 44))) (.num 43025080000000003 15))) (.mul (.mul (.rd (.arr .dy 46)) (.rd (.arr .h 45))) (.num 43025080000000003 15))) (.mul (.mul (.rd (.arr .dy 47)) (.rd (.arr .h 46))) (.num 42017139999999998 15))) (.mul (.mul (.rd (.arr .dy 49)) (.rd (.arr .h 48))) (.num 4308858 5))) (.mul (.mul (.rd (.arr .dy 50)) (.rd (.arr .h 49))) (.num 44096519999999998 15))) (.mul (.mul (.rd (.arr .dy 51)) (.rd (.arr .h 50))) (.num 4304522 5))) (.mul (.mul (.rd (.arr .dy 52)) (.rd (.arr .h 51))) (.num 44053159999999998 15))) (.mul (.mul (.rd (.var .dyN)) (.rd (.arr .h 52))) (.num 28013480000000001 15)))),
  .set (.arr .dy 1) (.mul (.rd (.arr .dy 1)) (.div (.num 20158800000000001 16) (.rd (.var .rho)))),
  .set (.arr .dy 2) (.mul (.rd (.arr .dy 2)) (.div (.num 10079400000000001 16) (.rd (.var .rho)))),
  .set (.arr .dy 3) (.mul (.rd (.arr .dy 3)) (.div (.num 159994 4) (.rd (.var .rho)))),
  .set (.arr .dy 4) (.mul (.rd (.arr .dy 4)) (.div (.num 31998799999999999 15) (.rd (.var .rho)))),
  .set (.arr .dy 5) (.mul (.rd (.arr .dy 5)) (.div (.num 17007339999999999 15) (.rd (.var .rho)))),
  .set (.arr .dy 6) (.mul (.rd (.arr .dy 6)) (.div (.num 18015280000000001 15) (.rd (.var .rho)))),
  .set (.arr .dy 7) (.mul (.rd (.arr .dy 7)) (.div (.num 33006740000000001 15) (.rd (.var .rho)))),
  .set (.arr .dy 8) (.mul (.rd (.arr .dy 8)) (.div (.num 34014679999999998 15) (.rd (.var .rho)))),
  .set (.arr .dy 9) (.mul (.rd (.arr .dy 9)) (.div (.num 12010999999999999 15) (.rd (.var .rho)))),
  .set (.arr .dy 10) (.mul (.rd (.arr .dy 10)) (.div (.num 13018939999999999 15) (.rd (.var .rho)))),
  .set (.arr .dy 11) (.mul (.rd (.arr .dy 11)) (.div (.num 14026879999999998 15) (.rd (.var .rho)))),
  .set (.arr .dy 12) (.mul (.rd (.arr .dy 12)) (.div (.num 14026879999999998 15) (.rd (.var .rho)))),
  .set (.arr .dy 13) (.mul (.rd (.arr .dy 13)) (.div (.num 1503482 5) (.rd (.var .rho)))),
  .set (.arr .dy 14) (.mul (.rd (.arr .dy 14)) (.div (.num 16042760000000001 15) (.rd (.var .rho)))),
  .set (.arr .dy 15) (.mul (.rd (.arr .dy 15)) (.div (.num 28010399999999997 15) (.rd (.var .rho)))),
  .set (.arr .dy 16) (.mul (.rd (.arr .dy 16)) (.div (.num 44009799999999998 15) (.rd (.var .rho)))),
  .set (.arr .dy 17) (.mul (.rd (.arr .dy 17)) (.div (.num 29018339999999998 15) (.rd (.var .rho)))),
  .set (.arr .dy 18) (.mul (.rd (.arr .dy 18)) (.div (.num 3002628 5) (.rd (.var .rho)))),
  .set (.arr .dy 19) (.mul (.rd (.arr .dy 19)) (.div (.num 31034219999999998 15) (.rd (.var .rho)))),
  .set (.arr .dy 20) (.mul (.rd (.arr .dy 20)) (.div (.num 31034219999999998 15) (.rd (.var .rho)))),
  .set (.arr .dy 21) (.mul (.rd (.arr .dy 21)) (.div (.num 32042159999999996 15) (.rd (.var .rho)))),
  .set (.arr .dy 22) (.mul (.rd (.arr .dy 22)) (.div (.num 2502994 5) (.rd (.var .rho)))),
  .set (.arr .dy 23) (.mul (.rd (.arr .dy 23)) (.div (.num 26037879999999998 15) (.rd (.var .rho)))),
  .set (.arr .dy 24) (.mul (.rd (.arr .dy 24)) (.div (.num 27045819999999999 15) (.rd (.var .rho)))),
  .set (.arr .dy 25) (.mul (.rd (.arr .dy 25)) (.div (.num 28053759999999997 15) (.rd (.var .rho)))),
  .set (.arr .dy 26) (.mul (.rd (.arr .dy 26)) (.div (.num 29061699999999998 15) (.rd (.var .rho)))),
  .set (.arr .dy 27) (.mul (.rd (.arr .dy 27)) (.div (.num 3006964 5) (.rd (.var .rho)))),
  .set (.arr .dy 28) (.mul (.rd (.arr .dy 28)) (.div (.num 41029339999999998 15) (.rd (.var .rho)))),
  .set (.arr .dy 29) (.mul (.rd (.arr .dy 29)) (.div (.num 42037279999999996 15) (.rd (.var .rho)))),
  .set (.arr .dy 30) (.mul (.rd (.arr .dy 30)) (.div (.num 42037279999999996 15) (.rd (.var .rho)))),
  .set (.arr .dy 31) (.mul (.rd (.arr .dy 31)) (.div (.num 14006740000000001 15) (.rd (.var .rho)))),
  .set (.arr .dy 32) (.mul (.rd (.arr .dy 32)) (.div (.num 1501468 5) (.rd (.var .rho)))),
  .set (.arr .dy 33) (.mul (.rd (.arr .dy 33)) (.div (.num 1602262 5) (.rd (.var .rho)))),
  .set (.arr .dy 34) (.mul (.rd (.arr .dy 34)) (.div (.num 17030560000000001 15) (.rd (.var .rho)))),
  .set (.arr .dy 35) (.mul (.rd (.arr .dy 35)) (.div (.num 29021420000000003 15) (.rd (.var .rho)))),
  .set (.arr .dy 36) (.mul (.rd (.arr .dy 36)) (.div (.num 30006140000000002 15) (.rd (.var .rho)))),
  .set (.arr .dy 37) (.mul (.rd (.arr .dy 37)) (.div (.num 46005539999999996 15) (.rd (.var .rho)))),
  .set (.arr .dy 38) (.mul (.rd (.arr .dy 38)) (.div (.num 44012880000000003 15) (.rd (.var .rho)))),
  .set (.arr .dy 39) (.mul (.rd (.arr .dy 39)) (.div (.num 3101408 5) (.rd (.var .rho)))),
  .set (.arr .dy 40) (.mul (.rd (.arr .dy 40)) (.div (.num 2601774 5) (.rd (.var .rho)))),
  .set (.arr .dy 41) (.mul (.rd (.arr .dy 41)) (.div (.num 27025680000000001 15) (.rd (.var .rho)))),
  .set (.arr .dy 42) (.mul (.rd (.arr .dy 42)) (.div (.num 28033619999999999 15) (.rd (.var .rho)))),
  .set (.arr .dy 43) (.mul (.rd (.arr .dy 43)) (.div (.num 41032420000000002 15) (.rd (.var .rho)))),
  .set (.arr .dy 44) (.mul (.rd (.arr .dy 44)) (.div (.num 43025080000000003 15) (.rd (.var .rho)))),
  .set (.arr .dy 45) (.mul (.rd (.arr .dy 45)) (.div (.num 43025080000000003 15) (.rd (.var .rho)))),
  .set (.arr .dy 46) (.mul (.rd (.arr .dy 46)) (.div (.num 43025080000000003 15) (.rd (.var .rho)))),
  .set (.arr .dy 47) (.mul (.rd (.arr .dy 47)) (.div (.num 42017139999999998 15) (.rd (.var .rho)))),
  .set (.arr .dy 48) (.mul (.rd (.arr .dy 48)) (.div (.num 39948 3) (.rd (.var .rho)))),
  .set (.arr .dy 49) (.mul (.rd (.arr .dy 49)) (.div (.num 4308858 5) (.rd (.var .rho)))),
  .set (.arr .dy 50) (.mul (.rd (.arr .dy 50)) (.div (.num 44096519999999998 15) (.rd (.var .rho)))),
  .set (.arr .dy 51) (.mul (.rd (.arr .dy 51)) (.div (.num 4304522 5) (.rd (.var .rho)))),
  .set (.arr .dy 52) (.mul (.rd (.arr .dy 52)) (.div (.num 44053159999999998 15) (.rd (.var .rho))))]

end DLB.Mech.Gri30
