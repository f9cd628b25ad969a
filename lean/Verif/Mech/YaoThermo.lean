/- Generated by tools/gen_mechanisms.py from utilities/mechanisms/yao/lib/src/{chem_utils,dydt,mass_mole,mechanism}.c. Do not edit. -/
import Verif.Model.CLang
set_option autoImplicit false

namespace DLB.Mech.Yao
open DLB

/-- utilities/mechanisms/yao/lib/src/chem_utils.c:12-108 -/
def evalConc : List CStmt := [
  .set (.var .yN) (.sub (.num 1 0) (.add (.add (.add (.add (.add (.add (.add (.add (.add (.add (.add (.add (.add (.add (.add (.add (.add (.add (.add (.add (.add (.add (.add (.add (.add (.add (.add (.add (.add (.add (.add (.add (.add (.add (.add (.add (.add (.add (.add (.add (.add (.add (.add (.add (.add (.add (.add (.add (.add (.add (.add (.add (.rd (.arr .y 0)) (.rd (.arr .y 1))) (.rd (.arr .y 2))) (.rd (.arr .y 3))) (.rd (.arr .y 4))) (.rd (.arr .y 5))) (.rd (.arr .y 6))) (.rd (.arr .y 7))) (.rd (.arr .y 8))) (.rd (.arr .y 9))) (.rd (.arr .y 10))) (.rd (.arr .y 11))) (.rd (.arr .y 12))) (.rd (.arr .y 13))) (.rd (.arr .y 14))) (.rd (.arr .y 15))) (.rd (.arr .y 16))) (.rd (.arr .y 17))) (.rd (.arr .y 18))) (.rd (.arr .y 19))) (.rd (.arr .y 20))) (.rd (.arr .y 21))) (.rd (.arr .y 22))) (.rd (.arr .y 23))) (.rd (.arr .y 24))) (.rd (.arr .y 25))) (.rd (.arr .y 26))) (.rd (.arr .y 27))) (.rd (.arr .y 28))) (.rd (.arr .y 29))) (.rd (.arr .y 30))) (.rd (.arr .y 31))) (.rd (.arr .y 32))) (.rd (.arr .y 33))) (.rd (.arr .y 34))) (.rd (.arr .y 35))) (.rd (.arr .y 36))) (.rd (.arr .y 37))) (.rd (.arr .y 38))) (.rd (.arr .y 39))) (.rd (.arr .y 40))) (.rd (.arr .y 41))) (.rd (.arr .y 42))) (.rd (.arr .y 43))) (.rd (.arr .y 44))) (.rd (.arr .y 45))) (.rd (.arr .y 46))) (.rd (.arr .y 47))) (.rd (.arr .y 48))) (.rd (.arr .y 49))) (.rd (.arr .y 50))) (.rd (.arr .y 51))) (.rd (.arr .y 52)))),
  .set (.var .mwAvg) (.add (.add (.add (.add (.add (.add (.add (.add (.add (.add (.add (.add (.add (.add (.add (.add (.add (.add (.add (.add (.add (.add (.add (.add (.add (.add (.add (.add (.add (.add (.add (.add (.add (.add (.add (.add (.add (.add (.add (.add (.add (.add (.add (.add (.add (.add (.add (.add (.add (.add (.add (.add (.add (.mul (.rd (.arr .y 0)) (.num 25032542304996495 18)) (.mul (.rd (.arr .y 1)) (.num 99212254697700253 17))) (.mul (.rd (.arr .y 2)) (.num 62502343837893923 18))) (.mul (.rd (.arr .y 3)) (.num 58798142449083754 18))) (.mul (.rd (.arr .y 4)) (.num 30296842402491128 18))) (.mul (.rd (.arr .y 5)) (.num 49606127348850126 17))) (.mul (.rd (.arr .y 6)) (.num 5550843506179199 17))) (.mul (.rd (.arr .y 7)) (.num 29399071224541877 18))) (.mul (.rd (.arr .y 8)) (.num 31251171918946961 18))) (.mul (.rd (.arr .y 9)) (.num 71291691381119682 18))) (.mul (.rd (.arr .y 10)) (.num 71291691381119682 18))) (.mul (.rd (.arr .y 11)) (.num 6651226951835805 17))) (.mul (.rd (.arr .y 12)) (.num 62333413951215375 18))) (.mul (.rd (.arr .y 13)) (.num 34460965031080343 18))) (.mul (.rd (.arr .y 14)) (.num 33304158890145569 18))) (.mul (.rd (.arr .y 15)) (.num 32222495039346891 18))) (.mul (.rd (.arr .y 16)) (.num 35701025333447579 18))) (.mul (.rd (.arr .y 17)) (.num 22722211870992371 18))) (.mul (.rd (.arr .y 18)) (.num 38405584479227962 18))) (.mul (.rd (.arr .y 19)) (.num 36974290296984895 18))) (.mul (.rd (.arr .y 20)) (.num 35645845690559841 18))) (.mul (.rd (.arr .y 21)) (.num 34409549338132318 18))) (.mul (.rd (.arr .y 22)) (.num 33256134759179025 18))) (.mul (.rd (.arr .y 23)) (.num 23231383182615861 18))) (.mul (.rd (.arr .y 24)) (.num 24347072386280914 18))) (.mul (.rd (.arr .y 25)) (.num 23763897127039892 18))) (.mul (.rd (.arr .y 26)) (.num 23208005462236166 18))) (.mul (.rd (.arr .y 27)) (.num 17836707087023153 18))) (.mul (.rd (.arr .y 28)) (.num 18148958667198553 18))) (.mul (.rd (.arr .y 29)) (.num 1782292284527992 17))) (.mul (.rd (.arr .y 30)) (.num 17508394399694933 18))) (.mul (.rd (.arr .y 31)) (.num 14466240568372807 18))) (.mul (.rd (.arr .y 32)) (.num 14258338276223937 18))) (.mul (.rd (.arr .y 33)) (.num 14056327076112483 18))) (.mul (.rd (.arr .y 34)) (.num 11881948563519946 18))) (.mul (.rd (.arr .y 35)) (.num 11741330964402398 18))) (.mul (.rd (.arr .y 36)) (.num 10184527340159955 18))) (.mul (.rd (.arr .y 37)) (.num 10081041492558679 18))) (.mul (.rd (.arr .y 38)) (.num 89114614226399602 19))) (.mul (.rd (.arr .y 39)) (.num 88321293080256321 19))) (.mul (.rd (.arr .y 40)) (.num 79212990423466311 19))) (.mul (.rd (.arr .y 41)) (.num 78585548149129603 19))) (.mul (.rd (.arr .y 42)) (.num 71291691381119683 19))) (.mul (.rd (.arr .y 43)) (.num 70783060254646308 19))) (.mul (.rd (.arr .y 44)) (.num 58706654822011988 19))) (.mul (.rd (.arr .y 45)) (.num 5905610625374637 18))) (.mul (.rd (.arr .y 46)) (.num 5905610625374637 18))) (.mul (.rd (.arr .y 47)) (.num 5905610625374637 18))) (.mul (.rd (.arr .y 48)) (.num 59409742817599729 19))) (.mul (.rd (.arr .y 49)) (.num 49669869214267375 19))) (.mul (.rd (.arr .y 50)) (.num 49669869214267375 19))) (.mul (.rd (.arr .y 51)) (.num 42858104103192024 19))) (.mul (.rd (.arr .y 52)) (.num 46227648238661885 19))) (.mul (.rd (.var .yN)) (.num 35697100110375433 18))),
  .set (.var .mwAvg) (.div (.num 1 0) (.rd (.var .mwAvg))),
  .set (.var .rho) (.div (.mul (.rd (.var .pres)) (.rd (.var .mwAvg))) (.mul (.num 83144621 4) (.rd (.var .T)))),
  .set (.arr .C 0) (.mul (.mul (.rd (.var .rho)) (.rd (.arr .y 0))) (.num 25032542304996495 18)),
  .set (.arr .C 1) (.mul (.mul (.rd (.var .rho)) (.rd (.arr .y 1))) (.num 99212254697700253 17)),
  .set (.arr .C 2) (.mul (.mul (.rd (.var .rho)) (.rd (.arr .y 2))) (.num 62502343837893923 18)),
  .set (.arr .C 3) (.mul (.mul (.rd (.var .rho)) (.rd (.arr .y 3))) (.num 58798142449083754 18)),
  .set (.arr .C 4) (.mul (.mul (.rd (.var .rho)) (.rd (.arr .y 4))) (.num 30296842402491128 18)),
  .set (.arr .C 5) (.mul (.mul (.rd (.var .rho)) (.rd (.arr .y 5))) (.num 49606127348850126 17)),
  .set (.arr .C 6) (.mul (.mul (.rd (.var .rho)) (.rd (.arr .y 6))) (.num 5550843506179199 17)),
  .set (.arr .C 7) (.mul (.mul (.rd (.var .rho)) (.rd (.arr .y 7))) (.num 29399071224541877 18)),
  .set (.arr .C 8) (.mul (.mul (.rd (.var .rho)) (.rd (.arr .y 8))) (.num 31251171918946961 18)),
  .set (.arr .C 9) (.mul (.mul (.rd (.var .rho)) (.rd (.arr .y 9))) (.num 71291691381119682 18)),
  .set (.arr .C 10) (.mul (.mul (.rd (.var .rho)) (.rd (.arr .y 10))) (.num 71291691381119682 18)),
  .set (.arr .C 11) (.mul (.mul (.rd (.var .rho)) (.rd (.arr .y 11))) (.num 6651226951835805 17)),
  .set (.arr .C 12) (.mul (.mul (.rd (.var .rho)) (.rd (.arr .y 12))) (.num 62333413951215375 18)),
  .set (.arr .C 13) (.mul (.mul (.rd (.var .rho)) (.rd (.arr .y 13))) (.num 34460965031080343 18)),
  .set (.arr .C 14) (.mul (.mul (.rd (.var .rho)) (.rd (.arr .y 14))) (.num 33304158890145569 18)),
  .set (.arr .C 15) (.mul (.mul (.rd (.var .rho)) (.rd (.arr .y 15))) (.num 32222495039346891 18)),
  .set (.arr .C 16) (.mul (.mul (.rd (.var .rho)) (.rd (.arr .y 16))) (.num 35701025333447579 18)),
  .set (.arr .C 17) (.mul (.mul (.rd (.var .rho)) (.rd (.arr .y 17))) (.num 22722211870992371 18)),
  .set (.arr .C 18) (.mul (.mul (.rd (.var .rho)) (.rd (.arr .y 18))) (.num 38405584479227962 18)),
  .set (.arr .C 19) (.mul (.mul (.rd (.var .rho)) (.rd (.arr .y 19))) (.num 36974290296984895 18)),
  .set (.arr .C 20) (.mul (.mul (.rd (.var .rho)) (.rd (.arr .y 20))) (.num 35645845690559841 18)),
  .set (.arr .C 21) (.mul (.mul (.rd (.var .rho)) (.rd (.arr .y 21))) (.num 34409549338132318 18)),
  .set (.arr .C 22) (.mul (.mul (.rd (.var .rho)) (.rd (.arr .y 22))) (.num 33256134759179025 18)),
  .set (.arr .C 23) (.mul (.mul (.rd (.var .rho)) (.rd (.arr .y 23))) (.num 23231383182615861 18)),
  .set (.arr .C 24) (.mul (.mul (.rd (.var .rho)) (.rd (.arr .y 24))) (.num 24347072386280914 18)),
  .set (.arr .C 25) (.mul (.mul (.rd (.var .rho)) (.rd (.arr .y 25))) (.num 23763897127039892 18)),
  .set (.arr .C 26) (.mul (.mul (.rd (.var .rho)) (.rd (.arr .y 26))) (.num 23208005462236166 18)),
  .set (.arr .C 27) (.mul (.mul (.rd (.var .rho)) (.rd (.arr .y 27))) (.num 17836707087023153 18)),
  .set (.arr .C 28) (.mul (.mul (.rd (.var .rho)) (.rd (.arr .y 28))) (.num 18148958667198553 18)),
  .set (.arr .C 29) (.mul (.mul (.rd (.var .rho)) (.rd (.arr .y 29))) (.num 1782292284527992 17)),
  .set (.arr .C 30) (.mul (.mul (.rd (.var .rho)) (.rd (.arr .y 30))) (.num 17508394399694933 18)),
  .set (.arr .C 31) (.mul (.mul (.rd (.var .rho)) (.rd (.arr .y 31))) (.num 14466240568372807 18)),
  .set (.arr .C 32) (.mul (.mul (.rd (.var .rho)) (.rd (.arr .y 32))) (.num 14258338276223937 18)),
  .set (.arr .C 33) (.mul (.mul (.rd (.var .rho)) (.rd (.arr .y 33))) (.num 14056327076112483 18)),
  .set (.arr .C 34) (.mul (.mul (.rd (.var .rho)) (.rd (.arr .y 34))) (.num 11881948563519946 18)),
  .set (.arr .C 35) (.mul (.mul (.rd (.var .rho)) (.rd (.arr .y 35))) (.num 11741330964402398 18)),
  .set (.arr .C 36) (.mul (.mul (.rd (.var .rho)) (.rd (.arr .y 36))) (.num 10184527340159955 18)),
  .set (.arr .C 37) (.mul (.mul (.rd (.var .rho)) (.rd (.arr .y 37))) (.num 10081041492558679 18)),
  .set (.arr .C 38) (.mul (.mul (.rd (.var .rho)) (.rd (.arr .y 38))) (.num 89114614226399602 19)),
  .set (.arr .C 39) (.mul (.mul (.rd (.var .rho)) (.rd (.arr .y 39))) (.num 88321293080256321 19)),
  .set (.arr .C 40) (.mul (.mul (.rd (.var .rho)) (.rd (.arr .y 40))) (.num 79212990423466311 19)),
  .set (.arr .C 41) (.mul (.mul (.rd (.var .rho)) (.rd (.arr .y 41))) (.num 78585548149129603 19)),
  .set (.arr .C 42) (.mul (.mul (.rd (.var .rho)) (.rd (.arr .y 42))) (.num 71291691381119683 19)),
  .set (.arr .C 43) (.mul (.mul (.rd (.var .rho)) (.rd (.arr .y 43))) (.num 70783060254646308 19)),
  .set (.arr .C 44) (.mul (.mul (.rd (.var .rho)) (.rd (.arr .y 44))) (.num 58706654822011988 19)),
  .set (.arr .C 45) (.mul (.mul (.rd (.var .rho)) (.rd (.arr .y 45))) (.num 5905610625374637 18)),
  .set (.arr .C 46) (.mul (.mul (.rd (.var .rho)) (.rd (.arr .y 46))) (.num 5905610625374637 18)),
  .set (.arr .C 47) (.mul (.mul (.rd (.var .rho)) (.rd (.arr .y 47))) (.num 5905610625374637 18)),
  .set (.arr .C 48) (.mul (.mul (.rd (.var .rho)) (.rd (.arr .y 48))) (.num 59409742817599729 19)),
  .set (.arr .C 49) (.mul (.mul (.rd (.var .rho)) (.rd (.arr .y 49))) (.num 49669869214267375 19)),
  .set (.arr .C 50) (.mul (.mul (.rd (.var .rho)) (.rd (.arr .y 50))) (.num 49669869214267375 19)),
  .set (.arr .C 51) (.mul (.mul (.rd (.var .rho)) (.rd (.arr .y 51))) (.num 42858104103192024 19)),
  .set (.arr .C 52) (.mul (.mul (.rd (.var .rho)) (.rd (.arr .y 52))) (.num 46227648238661885 19)),
  .set (.arr .C 53) (.mul (.mul (.rd (.var .rho)) (.rd (.var .yN))) (.num 35697100110375433 18))]

/-- utilities/mechanisms/yao/lib/src/chem_utils.c:208-534 -/
def evalH : List CStmt := [
  .ite (.rd (.var .T)) (.num 1000 0) (.arr .h 0) (.mul (.num 20813212426154001 14) (.add (.neg (.num 745375 3)) (.mul (.rd (.var .T)) (.add (.num 25 1) (.mul (.rd (.var .T)) (.add (.num 0 0) (.mul (.rd (.var .T)) (.add (.num 0 0) (.mul (.rd (.var .T)) (.add (.num 0 0) (.mul (.num 0 0) (.rd (.var .T))))))))))))) (.mul (.num 20813212426154001 14) (.add (.neg (.num 745375 3)) (.mul (.rd (.var .T)) (.add (.num 25 1) (.mul (.rd (.var .T)) (.add (.num 0 0) (.mul (.rd (.var .T)) (.add (.num 0 0) (.mul (.rd (.var .T)) (.add (.num 0 0) (.mul (.num 0 0) (.rd (.var .T))))))))))))),
  .ite (.rd (.var .T)) (.num 1000 0) (.arr .h 1) (.mul (.num 8248965315395757 12) (.add (.num 25473659899999999 12) (.mul (.rd (.var .T)) (.add (.num 25 1) (.mul (.rd (.var .T)) (.add (.num 35266640949999999 29) (.mul (.rd (.var .T)) (.add (.neg (.num 66530654666666665 32)) (.mul (.rd (.var .T)) (.add (.num 57520407999999997 35) (.mul (.neg (.num 18554646640000001 38)) (.rd (.var .T))))))))))))) (.mul (.num 8248965315395757 12) (.add (.num 25473659899999999 12) (.mul (.rd (.var .T)) (.add (.num 25000000099999999 16) (.mul (.rd (.var .T)) (.add (.neg (.num 11542148649999999 27)) (.mul (.rd (.var .T)) (.add (.num 53853982666666673 31) (.mul (.rd (.var .T)) (.add (.neg (.num 11837880875000001 34)) (.mul (.num 99639471400000006 39) (.rd (.var .T))))))))))))),
  .ite (.rd (.var .T)) (.num 1000 0) (.arr .h 2) (.mul (.num 51967336900133762 14) (.add (.num 291222592 4) (.mul (.rd (.var .T)) (.add (.num 31682671 7) (.mul (.rd (.var .T)) (.add (.neg (.num 163965942 11)) (.mul (.rd (.var .T)) (.add (.num 22143546533333334 22) (.mul (.rd (.var .T)) (.add (.neg (.num 153201656 17)) (.mul (.num 42253194199999998 29) (.rd (.var .T))))))))))))) (.mul (.num 51967336900133762 14) (.add (.num 29217579099999999 12) (.mul (.rd (.var .T)) (.add (.num 25694207800000002 16) (.mul (.rd (.var .T)) (.add (.neg (.num 42987056850000002 21)) (.mul (.rd (.var .T)) (.add (.num 13982819633333334 24) (.mul (.rd (.var .T)) (.add (.neg (.num 25044449749999998 28)) (.mul (.num 24566738199999997 32) (.rd (.var .T))))))))))))),
  .ite (.rd (.var .T)) (.num 1000 0) (.arr .h 3) (.mul (.num 48887492694330808 14) (.add (.num 33815381200000002 13) (.mul (.rd (.var .T)) (.add (.num 41253056099999998 16) (.mul (.rd (.var .T)) (.add (.neg (.num 16127246950000001 19)) (.mul (.rd (.var .T)) (.add (.num 21758823033333334 22) (.mul (.rd (.var .T)) (.add (.neg (.num 14496341075 19)) (.mul (.num 41247475799999997 29) (.rd (.var .T))))))))))))) (.mul (.num 48887492694330808 14) (.add (.num 37188577399999999 13) (.mul (.rd (.var .T)) (.add (.num 286472886 8) (.mul (.rd (.var .T)) (.add (.num 52825224000000001 20) (.mul (.rd (.var .T)) (.add (.neg (.num 86360919333333338 24)) (.mul (.rd (.var .T)) (.add (.num 76304668500000001 28) (.mul (.neg (.num 266391752 24)) (.rd (.var .T))))))))))))),
  .ite (.rd (.var .T)) (.num 1000 0) (.arr .h 4) (.mul (.num 25190194790518544 14) (.add (.num 29480804000000001 14) (.mul (.rd (.var .T)) (.add (.num 43017980099999997 16) (.mul (.rd (.var .T)) (.add (.neg (.num 23745602549999998 19)) (.mul (.rd (.var .T)) (.add (.num 70527630333333326 22) (.mul (.rd (.var .T)) (.add (.neg (.num 606909735 17)) (.mul (.num 18584502480000002 28) (.rd (.var .T))))))))))))) (.mul (.num 25190194790518544 14) (.add (.num 111856713 6) (.mul (.rd (.var .T)) (.add (.num 40172109000000003 16) (.mul (.rd (.var .T)) (.add (.num 1119910065 12) (.mul (.rd (.var .T)) (.add (.neg (.num 21121938333333332 23)) (.mul (.rd (.var .T)) (.add (.num 28561592500000001 27) (.mul (.neg (.num 21581707 22)) (.rd (.var .T))))))))))))),
  .ite (.rd (.var .T)) (.num 1000 0) (.arr .h 5) (.mul (.num 41244826576978785 13) (.add (.neg (.num 91793517299999996 14)) (.mul (.rd (.var .T)) (.add (.num 23443311200000001 16) (.mul (.rd (.var .T)) (.add (.num 39902603749999996 19) (.mul (.rd (.var .T)) (.add (.neg (.num 64927169999999995 22)) (.mul (.rd (.var .T)) (.add (.num 50393023500000001 25) (.mul (.neg (.num 14752235220000002 28)) (.rd (.var .T))))))))))))) (.mul (.num 41244826576978785 13) (.add (.neg (.num 95015892199999996 14)) (.mul (.rd (.var .T)) (.add (.num 33372791999999998 16) (.mul (.rd (.var .T)) (.add (.neg (.num 24701236549999999 21)) (.mul (.rd (.var .T)) (.add (.num 16648559266666665 23) (.mul (.rd (.var .T)) (.add (.neg (.num 44891598500000001 27)) (.mul (.num 40051075199999998 31) (.rd (.var .T))))))))))))),
  .ite (.rd (.var .T)) (.num 1000 0) (.arr .h 6) (.mul (.num 4615227795515807 13) (.add (.neg (.num 30293726699999999 12)) (.mul (.rd (.var .T)) (.add (.num 41986405600000003 16) (.mul (.rd (.var .T)) (.add (.neg (.num 10182170500000001 19)) (.mul (.rd (.var .T)) (.add (.num 217346737 14) (.mul (.rd (.var .T)) (.add (.neg (.num 13719926550000001 25)) (.mul (.num 354395634 21) (.rd (.var .T))))))))))))) (.mul (.num 4615227795515807 13) (.add (.neg (.num 300042971 4)) (.mul (.rd (.var .T)) (.add (.num 30339924900000002 16) (.mul (.rd (.var .T)) (.add (.num 10884590200000001 19) (.mul (.rd (.var .T)) (.add (.neg (.num 54690839333333327 24)) (.mul (.rd (.var .T)) (.add (.neg (.num 2426049675 20)) (.mul (.num 33640198399999998 31) (.rd (.var .T))))))))))))),
  .ite (.rd (.var .T)) (.num 1000 0) (.arr .h 7) (.mul (.num 24443746347165404 14) (.add (.neg (.num 177025821 4)) (.mul (.rd (.var .T)) (.add (.num 42761126899999997 16) (.mul (.rd (.var .T)) (.add (.neg (.num 27141120849999997 20)) (.mul (.rd (.var .T)) (.add (.num 55778567000000005 22) (.mul (.rd (.var .T)) (.add (.neg (.num 53942703249999999 25)) (.mul (.num 1724908726 21) (.rd (.var .T))))))))))))) (.mul (.num 24443746347165404 14) (.add (.neg (.num 17861787700000001 12)) (.mul (.rd (.var .T)) (.add (.num 41650028499999996 16) (.mul (.rd (.var .T)) (.add (.num 245415847 11) (.mul (.rd (.var .T)) (.add (.neg (.num 63379741666666662 23)) (.mul (.rd (.var .T)) (.add (.num 92796496499999996 27) (.mul (.neg (.num 57581661000000002 31)) (.rd (.var .T))))))))))))),
  .ite (.rd (.var .T)) (.num 1000 0) (.arr .h 8) (.mul (.num 25983668450066881 14) (.add (.neg (.num 10639435599999999 13)) (.mul (.rd (.var .T)) (.add (.num 37824563599999999 16) (.mul (.rd (.var .T)) (.add (.neg (.num 14983670799999999 19)) (.mul (.rd (.var .T)) (.add (.num 32824340033333332 22) (.mul (.rd (.var .T)) (.add (.neg (.num 24203237725000002 25)) (.mul (.num 648745674 21) (.rd (.var .T))))))))))))) (.mul (.num 25983668450066881 14) (.add (.neg (.num 10884577200000001 13)) (.mul (.rd (.var .T)) (.add (.num 32825378399999998 16) (.mul (.rd (.var .T)) (.add (.num 74154376999999996 20) (.mul (.rd (.var .T)) (.add (.neg (.num 25265555633333331 23)) (.mul (.rd (.var .T)) (.add (.num 52367638749999998 27) (.mul (.neg (.num 43343558799999996 31)) (.rd (.var .T))))))))))))),
  .ite (.rd (.var .T)) (.num 1000 0) (.arr .h 9) (.mul (.num 59275206603321635 14) (.add (.num 46004040099999998 12) (.mul (.rd (.var .T)) (.add (.num 37626786700000001 16) (.mul (.rd (.var .T)) (.add (.num 48443607150000002 20) (.mul (.rd (.var .T)) (.add (.num 93163280333333339 23) (.mul (.rd (.var .T)) (.add (.neg (.num 96272788250000007 26)) (.mul (.num 33748343799999999 29) (.rd (.var .T))))))))))))) (.mul (.num 59275206603321635 14) (.add (.num 46263603999999999 12) (.mul (.rd (.var .T)) (.add (.num 28741011300000001 16) (.mul (.rd (.var .T)) (.add (.num 18281964599999999 19) (.mul (.rd (.var .T)) (.add (.neg (.num 46964865666666667 23)) (.mul (.rd (.var .T)) (.add (.num 65044887249999998 27) (.mul (.neg (.num 375455134 23)) (.rd (.var .T))))))))))))),
  .ite (.rd (.var .T)) (.num 1000 0) (.arr .h 10) (.mul (.num 59275206603321635 14) (.add (.num 50496816299999999 12) (.mul (.rd (.var .T)) (.add (.num 41986041099999998 16) (.mul (.rd (.var .T)) (.add (.neg (.num 1183307095 12)) (.mul (.rd (.var .T)) (.add (.num 27443207333333332 22) (.mul (.rd (.var .T)) (.add (.neg (.num 16720399525000001 25)) (.mul (.num 38862947400000001 29) (.rd (.var .T))))))))))))) (.mul (.num 59275206603321635 14) (.add (.num 509259997 4) (.mul (.rd (.var .T)) (.add (.num 22920384199999999 16) (.mul (.rd (.var .T)) (.add (.num 2327943185 12) (.mul (.rd (.var .T)) (.add (.neg (.num 67063982333333332 23)) (.mul (.rd (.var .T)) (.add (.num 10447650000000001 26) (.mul (.neg (.num 67943272999999998 31)) (.rd (.var .T))))))))))))),
  .ite (.rd (.var .T)) (.num 1000 0) (.arr .h 11) (.mul (.num 55301374409537334 14) (.add (.num 16444998800000001 12) (.mul (.rd (.var .T)) (.add (.num 36735904000000001 16) (.mul (.rd (.var .T)) (.add (.num 1005475875 12) (.mul (.rd (.var .T)) (.add (.num 19100728533333335 22) (.mul (.rd (.var .T)) (.add (.neg (.num 17177935625 19)) (.mul (.num 50877146800000003 29) (.rd (.var .T))))))))))))) (.mul (.num 55301374409537334 14) (.add (.num 16775584299999999 12) (.mul (.rd (.var .T)) (.add (.num 22857177200000001 16) (.mul (.rd (.var .T)) (.add (.num 36199501849999999 19) (.mul (.rd (.var .T)) (.add (.neg (.num 99571449333333331 23)) (.mul (.rd (.var .T)) (.add (.num 14892116100000001 26) (.mul (.neg (.num 93430878800000005 31)) (.rd (.var .T))))))))))))),
  .ite (.rd (.var .T)) (.num 1000 0) (.arr .h 12) (.mul (.num 5182688078609915 13) (.add (.neg (.num 102466476 4)) (.mul (.rd (.var .T)) (.add (.num 514987613 8) (.mul (.rd (.var .T)) (.add (.neg (.num 68354894000000003 19)) (.mul (.rd (.var .T)) (.add (.num 16393353300000001 21) (.mul (.rd (.var .T)) (.add (.neg (.num 1211857565 17)) (.mul (.num 333387912 20) (.rd (.var .T))))))))))))) (.mul (.num 5182688078609915 13) (.add (.neg (.num 94683445900000006 13)) (.mul (.rd (.var .T)) (.add (.num 74851495000000004 18) (.mul (.rd (.var .T)) (.add (.num 66954733499999999 19) (.mul (.rd (.var .T)) (.add (.neg (.num 19109526966666665 22)) (.mul (.rd (.var .T)) (.add (.num 3057313375 19) (.mul (.neg (.num 20363046000000002 30)) (.rd (.var .T))))))))))))),
  .ite (.rd (.var .T)) (.num 1000 0) (.arr .h 13) (.mul (.num 2865243876803429 13) (.add (.num 38395649600000002 13) (.mul (.rd (.var .T)) (.add (.num 42211858400000004 16) (.mul (.rd (.var .T)) (.add (.neg (.num 162196266 11)) (.mul (.rd (.var .T)) (.add (.num 45933148666666667 22) (.mul (.rd (.var .T)) (.add (.neg (.num 33286023250000002 25)) (.mul (.num 86753773 20) (.rd (.var .T))))))))))))) (.mul (.num 2865243876803429 13) (.add (.num 401191815 5) (.mul (.rd (.var .T)) (.add (.num 277217438 8) (.mul (.rd (.var .T)) (.add (.num 24784776299999998 19) (.mul (.rd (.var .T)) (.add (.neg (.num 82815204333333337 23)) (.mul (.rd (.var .T)) (.add (.num 14729044450000001 26) (.mul (.neg (.num 1067017422 23)) (.rd (.var .T))))))))))))),
  .ite (.rd (.var .T)) (.num 1000 0) (.arr .h 14) (.mul (.num 2769061668644934 13) (.add (.neg (.num 14308956700000001 12)) (.mul (.rd (.var .T)) (.add (.num 47937231499999999 16) (.mul (.rd (.var .T)) (.add (.neg (.num 4954166845 12)) (.mul (.rd (.var .T)) (.add (.num 12440666933333332 21) (.mul (.rd (.var .T)) (.add (.neg (.num 94821315249999995 25)) (.mul (.num 26354530400000001 28) (.rd (.var .T))))))))))))) (.mul (.num 2769061668644934 13) (.add (.neg (.num 139958323 4)) (.mul (.rd (.var .T)) (.add (.num 176069008 8) (.mul (.rd (.var .T)) (.add (.num 460000041 11) (.mul (.rd (.var .T)) (.add (.neg (.num 14741960433333332 22)) (.mul (.rd (.var .T)) (.add (.num 25160302999999999 26) (.mul (.neg (.num 17677112800000002 30)) (.rd (.var .T))))))))))))),
  .ite (.rd (.var .T)) (.num 1000 0) (.arr .h 15) (.mul (.num 26791271377208773 14) (.add (.num 12956976 4) (.mul (.rd (.var .T)) (.add (.num 37118050199999999 16) (.mul (.rd (.var .T)) (.add (.neg (.num 14023165300000001 19)) (.mul (.rd (.var .T)) (.add (.num 12551699033333334 21) (.mul (.rd (.var .T)) (.add (.neg (.num 11826802224999999 24)) (.mul (.num 37317684000000002 28) (.rd (.var .T))))))))))))) (.mul (.num 26791271377208773 14) (.add (.num 37811194 5) (.mul (.rd (.var .T)) (.add (.num 47577923799999997 16) (.mul (.rd (.var .T)) (.add (.num 372071237 11) (.mul (.rd (.var .T)) (.add (.neg (.num 8990172533333333 22)) (.mul (.rd (.var .T)) (.add (.num 109522626 18) (.mul (.neg (.num 52707419599999998 31)) (.rd (.var .T))))))))))))),
  .ite (.rd (.var .T)) (.num 1000 0) (.arr .h 16) (.mul (.num 29683482206608977 14) (.add (.neg (.num 14344085999999999 12)) (.mul (.rd (.var .T)) (.add (.num 35795334699999999 16) (.mul (.rd (.var .T)) (.add (.neg (.num 30517684 11)) (.mul (.rd (.var .T)) (.add (.num 33893811000000002 23) (.mul (.rd (.var .T)) (.add (.num 226751471 18) (.mul (.neg (.num 18088489979999999 29)) (.rd (.var .T))))))))))))) (.mul (.num 29683482206608977 14) (.add (.neg (.num 141518724 4)) (.mul (.rd (.var .T)) (.add (.num 27151856099999998 16) (.mul (.rd (.var .T)) (.add (.num 10312637150000001 19) (.mul (.rd (.var .T)) (.add (.neg (.num 33294192366666671 23)) (.mul (.rd (.var .T)) (.add (.num 57513252 18) (.mul (.neg (.num 40729543200000001 31)) (.rd (.var .T))))))))))))),
  .ite (.rd (.var .T)) (.num 1000 0) (.arr .h 17) (.mul (.num 18892296942953618 14) (.add (.neg (.num 48371969700000001 12)) (.mul (.rd (.var .T)) (.add (.num 235677352 8) (.mul (.rd (.var .T)) (.add (.num 44922983850000002 19) (.mul (.rd (.var .T)) (.add (.neg (.num 23745208966666665 22)) (.mul (.rd (.var .T)) (.add (.num 61479755499999995 26) (.mul (.neg (.num 28739909599999997 30)) (.rd (.var .T))))))))))))) (.mul (.num 18892296942953618 14) (.add (.neg (.num 48759165999999997 12)) (.mul (.rd (.var .T)) (.add (.num 38574602900000001 16) (.mul (.rd (.var .T)) (.add (.num 22071851299999999 19) (.mul (.rd (.var .T)) (.add (.neg (.num 73827134666666672 23)) (.mul (.rd (.var .T)) (.add (.num 13087254700000001 26) (.mul (.neg (.num 94416832800000002 31)) (.rd (.var .T))))))))))))),
  .ite (.rd (.var .T)) (.num 1000 0) (.arr .h 18) (.mul (.num 31932177658088915 14) (.add (.num 264289807 4) (.mul (.rd (.var .T)) (.add (.num 80868109399999999 17) (.mul (.rd (.var .T)) (.add (.num 1168078145 11) (.mul (.rd (.var .T)) (.add (.neg (.num 118390605 13)) (.mul (.rd (.var .T)) (.add (.num 70038109249999999 25) (.mul (.neg (.num 17001459479999999 28)) (.rd (.var .T))))))))))))) (.mul (.num 31932177658088915 14) (.add (.num 25935999199999998 12) (.mul (.rd (.var .T)) (.add (.num 41475696400000004 16) (.mul (.rd (.var .T)) (.add (.num 298083332 11) (.mul (.rd (.var .T)) (.add (.neg (.num 79098284000000004 23)) (.mul (.rd (.var .T)) (.add (.num 11685304275000001 26) (.mul (.neg (.num 72247042600000001 31)) (.rd (.var .T))))))))))))),
  .ite (.rd (.var .T)) (.num 1000 0) (.arr .h 19) (.mul (.num 30742133534867867 14) (.add (.num 34859846799999999 12) (.mul (.rd (.var .T)) (.add (.num 321246645 8) (.mul (.rd (.var .T)) (.add (.num 75739581000000002 20) (.mul (.rd (.var .T)) (.add (.num 86403137333333327 22) (.mul (.rd (.var .T)) (.add (.neg (.num 8941446175 18)) (.mul (.num 29430174599999999 28) (.rd (.var .T))))))))))))) (.mul (.num 30742133534867867 14) (.add (.num 34612873899999999 12) (.mul (.rd (.var .T)) (.add (.num 3016724 6) (.mul (.rd (.var .T)) (.add (.num 51651146000000004 19) (.mul (.rd (.var .T)) (.add (.neg (.num 15602744966666665 22)) (.mul (.rd (.var .T)) (.add (.num 25440821999999998 26) (.mul (.neg (.num 17252140819999999 30)) (.rd (.var .T))))))))))))),
  .ite (.rd (.var .T)) (.num 1000 0) (.arr .h 20) (.mul (.num 29637603301660818 14) (.add (.num 50897759299999998 13) (.mul (.rd (.var .T)) (.add (.num 39592014799999999 16) (.mul (.rd (.var .T)) (.add (.neg (.num 37852612350000002 19)) (.mul (.rd (.var .T)) (.add (.num 19033009733333333 21) (.mul (.rd (.var .T)) (.add (.neg (.num 17289718825 18)) (.mul (.num 53976874600000004 28) (.rd (.var .T))))))))))))) (.mul (.num 29637603301660818 14) (.add (.num 49398861399999996 13) (.mul (.rd (.var .T)) (.add (.num 20361111599999999 16) (.mul (.rd (.var .T)) (.add (.num 73227075499999999 19) (.mul (.rd (.var .T)) (.add (.neg (.num 22369263833333335 22)) (.mul (.rd (.var .T)) (.add (.num 36805730750000002 26) (.mul (.neg (.num 251412122 22)) (.rd (.var .T))))))))))))),
  .ite (.rd (.var .T)) (.num 1000 0) (.arr .h 21) (.mul (.num 28609689384998131 14) (.add (.num 128416265 4) (.mul (.rd (.var .T)) (.add (.num 43064656799999996 16) (.mul (.rd (.var .T)) (.add (.neg (.num 20932944600000002 19)) (.mul (.rd (.var .T)) (.add (.num 16571426900000001 21) (.mul (.rd (.var .T)) (.add (.neg (.num 14978165149999999 24)) (.mul (.num 46101800800000003 28) (.rd (.var .T))))))))))))) (.mul (.num 28609689384998131 14) (.add (.num 1285752 2) (.mul (.rd (.var .T)) (.add (.num 19546564200000001 16) (.mul (.rd (.var .T)) (.add (.num 86986361000000005 19) (.mul (.rd (.var .T)) (.add (.neg (.num 26606888933333333 22)) (.mul (.rd (.var .T)) (.add (.num 43804422250000001 26) (.mul (.neg (.num 29928315199999999 30)) (.rd (.var .T))))))))))))),
  .ite (.rd (.var .T)) (.num 1000 0) (.arr .h 22) (.mul (.num 27650687204768667 14) (.add (.neg (.num 115222055 4)) (.mul (.rd (.var .T)) (.add (.num 42914249199999999 16) (.mul (.rd (.var .T)) (.add (.neg (.num 27507713499999998 19)) (.mul (.rd (.var .T)) (.add (.num 19981276266666669 21) (.mul (.rd (.var .T)) (.add (.neg (.num 17711657125 18)) (.mul (.num 53737154200000002 28) (.rd (.var .T))))))))))))) (.mul (.num 27650687204768667 14) (.add (.neg (.num 114263932 4)) (.mul (.rd (.var .T)) (.add (.num 10718814999999999 16) (.mul (.rd (.var .T)) (.add (.num 1084263385 11) (.mul (.rd (.var .T)) (.add (.neg (.num 33418689 13)) (.mul (.rd (.var .T)) (.add (.num 55353000250000001 26) (.mul (.neg (.num 38000577999999999 30)) (.rd (.var .T))))))))))))),
  .ite (.rd (.var .T)) (.num 1000 0) (.arr .h 23) (.mul (.num 19315645500243699 14) (.add (.num 62 0) (.mul (.rd (.var .T)) (.add (.num 34090623999999998 16) (.mul (.rd (.var .T)) (.add (.num 53692870000000004 19) (.mul (.rd (.var .T)) (.add (.num 63049749999999997 23) (.mul (.rd (.var .T)) (.add (.neg (.num 1789645775 18)) (.mul (.num 57347701999999995 29) (.rd (.var .T))))))))))))) (.mul (.num 19315645500243699 14) (.add (.neg (.num 9695 1)) (.mul (.rd (.var .T)) (.add (.num 59756698999999998 16) (.mul (.rd (.var .T)) (.add (.num 40652956999999998 19) (.mul (.rd (.var .T)) (.add (.neg (.num 91454149999999997 23)) (.mul (.rd (.var .T)) (.add (.num 1017576025 19) (.mul (.neg (.num 43520341999999999 31)) (.rd (.var .T))))))))))))),
  .ite (.rd (.var .T)) (.num 1000 0) (.arr .h 24) (.mul (.num 20243281060168923 14) (.add (.num 19245629000000001 12) (.mul (.rd (.var .T)) (.add (.num 13631835000000001 16) (.mul (.rd (.var .T)) (.add (.num 99069104999999994 19) (.mul (.rd (.var .T)) (.add (.num 41656866666666669 22) (.mul (.rd (.var .T)) (.add (.neg (.num 83388887499999995 25)) (.mul (.num 31693142 19) (.rd (.var .T))))))))))))) (.mul (.num 20243281060168923 14) (.add (.num 17482449000000001 12) (.mul (.rd (.var .T)) (.add (.num 65007877000000001 16) (.mul (.rd (.var .T)) (.add (.num 71623655000000001 19) (.mul (.rd (.var .T)) (.add (.neg (.num 18927210666666665 22)) (.mul (.rd (.var .T)) (.add (.num 277020025 18) (.mul (.neg (.num 18072777399999997 30)) (.rd (.var .T))))))))))))),
  .ite (.rd (.var .T)) (.num 1000 0) (.arr .h 25) (.mul (.num 19758402201107208 14) (.add (.num 1074826 3) (.mul (.rd (.var .T)) (.add (.num 14933069999999999 16) (.mul (.rd (.var .T)) (.add (.num 10462590000000001 18) (.mul (.rd (.var .T)) (.add (.num 14955980000000001 22) (.mul (.rd (.var .T)) (.add (.neg (.num 417228 14)) (.mul (.num 14316292 19) (.rd (.var .T))))))))))))) (.mul (.num 19758402201107208 14) (.add (.neg (.num 92357029999999997 14)) (.mul (.rd (.var .T)) (.add (.num 67322569999999997 16) (.mul (.rd (.var .T)) (.add (.num 74541700000000004 19) (.mul (.rd (.var .T)) (.add (.neg (.num 16499663333333331 22)) (.mul (.rd (.var .T)) (.add (.num 18030055000000001 26) (.mul (.neg (.num 75324079999999992 31)) (.rd (.var .T))))))))))))),
  .ite (.rd (.var .T)) (.num 1000 0) (.arr .h 26) (.mul (.num 19296208183235558 14) (.add (.num 10312346 3) (.mul (.rd (.var .T)) (.add (.num 10491173 7) (.mul (.rd (.var .T)) (.add (.num 13004486500000001 18) (.mul (.rd (.var .T)) (.add (.num 78475053333333331 23) (.mul (.rd (.var .T)) (.add (.neg (.num 4898783 15)) (.mul (.num 18744041400000001 28) (.rd (.var .T))))))))))))) (.mul (.num 19296208183235558 14) (.add (.num 79762236000000003 13) (.mul (.rd (.var .T)) (.add (.num 77097479 7) (.mul (.rd (.var .T)) (.add (.num 80157425000000008 19) (.mul (.rd (.var .T)) (.add (.neg (.num 17573412666666665 22)) (.mul (.rd (.var .T)) (.add (.num 18972088000000001 26) (.mul (.neg (.num 77725438000000008 31)) (.rd (.var .T))))))))))))),
  .ite (.rd (.var .T)) (.num 1000 0) (.arr .h 27) (.mul (.num 14830262506385543 14) (.add (.neg (.num 93357343999999994 13)) (.mul (.rd (.var .T)) (.add (.num 12713498000000001 16) (.mul (.rd (.var .T)) (.add (.num 13115527 9) (.mul (.rd (.var .T)) (.add (.neg (.num 30970768333333334 22)) (.mul (.rd (.var .T)) (.add (.neg (.num 11959318 16)) (.mul (.num 66961085999999998 29) (.rd (.var .T))))))))))))) (.mul (.num 14830262506385543 14) (.add (.neg (.num 10784054 3)) (.mul (.rd (.var .T)) (.add (.num 58111867999999998 16) (.mul (.rd (.var .T)) (.add (.num 85571280000000007 19) (.mul (.rd (.var .T)) (.add (.neg (.num 24944720333333334 22)) (.mul (.rd (.var .T)) (.add (.num 35630622500000002 26) (.mul (.neg (.num 18349368199999999 30)) (.rd (.var .T))))))))))))),
  .ite (.rd (.var .T)) (.num 1000 0) (.arr .h 28) (.mul (.num 15089882899288889 14) (.add (.num 22653328000000001 12) (.mul (.rd (.var .T)) (.add (.num 74449432000000004 17) (.mul (.rd (.var .T)) (.add (.num 19839428499999999 18) (.mul (.rd (.var .T)) (.add (.neg (.num 76326953333333334 22)) (.mul (.rd (.var .T)) (.add (.num 53382432499999996 26) (.mul (.num 4619275 19) (.rd (.var .T))))))))))))) (.mul (.num 15089882899288889 14) (.add (.num 20955008000000002 12) (.mul (.rd (.var .T)) (.add (.num 70134835000000004 16) (.mul (.rd (.var .T)) (.add (.num 11317279 9) (.mul (.rd (.var .T)) (.add (.neg (.num 3084849 12)) (.mul (.rd (.var .T)) (.add (.num 42019817499999999 26) (.mul (.neg (.num 20817233999999999 30)) (.rd (.var .T))))))))))))),
  .ite (.rd (.var .T)) (.num 1000 0) (.arr .h 29) (.mul (.num 14818801650830409 14) (.add (.neg (.num 17904004 4)) (.mul (.rd (.var .T)) (.add (.num 1181138 6) (.mul (.rd (.var .T)) (.add (.num 1542669 8) (.mul (.rd (.var .T)) (.add (.num 16955082333333333 22) (.mul (.rd (.var .T)) (.add (.neg (.num 61637219999999997 25)) (.mul (.num 22220385999999997 28) (.rd (.var .T))))))))))))) (.mul (.num 14818801650830409 14) (.add (.neg (.num 21397231000000002 13)) (.mul (.rd (.var .T)) (.add (.num 20535841000000001 16) (.mul (.rd (.var .T)) (.add (.num 17175253500000001 18) (.mul (.rd (.var .T)) (.add (.neg (.num 52943989999999994 22)) (.mul (.rd (.var .T)) (.add (.num 82724155000000001 26) (.mul (.neg (.num 50722090000000006 30)) (.rd (.var .T))))))))))))),
  .ite (.rd (.var .T)) (.num 1000 0) (.arr .h 30) (.mul (.num 1455728816681158 13) (.add (.num 73221040000000003 13) (.mul (.rd (.var .T)) (.add (.num 12087041999999999 16) (.mul (.rd (.var .T)) (.add (.num 191487485 10) (.mul (.rd (.var .T)) (.add (.neg (.num 24220169666666668 22)) (.mul (.rd (.var .T)) (.add (.neg (.num 385713675 17)) (.mul (.num 17371887 19) (.rd (.var .T))))))))))))) (.mul (.num 1455728816681158 13) (.add (.num 49644058000000005 13) (.mul (.rd (.var .T)) (.add (.num 86822394999999997 16) (.mul (.rd (.var .T)) (.add (.num 11845535500000001 18) (.mul (.rd (.var .T)) (.add (.neg (.num 25316288333333332 22)) (.mul (.rd (.var .T)) (.add (.num 16606784 17) (.mul (.num 109690272 22) (.rd (.var .T))))))))))))),
  .ite (.rd (.var .T)) (.num 1000 0) (.arr .h 31) (.mul (.num 12027900893521817 14) (.add (.num 28121887000000002 13) (.mul (.rd (.var .T)) (.add (.neg (.num 24190111000000001 16)) (.mul (.rd (.var .T)) (.add (.num 20215194499999999 18) (.mul (.rd (.var .T)) (.add (.num 22600779666666667 22) (.mul (.rd (.var .T)) (.add (.neg (.num 84311855000000008 25)) (.mul (.num 30233426000000002 28) (.rd (.var .T))))))))))))) (.mul (.num 12027900893521817 14) (.add (.neg (.num 17218359 4)) (.mul (.rd (.var .T)) (.add (.num 10138640000000001 15) (.mul (.rd (.var .T)) (.add (.num 11357068999999999 18) (.mul (.rd (.var .T)) (.add (.neg (.num 25970154333333331 22)) (.mul (.rd (.var .T)) (.add (.num 29691305 17) (.mul (.neg (.num 13186489600000001 30)) (.rd (.var .T))))))))))))),
  .ite (.rd (.var .T)) (.num 1392 0) (.arr .h 32) (.mul (.num 11855041320664326 14) (.add (.neg (.num 446546666 5)) (.mul (.rd (.var .T)) (.add (.neg (.num 10622348100000001 16)) (.mul (.rd (.var .T)) (.add (.num 287109147 10) (.mul (.rd (.var .T)) (.add (.neg (.num 12482896333333334 21)) (.mul (.rd (.var .T)) (.add (.num 31841247249999998 25) (.mul (.neg (.num 35921957799999997 29)) (.rd (.var .T))))))))))))) (.mul (.num 11855041320664326 14) (.add (.neg (.num 100898205 4)) (.mul (.rd (.var .T)) (.add (.num 145851539 7) (.mul (.rd (.var .T)) (.add (.num 1120362355 11) (.mul (.rd (.var .T)) (.add (.neg (.num 25444934166666668 22)) (.mul (.rd (.var .T)) (.add (.num 29547241500000002 26) (.mul (.neg (.num 1368770278 23)) (.rd (.var .T))))))))))))),
  .ite (.rd (.var .T)) (.num 1390 0) (.arr .h 33) (.mul (.num 11687079873954106 14) (.add (.num 47161145999999999 13) (.mul (.rd (.var .T)) (.add (.num 524384081 10) (.mul (.rd (.var .T)) (.add (.num 28039847900000001 18) (.mul (.rd (.var .T)) (.add (.neg (.num 11051526766666668 21)) (.mul (.rd (.var .T)) (.add (.num 24438344525 19) (.mul (.neg (.num 22801931999999999 29)) (.rd (.var .T))))))))))))) (.mul (.num 11687079873954106 14) (.add (.neg (.num 98071230700000001 14)) (.mul (.rd (.var .T)) (.add (.num 152977446 7) (.mul (.rd (.var .T)) (.add (.num 119867655 10) (.mul (.rd (.var .T)) (.add (.neg (.num 27279764933333334 22)) (.mul (.rd (.var .T)) (.add (.num 31720768999999998 26) (.mul (.neg (.num 147081811 22)) (.rd (.var .T))))))))))))),
  .ite (.rd (.var .T)) (.num 1392 0) (.arr .h 34) (.mul (.num 9879201100553604 14) (.add (.neg (.num 73436861699999999 13)) (.mul (.rd (.var .T)) (.add (.neg (.num 13527520500000001 16)) (.mul (.rd (.var .T)) (.add (.num 34932771299999998 18) (.mul (.rd (.var .T)) (.add (.neg (.num 15313600733333335 21)) (.mul (.rd (.var .T)) (.add (.num 39241835750000003 25) (.mul (.neg (.num 44259235000000003 29)) (.rd (.var .T))))))))))))) (.mul (.num 9879201100553604 14) (.add (.neg (.num 14206286 3)) (.mul (.rd (.var .T)) (.add (.num 178337529 7) (.mul (.rd (.var .T)) (.add (.num 133688829 10) (.mul (.rd (.var .T)) (.add (.neg (.num 30334559100000002 22)) (.mul (.rd (.var .T)) (.add (.num 35204941999999999 26) (.mul (.neg (.num 16302484880000001 30)) (.rd (.var .T))))))))))))),
  .ite (.rd (.var .T)) (.num 1390 0) (.arr .h 35) (.mul (.num 97622851307080197 15) (.add (.num 183280393 5) (.mul (.rd (.var .T)) (.add (.neg (.num 204871465 9)) (.mul (.rd (.var .T)) (.add (.num 34190063600000001 18) (.mul (.rd (.var .T)) (.add (.neg (.num 13814930399999999 21)) (.mul (.rd (.var .T)) (.add (.num 31538950500000001 25) (.mul (.neg (.num 30624011599999997 29)) (.rd (.var .T))))))))))))) (.mul (.num 97622851307080197 15) (.add (.neg (.num 50929904100000003 13)) (.mul (.rd (.var .T)) (.add (.num 18538547000000001 15) (.mul (.rd (.var .T)) (.add (.num 14155398099999999 18) (.mul (.rd (.var .T)) (.add (.neg (.num 32176908199999999 22)) (.mul (.rd (.var .T)) (.add (.num 3738689625 19) (.mul (.neg (.num 17326721280000001 30)) (.rd (.var .T))))))))))))),
  .ite (.rd (.var .T)) (.num 1392 0) (.arr .h 36) (.mul (.num 8467886657617376 14) (.add (.neg (.num 102168601 4)) (.mul (.rd (.var .T)) (.add (.neg (.num 167720549 8)) (.mul (.rd (.var .T)) (.add (.num 4123058005 11) (.mul (.rd (.var .T)) (.add (.neg (.num 18216803599999999 21)) (.mul (.rd (.var .T)) (.add (.num 46965575749999998 25) (.mul (.neg (.num 53147596599999995 29)) (.rd (.var .T))))))))))))) (.mul (.num 8467886657617376 14) (.add (.neg (.num 183260065 4)) (.mul (.rd (.var .T)) (.add (.num 210898039 7) (.mul (.rd (.var .T)) (.add (.num 155303939 10) (.mul (.rd (.var .T)) (.add (.neg (.num 35214930999999996 22)) (.mul (.rd (.var .T)) (.add (.num 40851444999999999 26) (.mul (.neg (.num 18911964380000001 30)) (.rd (.var .T))))))))))))),
  .ite (.rd (.var .T)) (.num 1390 0) (.arr .h 37) (.mul (.num 83818437418406575 15) (.add (.neg (.num 10459022299999999 13)) (.mul (.rd (.var .T)) (.add (.neg (.num 49957040600000002 17)) (.mul (.rd (.var .T)) (.add (.num 40441323350000002 18) (.mul (.rd (.var .T)) (.add (.neg (.num 16684425133333334 21)) (.mul (.rd (.var .T)) (.add (.num 39137327000000003 25) (.mul (.neg (.num 39323245400000001 29)) (.rd (.var .T))))))))))))) (.mul (.num 83818437418406575 15) (.add (.neg (.num 92093822099999998 13)) (.mul (.rd (.var .T)) (.add (.num 21794070900000001 15) (.mul (.rd (.var .T)) (.add (.num 16314012150000001 18) (.mul (.rd (.var .T)) (.add (.neg (.num 37046081333333335 22)) (.mul (.rd (.var .T)) (.add (.num 43016787 17) (.mul (.neg (.num 19927339979999999 30)) (.rd (.var .T))))))))))))),
  .ite (.rd (.var .T)) (.num 1392 0) (.arr .h 38) (.mul (.num 74094008254152044 15) (.add (.neg (.num 13107455900000001 12)) (.mul (.rd (.var .T)) (.add (.neg (.num 189226915 8)) (.mul (.rd (.var .T)) (.add (.num 47303317849999998 18) (.mul (.rd (.var .T)) (.add (.neg (.num 20912850700000002 21)) (.mul (.rd (.var .T)) (.add (.num 53789577249999999 25) (.mul (.neg (.num 60543736600000008 29)) (.rd (.var .T))))))))))))) (.mul (.num 74094008254152044 15) (.add (.neg (.num 224485674 4)) (.mul (.rd (.var .T)) (.add (.num 243540125 7) (.mul (.rd (.var .T)) (.add (.num 17683323099999999 18) (.mul (.rd (.var .T)) (.add (.neg (.num 40069462666666671 22)) (.mul (.rd (.var .T)) (.add (.num 46463763250000001 26) (.mul (.neg (.num 215044524 22)) (.rd (.var .T))))))))))))),
  .ite (.rd (.var .T)) (.num 1390 0) (.arr .h 39) (.mul (.num 73434404393878353 15) (.add (.neg (.num 39268951099999999 13)) (.mul (.rd (.var .T)) (.add (.neg (.num 77275943800000002 17)) (.mul (.rd (.var .T)) (.add (.num 46627485250000003 18) (.mul (.rd (.var .T)) (.add (.neg (.num 19481574833333333 21)) (.mul (.rd (.var .T)) (.add (.num 46392553499999997 25) (.mul (.neg (.num 47425496600000005 29)) (.rd (.var .T))))))))))))) (.mul (.num 73434404393878353 15) (.add (.neg (.num 133300535 4)) (.mul (.rd (.var .T)) (.add (.num 25051035599999999 15) (.mul (.rd (.var .T)) (.add (.num 18474008100000001 18) (.mul (.rd (.var .T)) (.add (.neg (.num 41921754666666666 22)) (.mul (.rd (.var .T)) (.add (.num 48657102249999996 26) (.mul (.neg (.num 22533779600000001 30)) (.rd (.var .T))))))))))))),
  .ite (.rd (.var .T)) (.num 1392 0) (.arr .h 40) (.mul (.num 65861340670357365 15) (.add (.neg (.num 15989084699999999 12)) (.mul (.rd (.var .T)) (.add (.neg (.num 21610826300000001 16)) (.mul (.rd (.var .T)) (.add (.num 53479148499999997 18) (.mul (.rd (.var .T)) (.add (.neg (.num 23699108133333333 21)) (.mul (.rd (.var .T)) (.add (.num 60992769249999999 25) (.mul (.neg (.num 68554309399999999 29)) (.rd (.var .T))))))))))))) (.mul (.num 65861340670357365 15) (.add (.neg (.num 265709061 4)) (.mul (.rd (.var .T)) (.add (.num 276142176 7) (.mul (.rd (.var .T)) (.add (.num 19841264349999999 18) (.mul (.rd (.var .T)) (.add (.neg (.num 44939815333333332 22)) (.mul (.rd (.var .T)) (.add (.num 52097613000000002 26) (.mul (.neg (.num 24107858799999998 30)) (.rd (.var .T))))))))))))),
  .ite (.rd (.var .T)) (.num 1390 0) (.arr .h 41) (.mul (.num 65339656169366336 15) (.add (.neg (.num 68081851200000001 13)) (.mul (.rd (.var .T)) (.add (.neg (.num 10438729200000001 16)) (.mul (.rd (.var .T)) (.add (.num 52808641500000003 18) (.mul (.rd (.var .T)) (.add (.neg (.num 22273332366666668 21)) (.mul (.rd (.var .T)) (.add (.num 53621541499999998 25) (.mul (.neg (.num 55480855000000001 29)) (.rd (.var .T))))))))))))) (.mul (.num 65339656169366336 15) (.add (.neg (.num 17451602999999999 12)) (.mul (.rd (.var .T)) (.add (.num 283097514 7) (.mul (.rd (.var .T)) (.add (.num 20632867199999998 18) (.mul (.rd (.var .T)) (.add (.neg (.num 46794429666666664 22)) (.mul (.rd (.var .T)) (.add (.num 54293717749999998 26) (.mul (.neg (.num 25138461399999997 30)) (.rd (.var .T))))))))))))),
  .ite (.rd (.var .T)) (.num 1392 0) (.arr .h 42) (.mul (.num 59275206603321628 15) (.add (.neg (.num 18870836500000001 12)) (.mul (.rd (.var .T)) (.add (.neg (.num 24290168799999998 16)) (.mul (.rd (.var .T)) (.add (.num 59652798999999999 18) (.mul (.rd (.var .T)) (.add (.neg (.num 26482967500000001 21)) (.mul (.rd (.var .T)) (.add (.num 68184149000000001 25) (.mul (.neg (.num 76543674599999999 29)) (.rd (.var .T))))))))))))) (.mul (.num 59275206603321628 15) (.add (.neg (.num 306937307 4)) (.mul (.rd (.var .T)) (.add (.num 30875390299999999 15) (.mul (.rd (.var .T)) (.add (.num 21998576299999999 18) (.mul (.rd (.var .T)) (.add (.neg (.num 49808510000000002 22)) (.mul (.rd (.var .T)) (.add (.num 57729419499999995 26) (.mul (.neg (.num 26710295400000001 30)) (.rd (.var .T))))))))))))),
  .ite (.rd (.var .T)) (.num 1390 0) (.arr .h 43) (.mul (.num 58852307180927312 15) (.add (.neg (.num 96896754999999994 13)) (.mul (.rd (.var .T)) (.add (.neg (.num 13135834799999999 16)) (.mul (.rd (.var .T)) (.add (.num 58986406499999998 18) (.mul (.rd (.var .T)) (.add (.neg (.num 25061435966666667 21)) (.mul (.rd (.var .T)) (.add (.num 60832776499999998 25) (.mul (.neg (.num 63504570400000002 29)) (.rd (.var .T))))))))))))) (.mul (.num 58852307180927312 15) (.add (.neg (.num 21573783200000002 12)) (.mul (.rd (.var .T)) (.add (.num 31569716 6) (.mul (.rd (.var .T)) (.add (.num 22790920150000001 18) (.mul (.rd (.var .T)) (.add (.neg (.num 51664988333333336 22)) (.mul (.rd (.var .T)) (.add (.num 59927733249999998 26) (.mul (.neg (.num 277419118 22)) (.rd (.var .T))))))))))))),
  .ite (.rd (.var .T)) (.num 1391 0) (.arr .h 44) (.mul (.num 48811425653540098 15) (.add (.neg (.num 40065425300000003 12)) (.mul (.rd (.var .T)) (.add (.neg (.num 26218159399999998 16)) (.mul (.rd (.var .T)) (.add (.num 73618855499999997 18) (.mul (.rd (.var .T)) (.add (.neg (.num 31465675699999999 21)) (.mul (.rd (.var .T)) (.add (.num 76860317000000003 25) (.mul (.neg (.num 80720446000000006 29)) (.rd (.var .T))))))))))))) (.mul (.num 48811425653540098 15) (.add (.neg (.num 548843465 4)) (.mul (.rd (.var .T)) (.add (.num 38509503700000003 15) (.mul (.rd (.var .T)) (.add (.num 28177502399999999 18) (.mul (.rd (.var .T)) (.add (.neg (.num 63831066666666668 22)) (.mul (.rd (.var .T)) (.add (.num 74006215500000001 26) (.mul (.neg (.num 34248830000000002 30)) (.rd (.var .T))))))))))))),
  .ite (.rd (.var .T)) (.num 1390 0) (.arr .h 45) (.mul (.num 49101975722034723 15) (.add (.neg (.num 154530435 4)) (.mul (.rd (.var .T)) (.add (.neg (.num 185028741 8)) (.mul (.rd (.var .T)) (.add (.num 71335354000000004 18) (.mul (.rd (.var .T)) (.add (.neg (.num 30630551833333332 21)) (.mul (.rd (.var .T)) (.add (.num 75220848 16) (.mul (.neg (.num 79490859999999999 29)) (.rd (.var .T))))))))))))) (.mul (.num 49101975722034723 15) (.add (.neg (.num 298194375 4)) (.mul (.rd (.var .T)) (.add (.num 38092188499999999 15) (.mul (.rd (.var .T)) (.add (.num 27105392400000001 18) (.mul (.rd (.var .T)) (.add (.neg (.num 61401839000000006 22)) (.mul (.rd (.var .T)) (.add (.num 71190543250000005 26) (.mul (.neg (.num 32946349600000002 30)) (.rd (.var .T))))))))))))),
  .ite (.rd (.var .T)) (.num 1385 0) (.arr .h 46) (.mul (.num 49101975722034723 15) (.add (.neg (.num 16766053899999999 12)) (.mul (.rd (.var .T)) (.add (.neg (.num 13678708900000001 16)) (.mul (.rd (.var .T)) (.add (.num 68677673999999994 18) (.mul (.rd (.var .T)) (.add (.neg (.num 27469205266666665 21)) (.mul (.rd (.var .T)) (.add (.num 59105390500000003 25) (.mul (.neg (.num 49487186400000001 29)) (.rd (.var .T))))))))))))) (.mul (.num 49101975722034723 15) (.add (.neg (.num 31214498800000001 12)) (.mul (.rd (.var .T)) (.add (.num 37968826800000002 15) (.mul (.rd (.var .T)) (.add (.num 26935973200000001 18) (.mul (.rd (.var .T)) (.add (.neg (.num 60723754333333335 22)) (.mul (.rd (.var .T)) (.add (.num 70193625749999998 26) (.mul (.neg (.num 32421684000000002 30)) (.rd (.var .T))))))))))))),
  .ite (.rd (.var .T)) (.num 1385 0) (.arr .h 47) (.mul (.num 49101975722034723 15) (.add (.neg (.num 16766053899999999 12)) (.mul (.rd (.var .T)) (.add (.neg (.num 13678708900000001 16)) (.mul (.rd (.var .T)) (.add (.num 68677673999999994 18) (.mul (.rd (.var .T)) (.add (.neg (.num 27469205266666665 21)) (.mul (.rd (.var .T)) (.add (.num 59105390500000003 25) (.mul (.neg (.num 49487186400000001 29)) (.rd (.var .T))))))))))))) (.mul (.num 49101975722034723 15) (.add (.neg (.num 31214498800000001 12)) (.mul (.rd (.var .T)) (.add (.num 37968826800000002 15) (.mul (.rd (.var .T)) (.add (.num 26935973200000001 18) (.mul (.rd (.var .T)) (.add (.neg (.num 60723754333333335 22)) (.mul (.rd (.var .T)) (.add (.num 70193625749999998 26) (.mul (.neg (.num 32421684000000002 30)) (.rd (.var .T))))))))))))),
  .ite (.rd (.var .T)) (.num 1391 0) (.arr .h 48) (.mul (.num 4939600550276802 14) (.add (.neg (.num 24634529900000001 12)) (.mul (.rd (.var .T)) (.add (.neg (.num 29634268100000001 16)) (.mul (.rd (.var .T)) (.add (.num 71996180000000007 18) (.mul (.rd (.var .T)) (.add (.neg (.num 32046133833333336 21)) (.mul (.rd (.var .T)) (.add (.num 82543618250000006 25) (.mul (.neg (.num 92479638000000003 29)) (.rd (.var .T))))))))))))) (.mul (.num 4939600550276802 14) (.add (.neg (.num 389405962 4)) (.mul (.rd (.var .T)) (.add (.num 374002111 7) (.mul (.rd (.var .T)) (.add (.num 26311537650000001 18) (.mul (.rd (.var .T)) (.add (.neg (.num 59541439666666665 22)) (.mul (.rd (.var .T)) (.add (.num 68987465750000003 26) (.mul (.neg (.num 31912499799999998 30)) (.rd (.var .T))))))))))))),
  .ite (.rd (.var .T)) (.num 1000 0) (.arr .h 49) (.mul (.num 41297824509398289 15) (.add (.neg (.num 29891799999999999 12)) (.mul (.rd (.var .T)) (.add (.num 53140400000000003 16) (.mul (.rd (.var .T)) (.add (.num 44693650000000001 18) (.mul (.rd (.var .T)) (.add (.num 48450333333333336 22) (.mul (.rd (.var .T)) (.add (.neg (.num 18731250000000001 24)) (.mul (.num 67065000000000002 28) (.rd (.var .T))))))))))))) (.mul (.num 41297824509398289 15) (.add (.neg (.num 37411800000000003 12)) (.mul (.rd (.var .T)) (.add (.num 28478200000000001 15) (.mul (.rd (.var .T)) (.add (.num 2687695 8) (.mul (.rd (.var .T)) (.add (.neg (.num 56061999999999998 22)) (.mul (.rd (.var .T)) (.add (.num 62841750000000002 26) (.mul (.neg (.num 29441600000000001 30)) (.rd (.var .T))))))))))))),
  .ite (.rd (.var .T)) (.num 1000 0) (.arr .h 50) (.mul (.num 41297824509398289 15) (.add (.neg (.num 23838 0)) (.mul (.rd (.var .T)) (.add (.num 51523099999999999 16) (.mul (.rd (.var .T)) (.add (.num 4989565 8) (.mul (.rd (.var .T)) (.add (.neg (.num 60211666666666666 22)) (.mul (.rd (.var .T)) (.add (.neg (.num 10460875 15)) (.mul (.num 44557199999999995 28) (.rd (.var .T))))))))))))) (.mul (.num 41297824509398289 15) (.add (.neg (.num 31119200000000001 12)) (.mul (.rd (.var .T)) (.add (.num 29201899999999998 15) (.mul (.rd (.var .T)) (.add (.num 25795849999999999 18) (.mul (.rd (.var .T)) (.add (.neg (.num 52442333333333331 22)) (.mul (.rd (.var .T)) (.add (.num 57576500000000003 26) (.mul (.neg (.num 26528000000000002 30)) (.rd (.var .T))))))))))))),
  .ite (.rd (.var .T)) (.num 1000 0) (.arr .h 51) (.mul (.num 35634208224384466 15) (.add (.neg (.num 416875 1)) (.mul (.rd (.var .T)) (.add (.num 48197200000000001 17) (.mul (.rd (.var .T)) (.add (.num 72510000000000005 18) (.mul (.rd (.var .T)) (.add (.neg (.num 33310266666666665 21)) (.mul (.rd (.var .T)) (.add (.num 651055 14) (.mul (.num 23871600000000003 29) (.rd (.var .T))))))))))))) (.mul (.num 35634208224384466 15) (.add (.neg (.num 512675 1)) (.mul (.rd (.var .T)) (.add (.num 35090699999999998 15) (.mul (.rd (.var .T)) (.add (.num 255295 7) (.mul (.rd (.var .T)) (.add (.neg (.num 51448333333333328 22)) (.mul (.rd (.var .T)) (.add (.num 56156749999999998 26) (.mul (.neg (.num 257802 19)) (.rd (.var .T))))))))))))),
  .ite (.rd (.var .T)) (.num 1000 0) (.arr .h 52) (.mul (.num 38435802925248602 15) (.add (.neg (.num 66536100000000006 12)) (.mul (.rd (.var .T)) (.add (.num 88073300000000003 16) (.mul (.rd (.var .T)) (.add (.num 32531150000000002 18) (.mul (.rd (.var .T)) (.add (.num 23168599999999997 21) (.mul (.rd (.var .T)) (.add (.neg (.num 31726250000000003 24)) (.mul (.num 10219820000000001 27) (.rd (.var .T))))))))))))) (.mul (.num 38435802925248602 15) (.add (.neg (.num 71825800000000003 12)) (.mul (.rd (.var .T)) (.add (.num 23673100000000002 15) (.mul (.rd (.var .T)) (.add (.num 30819599999999999 18) (.mul (.rd (.var .T)) (.add (.neg (.num 69945333333333331 22)) (.mul (.rd (.var .T)) (.add (.num 83291500000000001 26) (.mul (.neg (.num 40717999999999996 30)) (.rd (.var .T))))))))))))),
  .ite (.rd (.var .T)) (.num 1000 0) (.arr .h 53) (.mul (.num 29680218594762238 14) (.add (.neg (.num 10208999 4)) (.mul (.rd (.var .T)) (.add (.num 32986770000000001 16) (.mul (.rd (.var .T)) (.add (.num 70412019999999999 20) (.mul (.rd (.var .T)) (.add (.neg (.num 13210739999999999 22)) (.mul (.rd (.var .T)) (.add (.num 14103787500000001 25) (.mul (.neg (.num 48897079999999994 29)) (.rd (.var .T))))))))))))) (.mul (.num 29680218594762238 14) (.add (.neg (.num 92279769999999996 14)) (.mul (.rd (.var .T)) (.add (.num 29266399999999999 16) (.mul (.rd (.var .T)) (.add (.num 74398840000000003 20) (.mul (.rd (.var .T)) (.add (.neg (.num 18949200000000001 23)) (.mul (.rd (.var .T)) (.add (.num 25242595 18) (.mul (.neg (.num 13506701999999999 31)) (.rd (.var .T)))))))))))))]

/-- utilities/mechanisms/yao/lib/src/chem_utils.c:1192-1518 -/
def evalCp : List CStmt := [
  .ite (.rd (.var .T)) (.num 1000 0) (.arr .cp 0) (.mul (.num 20813212426154001 14) (.add (.num 25 1) (.mul (.rd (.var .T)) (.add (.num 0 0) (.mul (.rd (.var .T)) (.add (.num 0 0) (.mul (.rd (.var .T)) (.add (.num 0 0) (.mul (.num 0 0) (.rd (.var .T))))))))))) (.mul (.num 20813212426154001 14) (.add (.num 25 1) (.mul (.rd (.var .T)) (.add (.num 0 0) (.mul (.rd (.var .T)) (.add (.num 0 0) (.mul (.rd (.var .T)) (.add (.num 0 0) (.mul (.num 0 0) (.rd (.var .T))))))))))),
  .ite (.rd (.var .T)) (.num 1000 0) (.arr .cp 1) (.mul (.num 8248965315395757 12) (.add (.num 25 1) (.mul (.rd (.var .T)) (.add (.num 70533281899999999 29) (.mul (.rd (.var .T)) (.add (.neg (.num 199591964 23)) (.mul (.rd (.var .T)) (.add (.num 23008163199999999 34) (.mul (.neg (.num 92773233200000006 38)) (.rd (.var .T))))))))))) (.mul (.num 8248965315395757 12) (.add (.num 25000000099999999 16) (.mul (.rd (.var .T)) (.add (.neg (.num 23084297299999999 27)) (.mul (.rd (.var .T)) (.add (.num 16156194800000001 30) (.mul (.rd (.var .T)) (.add (.neg (.num 47351523500000003 34)) (.mul (.num 49819735700000002 38) (.rd (.var .T))))))))))),
  .ite (.rd (.var .T)) (.num 1000 0) (.arr .cp 2) (.mul (.num 51967336900133762 14) (.add (.num 31682671 7) (.mul (.rd (.var .T)) (.add (.neg (.num 32793188399999999 19)) (.mul (.rd (.var .T)) (.add (.num 66430639599999997 22) (.mul (.rd (.var .T)) (.add (.neg (.num 61280662400000001 25)) (.mul (.num 21126597099999999 28) (.rd (.var .T))))))))))) (.mul (.num 51967336900133762 14) (.add (.num 25694207800000002 16) (.mul (.rd (.var .T)) (.add (.neg (.num 85974113700000004 21)) (.mul (.rd (.var .T)) (.add (.num 41948458900000002 24) (.mul (.rd (.var .T)) (.add (.neg (.num 10017779899999999 27)) (.mul (.num 12283369099999999 31) (.rd (.var .T))))))))))),
  .ite (.rd (.var .T)) (.num 1000 0) (.arr .cp 3) (.mul (.num 48887492694330808 14) (.add (.num 41253056099999998 16) (.mul (.rd (.var .T)) (.add (.neg (.num 32254493900000002 19)) (.mul (.rd (.var .T)) (.add (.num 65276469100000001 22) (.mul (.rd (.var .T)) (.add (.neg (.num 57985364300000001 25)) (.mul (.num 20623737899999999 28) (.rd (.var .T))))))))))) (.mul (.num 48887492694330808 14) (.add (.num 286472886 8) (.mul (.rd (.var .T)) (.add (.num 105650448 11) (.mul (.rd (.var .T)) (.add (.neg (.num 25908275800000001 23)) (.mul (.rd (.var .T)) (.add (.num 305218674 19) (.mul (.neg (.num 13319587600000001 31)) (.rd (.var .T))))))))))),
  .ite (.rd (.var .T)) (.num 1000 0) (.arr .cp 4) (.mul (.num 25190194790518544 14) (.add (.num 43017980099999997 16) (.mul (.rd (.var .T)) (.add (.neg (.num 47491205099999996 19)) (.mul (.rd (.var .T)) (.add (.num 21158289099999999 21) (.mul (.rd (.var .T)) (.add (.neg (.num 242763894 16)) (.mul (.num 92922512400000003 28) (.rd (.var .T))))))))))) (.mul (.num 25190194790518544 14) (.add (.num 40172109000000003 16) (.mul (.rd (.var .T)) (.add (.num 22398201299999999 19) (.mul (.rd (.var .T)) (.add (.neg (.num 63365814999999998 23)) (.mul (.rd (.var .T)) (.add (.num 11424637 17) (.mul (.neg (.num 107908535 22)) (.rd (.var .T))))))))))),
  .ite (.rd (.var .T)) (.num 1000 0) (.arr .cp 5) (.mul (.num 41244826576978785 13) (.add (.num 23443311200000001 16) (.mul (.rd (.var .T)) (.add (.num 79805207499999992 19) (.mul (.rd (.var .T)) (.add (.neg (.num 19478150999999999 21)) (.mul (.rd (.var .T)) (.add (.num 201572094 16) (.mul (.neg (.num 73761176100000006 28)) (.rd (.var .T))))))))))) (.mul (.num 41244826576978785 13) (.add (.num 33372791999999998 16) (.mul (.rd (.var .T)) (.add (.neg (.num 49402473099999998 21)) (.mul (.rd (.var .T)) (.add (.num 49945677799999996 23) (.mul (.rd (.var .T)) (.add (.neg (.num 17956639400000001 26)) (.mul (.num 200255376 22) (.rd (.var .T))))))))))),
  .ite (.rd (.var .T)) (.num 1000 0) (.arr .cp 6) (.mul (.num 4615227795515807 13) (.add (.num 41986405600000003 16) (.mul (.rd (.var .T)) (.add (.neg (.num 20364341000000002 19)) (.mul (.rd (.var .T)) (.add (.num 65204021099999997 22) (.mul (.rd (.var .T)) (.add (.neg (.num 54879706200000003 25)) (.mul (.num 177197817 20) (.rd (.var .T))))))))))) (.mul (.num 4615227795515807 13) (.add (.num 30339924900000002 16) (.mul (.rd (.var .T)) (.add (.num 21769180400000002 19) (.mul (.rd (.var .T)) (.add (.neg (.num 16407251799999999 23)) (.mul (.rd (.var .T)) (.add (.neg (.num 97041986999999998 27)) (.mul (.num 16820099199999999 30) (.rd (.var .T))))))))))),
  .ite (.rd (.var .T)) (.num 1000 0) (.arr .cp 7) (.mul (.num 24443746347165404 14) (.add (.num 42761126899999997 16) (.mul (.rd (.var .T)) (.add (.neg (.num 54282241699999995 20)) (.mul (.rd (.var .T)) (.add (.num 16733570100000001 21) (.mul (.rd (.var .T)) (.add (.neg (.num 215770813 16)) (.mul (.num 86245436299999998 28) (.rd (.var .T))))))))))) (.mul (.num 24443746347165404 14) (.add (.num 41650028499999996 16) (.mul (.rd (.var .T)) (.add (.num 490831694 11) (.mul (.rd (.var .T)) (.add (.neg (.num 190139225 14)) (.mul (.rd (.var .T)) (.add (.num 37118598599999998 26) (.mul (.neg (.num 28790830500000002 30)) (.rd (.var .T))))))))))),
  .ite (.rd (.var .T)) (.num 1000 0) (.arr .cp 8) (.mul (.num 25983668450066881 14) (.add (.num 37824563599999999 16) (.mul (.rd (.var .T)) (.add (.neg (.num 29967341599999998 19)) (.mul (.rd (.var .T)) (.add (.num 984730201 14) (.mul (.rd (.var .T)) (.add (.neg (.num 96812950900000007 25)) (.mul (.num 324372837 20) (.rd (.var .T))))))))))) (.mul (.num 25983668450066881 14) (.add (.num 32825378399999998 16) (.mul (.rd (.var .T)) (.add (.num 14830875399999999 19) (.mul (.rd (.var .T)) (.add (.neg (.num 75796666899999999 23)) (.mul (.rd (.var .T)) (.add (.num 20947055499999999 26) (.mul (.neg (.num 21671779399999999 30)) (.rd (.var .T))))))))))),
  .ite (.rd (.var .T)) (.num 1000 0) (.arr .cp 9) (.mul (.num 59275206603321635 14) (.add (.num 37626786700000001 16) (.mul (.rd (.var .T)) (.add (.num 96887214300000004 20) (.mul (.rd (.var .T)) (.add (.num 27948984100000001 22) (.mul (.rd (.var .T)) (.add (.neg (.num 38509115300000003 25)) (.mul (.num 168741719 20) (.rd (.var .T))))))))))) (.mul (.num 59275206603321635 14) (.add (.num 28741011300000001 16) (.mul (.rd (.var .T)) (.add (.num 36563929199999999 19) (.mul (.rd (.var .T)) (.add (.neg (.num 14089459700000001 22)) (.mul (.rd (.var .T)) (.add (.num 26017954899999999 26) (.mul (.neg (.num 18772756700000001 30)) (.rd (.var .T))))))))))),
  .ite (.rd (.var .T)) (.num 1000 0) (.arr .cp 10) (.mul (.num 59275206603321635 14) (.add (.num 41986041099999998 16) (.mul (.rd (.var .T)) (.add (.neg (.num 23666141900000001 19)) (.mul (.rd (.var .T)) (.add (.num 82329621999999999 22) (.mul (.rd (.var .T)) (.add (.neg (.num 66881598100000004 25)) (.mul (.num 19431473700000001 28) (.rd (.var .T))))))))))) (.mul (.num 59275206603321635 14) (.add (.num 22920384199999999 16) (.mul (.rd (.var .T)) (.add (.num 465588637 11) (.mul (.rd (.var .T)) (.add (.neg (.num 20119194699999999 22)) (.mul (.rd (.var .T)) (.add (.num 41790600000000002 26) (.mul (.neg (.num 33971636499999998 30)) (.rd (.var .T))))))))))),
  .ite (.rd (.var .T)) (.num 1000 0) (.arr .cp 11) (.mul (.num 55301374409537334 14) (.add (.num 36735904000000001 16) (.mul (.rd (.var .T)) (.add (.num 201095175 11) (.mul (.rd (.var .T)) (.add (.num 57302185600000002 22) (.mul (.rd (.var .T)) (.add (.neg (.num 68711742500000001 25)) (.mul (.num 254385734 20) (.rd (.var .T))))))))))) (.mul (.num 55301374409537334 14) (.add (.num 22857177200000001 16) (.mul (.rd (.var .T)) (.add (.num 72399003699999999 19) (.mul (.rd (.var .T)) (.add (.neg (.num 29871434799999999 22)) (.mul (.rd (.var .T)) (.add (.num 59568464400000002 26) (.mul (.neg (.num 46715439400000003 30)) (.rd (.var .T))))))))))),
  .ite (.rd (.var .T)) (.num 1000 0) (.arr .cp 12) (.mul (.num 5182688078609915 13) (.add (.num 514987613 8) (.mul (.rd (.var .T)) (.add (.neg (.num 13670978800000001 18)) (.mul (.rd (.var .T)) (.add (.num 49180059899999999 21) (.mul (.rd (.var .T)) (.add (.neg (.num 48474302600000002 24)) (.mul (.num 16669395599999999 27) (.rd (.var .T))))))))))) (.mul (.num 5182688078609915 13) (.add (.num 74851495000000004 18) (.mul (.rd (.var .T)) (.add (.num 133909467 10) (.mul (.rd (.var .T)) (.add (.neg (.num 573285809 14)) (.mul (.rd (.var .T)) (.add (.num 122292535 17) (.mul (.neg (.num 10181523 20)) (.rd (.var .T))))))))))),
  .ite (.rd (.var .T)) (.num 1000 0) (.arr .cp 13) (.mul (.num 2865243876803429 13) (.add (.num 42211858400000004 16) (.mul (.rd (.var .T)) (.add (.neg (.num 324392532 11)) (.mul (.rd (.var .T)) (.add (.num 137799446 13) (.mul (.rd (.var .T)) (.add (.neg (.num 13314409300000001 24)) (.mul (.num 43376886499999999 28) (.rd (.var .T))))))))))) (.mul (.num 2865243876803429 13) (.add (.num 277217438 8) (.mul (.rd (.var .T)) (.add (.num 49569552599999997 19) (.mul (.rd (.var .T)) (.add (.neg (.num 248445613 14)) (.mul (.rd (.var .T)) (.add (.num 58916177800000004 26) (.mul (.neg (.num 53350871099999999 30)) (.rd (.var .T))))))))))),
  .ite (.rd (.var .T)) (.num 1000 0) (.arr .cp 14) (.mul (.num 2769061668644934 13) (.add (.num 47937231499999999 16) (.mul (.rd (.var .T)) (.add (.neg (.num 99083336899999999 19)) (.mul (.rd (.var .T)) (.add (.num 37322000799999999 21) (.mul (.rd (.var .T)) (.add (.neg (.num 37928526099999998 24)) (.mul (.num 131772652 19) (.rd (.var .T))))))))))) (.mul (.num 2769061668644934 13) (.add (.num 176069008 8) (.mul (.rd (.var .T)) (.add (.num 920000082 11) (.mul (.rd (.var .T)) (.add (.neg (.num 44225881299999997 22)) (.mul (.rd (.var .T)) (.add (.num 100641212 17) (.mul (.neg (.num 88385564000000006 30)) (.rd (.var .T))))))))))),
  .ite (.rd (.var .T)) (.num 1000 0) (.arr .cp 15) (.mul (.num 26791271377208773 14) (.add (.num 37118050199999999 16) (.mul (.rd (.var .T)) (.add (.neg (.num 28046330600000001 19)) (.mul (.rd (.var .T)) (.add (.num 37655097100000001 21) (.mul (.rd (.var .T)) (.add (.neg (.num 47307208899999997 24)) (.mul (.num 18658842 18) (.rd (.var .T))))))))))) (.mul (.num 26791271377208773 14) (.add (.num 47577923799999997 16) (.mul (.rd (.var .T)) (.add (.num 74414247399999999 19) (.mul (.rd (.var .T)) (.add (.neg (.num 26970517599999999 22)) (.mul (.rd (.var .T)) (.add (.num 43809050400000002 26) (.mul (.neg (.num 263537098 22)) (.rd (.var .T))))))))))),
  .ite (.rd (.var .T)) (.num 1000 0) (.arr .cp 16) (.mul (.num 29683482206608977 14) (.add (.num 35795334699999999 16) (.mul (.rd (.var .T)) (.add (.neg (.num 61035368 11)) (.mul (.rd (.var .T)) (.add (.num 101681433 14) (.mul (.rd (.var .T)) (.add (.num 90700588399999998 26) (.mul (.neg (.num 904424499 21)) (.rd (.var .T))))))))))) (.mul (.num 29683482206608977 14) (.add (.num 27151856099999998 16) (.mul (.rd (.var .T)) (.add (.num 20625274300000002 19) (.mul (.rd (.var .T)) (.add (.neg (.num 99882577100000007 23)) (.mul (.rd (.var .T)) (.add (.num 230053008 18) (.mul (.neg (.num 203647716 22)) (.rd (.var .T))))))))))),
  .ite (.rd (.var .T)) (.num 1000 0) (.arr .cp 17) (.mul (.num 18892296942953618 14) (.add (.num 235677352 8) (.mul (.rd (.var .T)) (.add (.num 89845967700000005 19) (.mul (.rd (.var .T)) (.add (.neg (.num 71235626899999998 22)) (.mul (.rd (.var .T)) (.add (.num 24591902199999998 25) (.mul (.neg (.num 14369954799999999 29)) (.rd (.var .T))))))))))) (.mul (.num 18892296942953618 14) (.add (.num 38574602900000001 16) (.mul (.rd (.var .T)) (.add (.num 44143702599999998 19) (.mul (.rd (.var .T)) (.add (.neg (.num 22148140400000001 22)) (.mul (.rd (.var .T)) (.add (.num 52349018800000005 26) (.mul (.neg (.num 47208416400000003 30)) (.rd (.var .T))))))))))),
  .ite (.rd (.var .T)) (.num 1000 0) (.arr .cp 18) (.mul (.num 31932177658088915 14) (.add (.num 80868109399999999 17) (.mul (.rd (.var .T)) (.add (.num 23361562900000001 18) (.mul (.rd (.var .T)) (.add (.neg (.num 35517181499999999 21)) (.mul (.rd (.var .T)) (.add (.num 280152437 16) (.mul (.neg (.num 85007297399999996 28)) (.rd (.var .T))))))))))) (.mul (.num 31932177658088915 14) (.add (.num 41475696400000004 16) (.mul (.rd (.var .T)) (.add (.num 59616666400000001 19) (.mul (.rd (.var .T)) (.add (.neg (.num 237294852 14)) (.mul (.rd (.var .T)) (.add (.num 46741217100000004 26) (.mul (.neg (.num 36123521300000002 30)) (.rd (.var .T))))))))))),
  .ite (.rd (.var .T)) (.num 1000 0) (.arr .cp 19) (.mul (.num 30742133534867867 14) (.add (.num 321246645 8) (.mul (.rd (.var .T)) (.add (.num 151479162 11) (.mul (.rd (.var .T)) (.add (.num 259209412 13) (.mul (.rd (.var .T)) (.add (.neg (.num 357657847 16)) (.mul (.num 147150873 19) (.rd (.var .T))))))))))) (.mul (.num 30742133534867867 14) (.add (.num 3016724 6) (.mul (.rd (.var .T)) (.add (.num 10330229200000001 18) (.mul (.rd (.var .T)) (.add (.neg (.num 46808234899999996 22)) (.mul (.rd (.var .T)) (.add (.num 10176328799999999 25) (.mul (.neg (.num 86260704099999999 30)) (.rd (.var .T))))))))))),
  .ite (.rd (.var .T)) (.num 1000 0) (.arr .cp 20) (.mul (.num 29637603301660818 14) (.add (.num 39592014799999999 16) (.mul (.rd (.var .T)) (.add (.neg (.num 75705224700000004 19)) (.mul (.rd (.var .T)) (.add (.num 57099029199999999 21) (.mul (.rd (.var .T)) (.add (.neg (.num 69158875299999999 24)) (.mul (.num 26988437300000001 27) (.rd (.var .T))))))))))) (.mul (.num 29637603301660818 14) (.add (.num 20361111599999999 16) (.mul (.rd (.var .T)) (.add (.num 146454151 10) (.mul (.rd (.var .T)) (.add (.neg (.num 67107791500000002 22)) (.mul (.rd (.var .T)) (.add (.num 14722292300000001 25) (.mul (.neg (.num 125706061 21)) (.rd (.var .T))))))))))),
  .ite (.rd (.var .T)) (.num 1000 0) (.arr .cp 21) (.mul (.num 28609689384998131 14) (.add (.num 43064656799999996 16) (.mul (.rd (.var .T)) (.add (.neg (.num 41865889200000004 19)) (.mul (.rd (.var .T)) (.add (.num 49714280699999999 21) (.mul (.rd (.var .T)) (.add (.neg (.num 59912660599999996 24)) (.mul (.num 230509004 19) (.rd (.var .T))))))))))) (.mul (.num 28609689384998131 14) (.add (.num 19546564200000001 16) (.mul (.rd (.var .T)) (.add (.num 17397272200000001 18) (.mul (.rd (.var .T)) (.add (.neg (.num 79820666799999996 22)) (.mul (.rd (.var .T)) (.add (.num 175217689 17) (.mul (.neg (.num 149641576 21)) (.rd (.var .T))))))))))),
  .ite (.rd (.var .T)) (.num 1000 0) (.arr .cp 22) (.mul (.num 27650687204768667 14) (.add (.num 42914249199999999 16) (.mul (.rd (.var .T)) (.add (.neg (.num 55015426999999997 19)) (.mul (.rd (.var .T)) (.add (.num 59943828800000003 21) (.mul (.rd (.var .T)) (.add (.neg (.num 70846628500000001 24)) (.mul (.num 26868577099999999 27) (.rd (.var .T))))))))))) (.mul (.num 27650687204768667 14) (.add (.num 10718814999999999 16) (.mul (.rd (.var .T)) (.add (.num 216852677 10) (.mul (.rd (.var .T)) (.add (.neg (.num 100256067 13)) (.mul (.rd (.var .T)) (.add (.num 221412001 17) (.mul (.neg (.num 19000289 20)) (.rd (.var .T))))))))))),
  .ite (.rd (.var .T)) (.num 1000 0) (.arr .cp 23) (.mul (.num 19315645500243699 14) (.add (.num 34090623999999998 16) (.mul (.rd (.var .T)) (.add (.num 10738574000000001 18) (.mul (.rd (.var .T)) (.add (.num 18914924999999999 22) (.mul (.rd (.var .T)) (.add (.neg (.num 71585831000000001 25)) (.mul (.num 28673851 19) (.rd (.var .T))))))))))) (.mul (.num 19315645500243699 14) (.add (.num 59756698999999998 16) (.mul (.rd (.var .T)) (.add (.num 81305913999999996 19) (.mul (.rd (.var .T)) (.add (.neg (.num 27436244999999998 22)) (.mul (.rd (.var .T)) (.add (.num 40703041000000001 26) (.mul (.neg (.num 21760171000000001 30)) (.rd (.var .T))))))))))),
  .ite (.rd (.var .T)) (.num 1000 0) (.arr .cp 24) (.mul (.num 20243281060168923 14) (.add (.num 13631835000000001 16) (.mul (.rd (.var .T)) (.add (.num 19813820999999999 18) (.mul (.rd (.var .T)) (.add (.num 1249706 11) (.mul (.rd (.var .T)) (.add (.neg (.num 33355554999999998 24)) (.mul (.num 15846571 18) (.rd (.var .T))))))))))) (.mul (.num 20243281060168923 14) (.add (.num 65007877000000001 16) (.mul (.rd (.var .T)) (.add (.num 14324731 9) (.mul (.rd (.var .T)) (.add (.neg (.num 56781631999999996 22)) (.mul (.rd (.var .T)) (.add (.num 11080801 16) (.mul (.neg (.num 90363886999999994 30)) (.rd (.var .T))))))))))),
  .ite (.rd (.var .T)) (.num 1000 0) (.arr .cp 25) (.mul (.num 19758402201107208 14) (.add (.num 14933069999999999 16) (.mul (.rd (.var .T)) (.add (.num 20925180000000002 18) (.mul (.rd (.var .T)) (.add (.num 44867940000000002 22) (.mul (.rd (.var .T)) (.add (.neg (.num 1668912 14)) (.mul (.num 71581460000000003 28) (.rd (.var .T))))))))))) (.mul (.num 19758402201107208 14) (.add (.num 67322569999999997 16) (.mul (.rd (.var .T)) (.add (.num 14908340000000001 18) (.mul (.rd (.var .T)) (.add (.neg (.num 49498989999999996 22)) (.mul (.rd (.var .T)) (.add (.num 72120220000000003 26) (.mul (.neg (.num 37662039999999999 30)) (.rd (.var .T))))))))))),
  .ite (.rd (.var .T)) (.num 1000 0) (.arr .cp 26) (.mul (.num 19296208183235558 14) (.add (.num 10491173 7) (.mul (.rd (.var .T)) (.add (.num 26008973000000001 18) (.mul (.rd (.var .T)) (.add (.num 23542515999999998 22) (.mul (.rd (.var .T)) (.add (.neg (.num 19595132 15)) (.mul (.num 93720207000000007 28) (.rd (.var .T))))))))))) (.mul (.num 19296208183235558 14) (.add (.num 77097479 7) (.mul (.rd (.var .T)) (.add (.num 16031485000000002 18) (.mul (.rd (.var .T)) (.add (.neg (.num 52720237999999996 22)) (.mul (.rd (.var .T)) (.add (.num 75888352000000004 26) (.mul (.neg (.num 38862719000000001 30)) (.rd (.var .T))))))))))),
  .ite (.rd (.var .T)) (.num 1000 0) (.arr .cp 27) (.mul (.num 14830262506385543 14) (.add (.num 12713498000000001 16) (.mul (.rd (.var .T)) (.add (.num 26231054 9) (.mul (.rd (.var .T)) (.add (.neg (.num 92912305000000002 22)) (.mul (.rd (.var .T)) (.add (.neg (.num 47837271999999999 25)) (.mul (.num 33480543000000001 28) (.rd (.var .T))))))))))) (.mul (.num 14830262506385543 14) (.add (.num 58111867999999998 16) (.mul (.rd (.var .T)) (.add (.num 17114256000000001 18) (.mul (.rd (.var .T)) (.add (.neg (.num 74834160999999997 22)) (.mul (.rd (.var .T)) (.add (.num 14252249000000001 25) (.mul (.neg (.num 91746840999999995 30)) (.rd (.var .T))))))))))),
  .ite (.rd (.var .T)) (.num 1000 0) (.arr .cp 28) (.mul (.num 15089882899288889 14) (.add (.num 74449432000000004 17) (.mul (.rd (.var .T)) (.add (.num 39678856999999998 18) (.mul (.rd (.var .T)) (.add (.neg (.num 22898085999999999 21)) (.mul (.rd (.var .T)) (.add (.num 21352972999999998 25) (.mul (.num 23096375 19) (.rd (.var .T))))))))))) (.mul (.num 15089882899288889 14) (.add (.num 70134835000000004 16) (.mul (.rd (.var .T)) (.add (.num 22634557999999999 18) (.mul (.rd (.var .T)) (.add (.neg (.num 92545469999999995 22)) (.mul (.rd (.var .T)) (.add (.num 16807927 16) (.mul (.neg (.num 10408617 20)) (.rd (.var .T))))))))))),
  .ite (.rd (.var .T)) (.num 1000 0) (.arr .cp 29) (.mul (.num 14818801650830409 14) (.add (.num 1181138 6) (.mul (.rd (.var .T)) (.add (.num 3085338 8) (.mul (.rd (.var .T)) (.add (.num 50865246999999997 22) (.mul (.rd (.var .T)) (.add (.neg (.num 24654887999999999 24)) (.mul (.num 11110192999999999 27) (.rd (.var .T))))))))))) (.mul (.num 14818801650830409 14) (.add (.num 20535841000000001 16) (.mul (.rd (.var .T)) (.add (.num 34350507000000002 18) (.mul (.rd (.var .T)) (.add (.neg (.num 15883196999999999 21)) (.mul (.rd (.var .T)) (.add (.num 33089662 16) (.mul (.neg (.num 25361045000000002 29)) (.rd (.var .T))))))))))),
  .ite (.rd (.var .T)) (.num 1000 0) (.arr .cp 30) (.mul (.num 1455728816681158 13) (.add (.num 12087041999999999 16) (.mul (.rd (.var .T)) (.add (.num 38297497 9) (.mul (.rd (.var .T)) (.add (.neg (.num 72660509 13)) (.mul (.rd (.var .T)) (.add (.neg (.num 15428547 15)) (.mul (.num 86859435000000004 28) (.rd (.var .T))))))))))) (.mul (.num 1455728816681158 13) (.add (.num 86822394999999997 16) (.mul (.rd (.var .T)) (.add (.num 23691071000000001 18) (.mul (.rd (.var .T)) (.add (.neg (.num 75948864999999996 22)) (.mul (.rd (.var .T)) (.add (.num 66427135999999998 26) (.mul (.num 54845136 21) (.rd (.var .T))))))))))),
  .ite (.rd (.var .T)) (.num 1000 0) (.arr .cp 31) (.mul (.num 12027900893521817 14) (.add (.neg (.num 24190111000000001 16)) (.mul (.rd (.var .T)) (.add (.num 40430388999999997 18) (.mul (.rd (.var .T)) (.add (.num 67802338999999996 22) (.mul (.rd (.var .T)) (.add (.neg (.num 33724742000000003 24)) (.mul (.num 15116713000000001 27) (.rd (.var .T))))))))))) (.mul (.num 12027900893521817 14) (.add (.num 10138640000000001 15) (.mul (.rd (.var .T)) (.add (.num 22714137999999998 18) (.mul (.rd (.var .T)) (.add (.neg (.num 77910462999999994 22)) (.mul (.rd (.var .T)) (.add (.num 11876522 16) (.mul (.neg (.num 65932448000000004 30)) (.rd (.var .T))))))))))),
  .ite (.rd (.var .T)) (.num 1392 0) (.arr .cp 32) (.mul (.num 11855041320664326 14) (.add (.neg (.num 10622348100000001 16)) (.mul (.rd (.var .T)) (.add (.num 57421829399999999 18) (.mul (.rd (.var .T)) (.add (.neg (.num 37448689000000003 21)) (.mul (.rd (.var .T)) (.add (.num 12736498899999999 24) (.mul (.neg (.num 17960978899999999 28)) (.rd (.var .T))))))))))) (.mul (.num 11855041320664326 14) (.add (.num 145851539 7) (.mul (.rd (.var .T)) (.add (.num 224072471 10) (.mul (.rd (.var .T)) (.add (.neg (.num 763348025 14)) (.mul (.rd (.var .T)) (.add (.num 11818896600000001 25) (.mul (.neg (.num 68438513900000002 30)) (.rd (.var .T))))))))))),
  .ite (.rd (.var .T)) (.num 1390 0) (.arr .cp 33) (.mul (.num 11687079873954106 14) (.add (.num 524384081 10) (.mul (.rd (.var .T)) (.add (.num 56079695800000003 18) (.mul (.rd (.var .T)) (.add (.neg (.num 33154580300000003 21)) (.mul (.rd (.var .T)) (.add (.num 97753378099999998 25) (.mul (.neg (.num 11400966 19)) (.rd (.var .T))))))))))) (.mul (.num 11687079873954106 14) (.add (.num 152977446 7) (.mul (.rd (.var .T)) (.add (.num 23973530999999999 18) (.mul (.rd (.var .T)) (.add (.neg (.num 81839294800000007 22)) (.mul (.rd (.var .T)) (.add (.num 12688307599999999 25) (.mul (.neg (.num 73540905499999999 30)) (.rd (.var .T))))))))))),
  .ite (.rd (.var .T)) (.num 1392 0) (.arr .cp 34) (.mul (.num 9879201100553604 14) (.add (.neg (.num 13527520500000001 16)) (.mul (.rd (.var .T)) (.add (.num 69865542599999997 18) (.mul (.rd (.var .T)) (.add (.neg (.num 45940802200000001 21)) (.mul (.rd (.var .T)) (.add (.num 15696734300000001 24) (.mul (.neg (.num 22129617500000001 28)) (.rd (.var .T))))))))))) (.mul (.num 9879201100553604 14) (.add (.num 178337529 7) (.mul (.rd (.var .T)) (.add (.num 267377658 10) (.mul (.rd (.var .T)) (.add (.neg (.num 91003677300000006 22)) (.mul (.rd (.var .T)) (.add (.num 140819768 17) (.mul (.neg (.num 81512424400000003 30)) (.rd (.var .T))))))))))),
  .ite (.rd (.var .T)) (.num 1390 0) (.arr .cp 35) (.mul (.num 97622851307080197 15) (.add (.neg (.num 204871465 9)) (.mul (.rd (.var .T)) (.add (.num 68380127200000002 18) (.mul (.rd (.var .T)) (.add (.neg (.num 41444791199999999 21)) (.mul (.rd (.var .T)) (.add (.num 126155802 16) (.mul (.neg (.num 15312005799999999 28)) (.rd (.var .T))))))))))) (.mul (.num 97622851307080197 15) (.add (.num 18538547000000001 15) (.mul (.rd (.var .T)) (.add (.num 28310796199999998 18) (.mul (.rd (.var .T)) (.add (.neg (.num 96530724599999996 22)) (.mul (.rd (.var .T)) (.add (.num 149547585 17) (.mul (.neg (.num 866336064 22)) (.rd (.var .T))))))))))),
  .ite (.rd (.var .T)) (.num 1392 0) (.arr .cp 36) (.mul (.num 8467886657617376 14) (.add (.neg (.num 167720549 8)) (.mul (.rd (.var .T)) (.add (.num 824611601 10) (.mul (.rd (.var .T)) (.add (.neg (.num 54650410800000001 21)) (.mul (.rd (.var .T)) (.add (.num 18786230299999999 24) (.mul (.neg (.num 26573798299999999 28)) (.rd (.var .T))))))))))) (.mul (.num 8467886657617376 14) (.add (.num 210898039 7) (.mul (.rd (.var .T)) (.add (.num 310607878 10) (.mul (.rd (.var .T)) (.add (.neg (.num 10564479299999999 21)) (.mul (.rd (.var .T)) (.add (.num 16340578 16) (.mul (.neg (.num 945598219 22)) (.rd (.var .T))))))))))),
  .ite (.rd (.var .T)) (.num 1390 0) (.arr .cp 37) (.mul (.num 83818437418406575 15) (.add (.neg (.num 49957040600000002 17)) (.mul (.rd (.var .T)) (.add (.num 80882646700000005 18) (.mul (.rd (.var .T)) (.add (.neg (.num 50053275400000002 21)) (.mul (.rd (.var .T)) (.add (.num 15654930800000001 24) (.mul (.neg (.num 196616227 20)) (.rd (.var .T))))))))))) (.mul (.num 83818437418406575 15) (.add (.num 21794070900000001 15) (.mul (.rd (.var .T)) (.add (.num 32628024300000003 18) (.mul (.rd (.var .T)) (.add (.neg (.num 11113824400000001 21)) (.mul (.rd (.var .T)) (.add (.num 172067148 17) (.mul (.neg (.num 99636699899999997 30)) (.rd (.var .T))))))))))),
  .ite (.rd (.var .T)) (.num 1392 0) (.arr .cp 38) (.mul (.num 74094008254152044 15) (.add (.neg (.num 189226915 8)) (.mul (.rd (.var .T)) (.add (.num 94606635699999997 18) (.mul (.rd (.var .T)) (.add (.neg (.num 62738552100000003 21)) (.mul (.rd (.var .T)) (.add (.num 215158309 16) (.mul (.neg (.num 30271868300000002 28)) (.rd (.var .T))))))))))) (.mul (.num 74094008254152044 15) (.add (.num 243540125 7) (.mul (.rd (.var .T)) (.add (.num 35366646199999997 18) (.mul (.rd (.var .T)) (.add (.neg (.num 120208388 13)) (.mul (.rd (.var .T)) (.add (.num 185855053 17) (.mul (.neg (.num 107522262 21)) (.rd (.var .T))))))))))),
  .ite (.rd (.var .T)) (.num 1390 0) (.arr .cp 39) (.mul (.num 73434404393878353 15) (.add (.neg (.num 77275943800000002 17)) (.mul (.rd (.var .T)) (.add (.num 93254970500000006 18) (.mul (.rd (.var .T)) (.add (.neg (.num 58444724499999997 21)) (.mul (.rd (.var .T)) (.add (.num 18557021399999999 24) (.mul (.neg (.num 23712748300000001 28)) (.rd (.var .T))))))))))) (.mul (.num 73434404393878353 15) (.add (.num 25051035599999999 15) (.mul (.rd (.var .T)) (.add (.num 36948016200000003 18) (.mul (.rd (.var .T)) (.add (.neg (.num 125765264 13)) (.mul (.rd (.var .T)) (.add (.num 19462840899999998 25) (.mul (.neg (.num 112668898 21)) (.rd (.var .T))))))))))),
  .ite (.rd (.var .T)) (.num 1392 0) (.arr .cp 40) (.mul (.num 65861340670357365 15) (.add (.neg (.num 21610826300000001 16)) (.mul (.rd (.var .T)) (.add (.num 10695829699999999 17) (.mul (.rd (.var .T)) (.add (.neg (.num 710973244 13)) (.mul (.rd (.var .T)) (.add (.num 243971077 16) (.mul (.neg (.num 34277154699999998 28)) (.rd (.var .T))))))))))) (.mul (.num 65861340670357365 15) (.add (.num 276142176 7) (.mul (.rd (.var .T)) (.add (.num 39682528699999997 18) (.mul (.rd (.var .T)) (.add (.neg (.num 134819446 13)) (.mul (.rd (.var .T)) (.add (.num 20839045200000001 25) (.mul (.neg (.num 120539294 21)) (.rd (.var .T))))))))))),
  .ite (.rd (.var .T)) (.num 1390 0) (.arr .cp 41) (.mul (.num 65339656169366336 15) (.add (.neg (.num 10438729200000001 16)) (.mul (.rd (.var .T)) (.add (.num 10561728300000001 17) (.mul (.rd (.var .T)) (.add (.neg (.num 66819997100000004 21)) (.mul (.rd (.var .T)) (.add (.num 21448616599999999 24) (.mul (.neg (.num 27740427500000001 28)) (.rd (.var .T))))))))))) (.mul (.num 65339656169366336 15) (.add (.num 283097514 7) (.mul (.rd (.var .T)) (.add (.num 41265734399999997 18) (.mul (.rd (.var .T)) (.add (.neg (.num 140383289 13)) (.mul (.rd (.var .T)) (.add (.num 21717487099999999 25) (.mul (.neg (.num 12569230699999999 29)) (.rd (.var .T))))))))))),
  .ite (.rd (.var .T)) (.num 1392 0) (.arr .cp 42) (.mul (.num 59275206603321628 15) (.add (.neg (.num 24290168799999998 16)) (.mul (.rd (.var .T)) (.add (.num 119305598 9) (.mul (.rd (.var .T)) (.add (.neg (.num 79448902500000001 21)) (.mul (.rd (.var .T)) (.add (.num 27273659600000001 24) (.mul (.neg (.num 38271837299999998 28)) (.rd (.var .T))))))))))) (.mul (.num 59275206603321628 15) (.add (.num 30875390299999999 15) (.mul (.rd (.var .T)) (.add (.num 43997152599999999 18) (.mul (.rd (.var .T)) (.add (.neg (.num 14942553 12)) (.mul (.rd (.var .T)) (.add (.num 23091767799999998 25) (.mul (.neg (.num 133551477 21)) (.rd (.var .T))))))))))),
  .ite (.rd (.var .T)) (.num 1390 0) (.arr .cp 43) (.mul (.num 58852307180927312 15) (.add (.neg (.num 13135834799999999 16)) (.mul (.rd (.var .T)) (.add (.num 117972813 9) (.mul (.rd (.var .T)) (.add (.neg (.num 75184307900000001 21)) (.mul (.rd (.var .T)) (.add (.num 24333110599999999 24) (.mul (.neg (.num 31752285200000001 28)) (.rd (.var .T))))))))))) (.mul (.num 58852307180927312 15) (.add (.num 31569716 6) (.mul (.rd (.var .T)) (.add (.num 45581840300000002 18) (.mul (.rd (.var .T)) (.add (.neg (.num 154994965 13)) (.mul (.rd (.var .T)) (.add (.num 23971093299999999 25) (.mul (.neg (.num 13870955900000001 29)) (.rd (.var .T))))))))))),
  .ite (.rd (.var .T)) (.num 1391 0) (.arr .cp 44) (.mul (.num 48811425653540098 15) (.add (.neg (.num 26218159399999998 16)) (.mul (.rd (.var .T)) (.add (.num 14723771099999999 17) (.mul (.rd (.var .T)) (.add (.neg (.num 94397027100000003 21)) (.mul (.rd (.var .T)) (.add (.num 30744126800000001 24) (.mul (.neg (.num 40360223000000001 28)) (.rd (.var .T))))))))))) (.mul (.num 48811425653540098 15) (.add (.num 38509503700000003 15) (.mul (.rd (.var .T)) (.add (.num 56355004799999997 18) (.mul (.rd (.var .T)) (.add (.neg (.num 19149320000000001 21)) (.mul (.rd (.var .T)) (.add (.num 296024862 17) (.mul (.neg (.num 17124415000000001 29)) (.rd (.var .T))))))))))),
  .ite (.rd (.var .T)) (.num 1390 0) (.arr .cp 45) (.mul (.num 49101975722034723 15) (.add (.neg (.num 185028741 8)) (.mul (.rd (.var .T)) (.add (.num 14267070800000001 17) (.mul (.rd (.var .T)) (.add (.neg (.num 91891655500000001 21)) (.mul (.rd (.var .T)) (.add (.num 300883392 16) (.mul (.neg (.num 39745429999999999 28)) (.rd (.var .T))))))))))) (.mul (.num 49101975722034723 15) (.add (.num 38092188499999999 15) (.mul (.rd (.var .T)) (.add (.num 54210784800000002 18) (.mul (.rd (.var .T)) (.add (.neg (.num 18420551700000002 21)) (.mul (.rd (.var .T)) (.add (.num 28476217300000002 25) (.mul (.neg (.num 16473174800000001 29)) (.rd (.var .T))))))))))),
  .ite (.rd (.var .T)) (.num 1385 0) (.arr .cp 46) (.mul (.num 49101975722034723 15) (.add (.neg (.num 13678708900000001 16)) (.mul (.rd (.var .T)) (.add (.num 13735534799999999 17) (.mul (.rd (.var .T)) (.add (.neg (.num 82407615799999994 21)) (.mul (.rd (.var .T)) (.add (.num 23642156200000001 24) (.mul (.neg (.num 24743593200000001 28)) (.rd (.var .T))))))))))) (.mul (.num 49101975722034723 15) (.add (.num 37968826800000002 15) (.mul (.rd (.var .T)) (.add (.num 53871946400000002 18) (.mul (.rd (.var .T)) (.add (.neg (.num 18217126300000001 21)) (.mul (.rd (.var .T)) (.add (.num 28077450299999999 25) (.mul (.neg (.num 16210842000000001 29)) (.rd (.var .T))))))))))),
  .ite (.rd (.var .T)) (.num 1385 0) (.arr .cp 47) (.mul (.num 49101975722034723 15) (.add (.neg (.num 13678708900000001 16)) (.mul (.rd (.var .T)) (.add (.num 13735534799999999 17) (.mul (.rd (.var .T)) (.add (.neg (.num 82407615799999994 21)) (.mul (.rd (.var .T)) (.add (.num 23642156200000001 24) (.mul (.neg (.num 24743593200000001 28)) (.rd (.var .T))))))))))) (.mul (.num 49101975722034723 15) (.add (.num 37968826800000002 15) (.mul (.rd (.var .T)) (.add (.num 53871946400000002 18) (.mul (.rd (.var .T)) (.add (.neg (.num 18217126300000001 21)) (.mul (.rd (.var .T)) (.add (.num 28077450299999999 25) (.mul (.neg (.num 16210842000000001 29)) (.rd (.var .T))))))))))),
  .ite (.rd (.var .T)) (.num 1391 0) (.arr .cp 48) (.mul (.num 4939600550276802 14) (.add (.neg (.num 29634268100000001 16)) (.mul (.rd (.var .T)) (.add (.num 14399236000000001 17) (.mul (.rd (.var .T)) (.add (.neg (.num 96138401500000002 21)) (.mul (.rd (.var .T)) (.add (.num 33017447300000002 24) (.mul (.neg (.num 46239818999999997 28)) (.rd (.var .T))))))))))) (.mul (.num 4939600550276802 14) (.add (.num 374002111 7) (.mul (.rd (.var .T)) (.add (.num 52623075300000002 18) (.mul (.rd (.var .T)) (.add (.neg (.num 178624319 13)) (.mul (.rd (.var .T)) (.add (.num 27594986300000001 25) (.mul (.neg (.num 15956249899999999 29)) (.rd (.var .T))))))))))),
  .ite (.rd (.var .T)) (.num 1000 0) (.arr .cp 49) (.mul (.num 41297824509398289 15) (.add (.num 53140400000000003 16) (.mul (.rd (.var .T)) (.add (.num 89387300000000003 18) (.mul (.rd (.var .T)) (.add (.num 14535100000000001 21) (.mul (.rd (.var .T)) (.add (.neg (.num 74925000000000004 24)) (.mul (.num 33532500000000002 27) (.rd (.var .T))))))))))) (.mul (.num 41297824509398289 15) (.add (.num 28478200000000001 15) (.mul (.rd (.var .T)) (.add (.num 537539 7) (.mul (.rd (.var .T)) (.add (.neg (.num 16818599999999999 21)) (.mul (.rd (.var .T)) (.add (.num 25136700000000001 25) (.mul (.neg (.num 14720799999999999 29)) (.rd (.var .T))))))))))),
  .ite (.rd (.var .T)) (.num 1000 0) (.arr .cp 50) (.mul (.num 41297824509398289 15) (.add (.num 51523099999999999 16) (.mul (.rd (.var .T)) (.add (.num 99791299999999999 18) (.mul (.rd (.var .T)) (.add (.neg (.num 18063500000000001 21)) (.mul (.rd (.var .T)) (.add (.neg (.num 418435 13)) (.mul (.num 22278599999999999 27) (.rd (.var .T))))))))))) (.mul (.num 41297824509398289 15) (.add (.num 29201899999999998 15) (.mul (.rd (.var .T)) (.add (.num 51591699999999997 18) (.mul (.rd (.var .T)) (.add (.neg (.num 15732699999999999 21)) (.mul (.rd (.var .T)) (.add (.num 23030600000000001 25) (.mul (.neg (.num 13264 17)) (.rd (.var .T))))))))))),
  .ite (.rd (.var .T)) (.num 1000 0) (.arr .cp 51) (.mul (.num 35634208224384466 15) (.add (.num 48197200000000001 17) (.mul (.rd (.var .T)) (.add (.num 14502000000000001 17) (.mul (.rd (.var .T)) (.add (.neg (.num 99930800000000002 21)) (.mul (.rd (.var .T)) (.add (.num 260422 13) (.mul (.num 119358 17) (.rd (.var .T))))))))))) (.mul (.num 35634208224384466 15) (.add (.num 35090699999999998 15) (.mul (.rd (.var .T)) (.add (.num 51059 6) (.mul (.rd (.var .T)) (.add (.neg (.num 15434499999999999 21)) (.mul (.rd (.var .T)) (.add (.num 22462699999999999 25) (.mul (.neg (.num 12890100000000001 29)) (.rd (.var .T))))))))))),
  .ite (.rd (.var .T)) (.num 1000 0) (.arr .cp 52) (.mul (.num 38435802925248602 15) (.add (.num 88073300000000003 16) (.mul (.rd (.var .T)) (.add (.num 65062300000000003 18) (.mul (.rd (.var .T)) (.add (.num 69505799999999994 21) (.mul (.rd (.var .T)) (.add (.neg (.num 12690500000000001 23)) (.mul (.num 51099100000000001 27) (.rd (.var .T))))))))))) (.mul (.num 38435802925248602 15) (.add (.num 23673100000000002 15) (.mul (.rd (.var .T)) (.add (.num 61639199999999998 18) (.mul (.rd (.var .T)) (.add (.neg (.num 209836 10)) (.mul (.rd (.var .T)) (.add (.num 33316600000000001 25) (.mul (.neg (.num 20358999999999999 29)) (.rd (.var .T))))))))))),
  .ite (.rd (.var .T)) (.num 1000 0) (.arr .cp 53) (.mul (.num 29680218594762238 14) (.add (.num 32986770000000001 16) (.mul (.rd (.var .T)) (.add (.num 14082404 10) (.mul (.rd (.var .T)) (.add (.neg (.num 39632219999999998 22)) (.mul (.rd (.var .T)) (.add (.num 56415150000000002 25) (.mul (.neg (.num 24448539999999999 28)) (.rd (.var .T))))))))))) (.mul (.num 29680218594762238 14) (.add (.num 29266399999999999 16) (.mul (.rd (.var .T)) (.add (.num 14879768000000001 19) (.mul (.rd (.var .T)) (.add (.neg (.num 56847600000000001 23)) (.mul (.rd (.var .T)) (.add (.num 10097038 17) (.mul (.neg (.num 67533509999999998 31)) (.rd (.var .T)))))))))))]

/-- utilities/mechanisms/yao/lib/src/mass_mole.c:8-132 -/
def mole2mass : List CStmt := [
  .set (.var .xN) (.sub (.num 1 0) (.add (.add (.add (.add (.add (.add (.add (.add (.add (.add (.add (.add (.add (.add (.add (.add (.add (.add (.add (.add (.add (.add (.add (.add (.add (.add (.add (.add (.add (.add (.add (.add (.add (.add (.add (.add (.add (.add (.add (.add (.add (.add (.add (.add (.add (.add (.add (.add (.add (.add (.add (.add (.rd (.arr .X 0)) (.rd (.arr .X 1))) (.rd (.arr .X 2))) (.rd (.arr .X 3))) (.rd (.arr .X 4))) (.rd (.arr .X 5))) (.rd (.arr .X 6))) (.rd (.arr .X 7))) (.rd (.arr .X 8))) (.rd (.arr .X 9))) (.rd (.arr .X 10))) (.rd (.arr .X 11))) (.rd (.arr .X 12))) (.rd (.arr .X 13))) (.rd (.arr .X 14))) (.rd (.arr .X 15))) (.rd (.arr .X 16))) (.rd (.arr .X 17))) (.rd (.arr .X 18))) (.rd (.arr .X 19))) (.rd (.arr .X 20))) (.rd (.arr .X 21))) (.rd (.arr .X 22))) (.rd (.arr .X 23))) (.rd (.arr .X 24))) (.rd (.arr .X 25))) (.rd (.arr .X 26))) (.rd (.arr .X 27))) (.rd (.arr .X 28))) (.rd (.arr .X 29))) (.rd (.arr .X 30))) (.rd (.arr .X 31))) (.rd (.arr .X 32))) (.rd (.arr .X 33))) (.rd (.arr .X 34))) (.rd (.arr .X 35))) (.rd (.arr .X 36))) (.rd (.arr .X 37))) (.rd (.arr .X 38))) (.rd (.arr .X 39))) (.rd (.arr .X 40))) (.rd (.arr .X 41))) (.rd (.arr .X 42))) (.rd (.arr .X 43))) (.rd (.arr .X 44))) (.rd (.arr .X 45))) (.rd (.arr .X 46))) (.rd (.arr .X 47))) (.rd (.arr .X 48))) (.rd (.arr .X 49))) (.rd (.arr .X 50))) (.rd (.arr .X 51))) (.rd (.arr .X 52)))),
  .set (.var .mwAvg) (.num 0 0),
  .set (.var .mwAvg) (.add (.rd (.var .mwAvg)) (.mul (.rd (.arr .X 0)) (.num 39948 3))),
  .set (.var .mwAvg) (.add (.rd (.var .mwAvg)) (.mul (.rd (.arr .X 1)) (.num 10079400000000001 16))),
  .set (.var .mwAvg) (.add (.rd (.var .mwAvg)) (.mul (.rd (.arr .X 2)) (.num 159994 4))),
  .set (.var .mwAvg) (.add (.rd (.var .mwAvg)) (.mul (.rd (.arr .X 3)) (.num 17007339999999999 15))),
  .set (.var .mwAvg) (.add (.rd (.var .mwAvg)) (.mul (.rd (.arr .X 4)) (.num 33006740000000001 15))),
  .set (.var .mwAvg) (.add (.rd (.var .mwAvg)) (.mul (.rd (.arr .X 5)) (.num 20158800000000001 16))),
  .set (.var .mwAvg) (.add (.rd (.var .mwAvg)) (.mul (.rd (.arr .X 6)) (.num 18015280000000001 15))),
  .set (.var .mwAvg) (.add (.rd (.var .mwAvg)) (.mul (.rd (.arr .X 7)) (.num 34014679999999998 15))),
  .set (.var .mwAvg) (.add (.rd (.var .mwAvg)) (.mul (.rd (.arr .X 8)) (.num 31998799999999999 15))),
  .set (.var .mwAvg) (.add (.rd (.var .mwAvg)) (.mul (.rd (.arr .X 9)) (.num 14026879999999998 15))),
  .set (.var .mwAvg) (.add (.rd (.var .mwAvg)) (.mul (.rd (.arr .X 10)) (.num 14026879999999998 15))),
  .set (.var .mwAvg) (.add (.rd (.var .mwAvg)) (.mul (.rd (.arr .X 11)) (.num 1503482 5))),
  .set (.var .mwAvg) (.add (.rd (.var .mwAvg)) (.mul (.rd (.arr .X 12)) (.num 16042760000000001 15))),
  .set (.var .mwAvg) (.add (.rd (.var .mwAvg)) (.mul (.rd (.arr .X 13)) (.num 29018339999999998 15))),
  .set (.var .mwAvg) (.add (.rd (.var .mwAvg)) (.mul (.rd (.arr .X 14)) (.num 3002628 5))),
  .set (.var .mwAvg) (.add (.rd (.var .mwAvg)) (.mul (.rd (.arr .X 15)) (.num 31034219999999998 15))),
  .set (.var .mwAvg) (.add (.rd (.var .mwAvg)) (.mul (.rd (.arr .X 16)) (.num 28010399999999997 15))),
  .set (.var .mwAvg) (.add (.rd (.var .mwAvg)) (.mul (.rd (.arr .X 17)) (.num 44009799999999998 15))),
  .set (.var .mwAvg) (.add (.rd (.var .mwAvg)) (.mul (.rd (.arr .X 18)) (.num 26037879999999998 15))),
  .set (.var .mwAvg) (.add (.rd (.var .mwAvg)) (.mul (.rd (.arr .X 19)) (.num 27045819999999999 15))),
  .set (.var .mwAvg) (.add (.rd (.var .mwAvg)) (.mul (.rd (.arr .X 20)) (.num 28053759999999997 15))),
  .set (.var .mwAvg) (.add (.rd (.var .mwAvg)) (.mul (.rd (.arr .X 21)) (.num 29061699999999998 15))),
  .set (.var .mwAvg) (.add (.rd (.var .mwAvg)) (.mul (.rd (.arr .X 22)) (.num 3006964 5))),
  .set (.var .mwAvg) (.add (.rd (.var .mwAvg)) (.mul (.rd (.arr .X 23)) (.num 4304522 5))),
  .set (.var .mwAvg) (.add (.rd (.var .mwAvg)) (.mul (.rd (.arr .X 24)) (.num 41072699999999998 15))),
  .set (.var .mwAvg) (.add (.rd (.var .mwAvg)) (.mul (.rd (.arr .X 25)) (.num 42080640000000002 15))),
  .set (.var .mwAvg) (.add (.rd (.var .mwAvg)) (.mul (.rd (.arr .X 26)) (.num 4308858 5))),
  .set (.var .mwAvg) (.add (.rd (.var .mwAvg)) (.mul (.rd (.arr .X 27)) (.num 56064160000000001 15))),
  .set (.var .mwAvg) (.add (.rd (.var .mwAvg)) (.mul (.rd (.arr .X 28)) (.num 55099579999999996 15))),
  .set (.var .mwAvg) (.add (.rd (.var .mwAvg)) (.mul (.rd (.arr .X 29)) (.num 56107519999999994 15))),
  .set (.var .mwAvg) (.add (.rd (.var .mwAvg)) (.mul (.rd (.arr .X 30)) (.num 57115459999999999 15))),
  .set (.var .mwAvg) (.add (.rd (.var .mwAvg)) (.mul (.rd (.arr .X 31)) (.num 69126459999999994 15))),
  .set (.var .mwAvg) (.add (.rd (.var .mwAvg)) (.mul (.rd (.arr .X 32)) (.num 70134399999999999 15))),
  .set (.var .mwAvg) (.add (.rd (.var .mwAvg)) (.mul (.rd (.arr .X 33)) (.num 7114233999999999 14))),
  .set (.var .mwAvg) (.add (.rd (.var .mwAvg)) (.mul (.rd (.arr .X 34)) (.num 84161280000000005 15))),
  .set (.var .mwAvg) (.add (.rd (.var .mwAvg)) (.mul (.rd (.arr .X 35)) (.num 85169219999999996 15))),
  .set (.var .mwAvg) (.add (.rd (.var .mwAvg)) (.mul (.rd (.arr .X 36)) (.num 98188159999999996 15))),
  .set (.var .mwAvg) (.add (.rd (.var .mwAvg)) (.mul (.rd (.arr .X 37)) (.num 99196100000000001 15))),
  .set (.var .mwAvg) (.add (.rd (.var .mwAvg)) (.mul (.rd (.arr .X 38)) (.num 11221503999999999 14))),
  .set (.var .mwAvg) (.add (.rd (.var .mwAvg)) (.mul (.rd (.arr .X 39)) (.num 11322297999999999 14))),
  .set (.var .mwAvg) (.add (.rd (.var .mwAvg)) (.mul (.rd (.arr .X 40)) (.num 12624191999999999 14))),
  .set (.var .mwAvg) (.add (.rd (.var .mwAvg)) (.mul (.rd (.arr .X 41)) (.num 12724985999999998 14))),
  .set (.var .mwAvg) (.add (.rd (.var .mwAvg)) (.mul (.rd (.arr .X 42)) (.num 1402688 4))),
  .set (.var .mwAvg) (.add (.rd (.var .mwAvg)) (.mul (.rd (.arr .X 43)) (.num 14127673999999999 14))),
  .set (.var .mwAvg) (.add (.rd (.var .mwAvg)) (.mul (.rd (.arr .X 44)) (.num 17033843999999999 14))),
  .set (.var .mwAvg) (.add (.rd (.var .mwAvg)) (.mul (.rd (.arr .X 45)) (.num 1693305 4))),
  .set (.var .mwAvg) (.add (.rd (.var .mwAvg)) (.mul (.rd (.arr .X 46)) (.num 1693305 4))),
  .set (.var .mwAvg) (.add (.rd (.var .mwAvg)) (.mul (.rd (.arr .X 47)) (.num 1693305 4))),
  .set (.var .mwAvg) (.add (.rd (.var .mwAvg)) (.mul (.rd (.arr .X 48)) (.num 16832256000000001 14))),
  .set (.var .mwAvg) (.add (.rd (.var .mwAvg)) (.mul (.rd (.arr .X 49)) (.num 20132929999999999 14))),
  .set (.var .mwAvg) (.add (.rd (.var .mwAvg)) (.mul (.rd (.arr .X 50)) (.num 20132929999999999 14))),
  .set (.var .mwAvg) (.add (.rd (.var .mwAvg)) (.mul (.rd (.arr .X 51)) (.num 23332810000000001 14))),
  .set (.var .mwAvg) (.add (.rd (.var .mwAvg)) (.mul (.rd (.arr .X 52)) (.num 21632076000000001 14))),
  .set (.var .mwAvg) (.add (.rd (.var .mwAvg)) (.mul (.rd (.var .xN)) (.num 28013480000000001 15))),
  .set (.arr .Y 0) (.div (.mul (.rd (.arr .X 0)) (.num 39948 3)) (.rd (.var .mwAvg))),
  .set (.arr .Y 1) (.div (.mul (.rd (.arr .X 1)) (.num 10079400000000001 16)) (.rd (.var .mwAvg))),
  .set (.arr .Y 2) (.div (.mul (.rd (.arr .X 2)) (.num 159994 4)) (.rd (.var .mwAvg))),
  .set (.arr .Y 3) (.div (.mul (.rd (.arr .X 3)) (.num 17007339999999999 15)) (.rd (.var .mwAvg))),
  .set (.arr .Y 4) (.div (.mul (.rd (.arr .X 4)) (.num 33006740000000001 15)) (.rd (.var .mwAvg))),
  .set (.arr .Y 5) (.div (.mul (.rd (.arr .X 5)) (.num 20158800000000001 16)) (.rd (.var .mwAvg))),
  .set (.arr .Y 6) (.div (.mul (.rd (.arr .X 6)) (.num 18015280000000001 15)) (.rd (.var .mwAvg))),
  .set (.arr .Y 7) (.div (.mul (.rd (.arr .X 7)) (.num 34014679999999998 15)) (.rd (.var .mwAvg))),
  .set (.arr .Y 8) (.div (.mul (.rd (.arr .X 8)) (.num 31998799999999999 15)) (.rd (.var .mwAvg))),
  .set (.arr .Y 9) (.div (.mul (.rd (.arr .X 9)) (.num 14026879999999998 15)) (.rd (.var .mwAvg))),
  .set (.arr .Y 10) (.div (.mul (.rd (.arr .X 10)) (.num 14026879999999998 15)) (.rd (.var .mwAvg))),
  .set (.arr .Y 11) (.div (.mul (.rd (.arr .X 11)) (.num 1503482 5)) (.rd (.var .mwAvg))),
  .set (.arr .Y 12) (.div (.mul (.rd (.arr .X 12)) (.num 16042760000000001 15)) (.rd (.var .mwAvg))),
  .set (.arr .Y 13) (.div (.mul (.rd (.arr .X 13)) (.num 29018339999999998 15)) (.rd (.var .mwAvg))),
  .set (.arr .Y 14) (.div (.mul (.rd (.arr .X 14)) (.num 3002628 5)) (.rd (.var .mwAvg))),
  .set (.arr .Y 15) (.div (.mul (.rd (.arr .X 15)) (.num 31034219999999998 15)) (.rd (.var .mwAvg))),
  .set (.arr .Y 16) (.div (.mul (.rd (.arr .X 16)) (.num 28010399999999997 15)) (.rd (.var .mwAvg))),
  .set (.arr .Y 17) (.div (.mul (.rd (.arr .X 17)) (.num 44009799999999998 15)) (.rd (.var .mwAvg))),
  .set (.arr .Y 18) (.div (.mul (.rd (.arr .X 18)) (.num 26037879999999998 15)) (.rd (.var .mwAvg))),
  .set (.arr .Y 19) (.div (.mul (.rd (.arr .X 19)) (.num 27045819999999999 15)) (.rd (.var .mwAvg))),
  .set (.arr .Y 20) (.div (.mul (.rd (.arr .X 20)) (.num 28053759999999997 15)) (.rd (.var .mwAvg))),
  .set (.arr .Y 21) (.div (.mul (.rd (.arr .X 21)) (.num 29061699999999998 15)) (.rd (.var .mwAvg))),
  .set (.arr .Y 22) (.div (.mul (.rd (.arr .X 22)) (.num 3006964 5)) (.rd (.var .mwAvg))),
  .set (.arr .Y 23) (.div (.mul (.rd (.arr .X 23)) (.num 4304522 5)) (.rd (.var .mwAvg))),
  .set (.arr .Y 24) (.div (.mul (.rd (.arr .X 24)) (.num 41072699999999998 15)) (.rd (.var .mwAvg))),
  .set (.arr .Y 25) (.div (.mul (.rd (.arr .X 25)) (.num 42080640000000002 15)) (.rd (.var .mwAvg))),
  .set (.arr .Y 26) (.div (.mul (.rd (.arr .X 26)) (.num 4308858 5)) (.rd (.var .mwAvg))),
  .set (.arr .Y 27) (.div (.mul (.rd (.arr .X 27)) (.num 56064160000000001 15)) (.rd (.var .mwAvg))),
  .set (.arr .Y 28) (.div (.mul (.rd (.arr .X 28)) (.num 55099579999999996 15)) (.rd (.var .mwAvg))),
  .set (.arr .Y 29) (.div (.mul (.rd (.arr .X 29)) (.num 56107519999999994 15)) (.rd (.var .mwAvg))),
  .set (.arr .Y 30) (.div (.mul (.rd (.arr .X 30)) (.num 57115459999999999 15)) (.rd (.var .mwAvg))),
  .set (.arr .Y 31) (.div (.mul (.rd (.arr .X 31)) (.num 69126459999999994 15)) (.rd (.var .mwAvg))),
  .set (.arr .Y 32) (.div (.mul (.rd (.arr .X 32)) (.num 70134399999999999 15)) (.rd (.var .mwAvg))),
  .set (.arr .Y 33) (.div (.mul (.rd (.arr .X 33)) (.num 7114233999999999 14)) (.rd (.var .mwAvg))),
  .set (.arr .Y 34) (.div (.mul (.rd (.arr .X 34)) (.num 84161280000000005 15)) (.rd (.var .mwAvg))),
  .set (.arr .Y 35) (.div (.mul (.rd (.arr .X 35)) (.num 85169219999999996 15)) (.rd (.var .mwAvg))),
  .set (.arr .Y 36) (.div (.mul (.rd (.arr .X 36)) (.num 98188159999999996 15)) (.rd (.var .mwAvg))),
  .set (.arr .Y 37) (.div (.mul (.rd (.arr .X 37)) (.num 99196100000000001 15)) (.rd (.var .mwAvg))),
  .set (.arr .Y 38) (.div (.mul (.rd (.arr .X 38)) (.num 11221503999999999 14)) (.rd (.var .mwAvg))),
  .set (.arr .Y 39) (.div (.mul (.rd (.arr .X 39)) (.num 11322297999999999 14)) (.rd (.var .mwAvg))),
  .set (.arr .Y 40) (.div (.mul (.rd (.arr .X 40)) (.num 12624191999999999 14)) (.rd (.var .mwAvg))),
  .set (.arr .Y 41) (.div (.mul (.rd (.arr .X 41)) (.num 12724985999999998 14)) (.rd (.var .mwAvg))),
  .set (.arr .Y 42) (.div (.mul (.rd (.arr .X 42)) (.num 1402688 4)) (.rd (.var .mwAvg))),
  .set (.arr .Y 43) (.div (.mul (.rd (.arr .X 43)) (.num 14127673999999999 14)) (.rd (.var .mwAvg))),
  .set (.arr .Y 44) (.div (.mul (.rd (.arr .X 44)) (.num 17033843999999999 14)) (.rd (.var .mwAvg))),
  .set (.arr .Y 45) (.div (.mul (.rd (.arr .X 45)) (.num 1693305 4)) (.rd (.var .mwAvg))),
  .set (.arr .Y 46) (.div (.mul (.rd (.arr .X 46)) (.num 1693305 4)) (.rd (.var .mwAvg))),
  .set (.arr .Y 47) (.div (.mul (.rd (.arr .X 47)) (.num 1693305 4)) (.rd (.var .mwAvg))),
  .set (.arr .Y 48) (.div (.mul (.rd (.arr .X 48)) (.num 16832256000000001 14)) (.rd (.var .mwAvg))),
  .set (.arr .Y 49) (.div (.mul (.rd (.arr .X 49)) (.num 20132929999999999 14)) (.rd (.var .mwAvg))),
  .set (.arr .Y 50) (.div (.mul (.rd (.arr .X 50)) (.num 20132929999999999 14)) (.rd (.var .mwAvg))),
  .set (.arr .Y 51) (.div (.mul (.rd (.arr .X 51)) (.num 23332810000000001 14)) (.rd (.var .mwAvg))),
  .set (.arr .Y 52) (.div (.mul (.rd (.arr .X 52)) (.num 21632076000000001 14)) (.rd (.var .mwAvg)))]

/-- utilities/mechanisms/yao/lib/src/mass_mole.c:139-264 -/
def mass2mole : List CStmt := [
  .set (.var .yN) (.sub (.num 1 0) (.add (.add (.add (.add (.add (.add (.add (.add (.add (.add (.add (.add (.add (.add (.add (.add (.add (.add (.add (.add (.add (.add (.add (.add (.add (.add (.add (.add (.add (.add (.add (.add (.add (.add (.add (.add (.add (.add (.add (.add (.add (.add (.add (.add (.add (.add (.add (.add (.add (.add (.add (.add (.rd (.arr .Y 0)) (.rd (.arr .Y 1))) (.rd (.arr .Y 2))) (.rd (.arr .Y 3))) (.rd (.arr .Y 4))) (.rd (.arr .Y 5))) (.rd (.arr .Y 6))) (.rd (.arr .Y 7))) (.rd (.arr .Y 8))) (.rd (.arr .Y 9))) (.rd (.arr .Y 10))) (.rd (.arr .Y 11))) (.rd (.arr .Y 12))) (.rd (.arr .Y 13))) (.rd (.arr .Y 14))) (.rd (.arr .Y 15))) (.rd (.arr .Y 16))) (.rd (.arr .Y 17))) (.rd (.arr .Y 18))) (.rd (.arr .Y 19))) (.rd (.arr .Y 20))) (.rd (.arr .Y 21))) (.rd (.arr .Y 22))) (.rd (.arr .Y 23))) (.rd (.arr .Y 24))) (.rd (.arr .Y 25))) (.rd (.arr .Y 26))) (.rd (.arr .Y 27))) (.rd (.arr .Y 28))) (.rd (.arr .Y 29))) (.rd (.arr .Y 30))) (.rd (.arr .Y 31))) (.rd (.arr .Y 32))) (.rd (.arr .Y 33))) (.rd (.arr .Y 34))) (.rd (.arr .Y 35))) (.rd (.arr .Y 36))) (.rd (.arr .Y 37))) (.rd (.arr .Y 38))) (.rd (.arr .Y 39))) (.rd (.arr .Y 40))) (.rd (.arr .Y 41))) (.rd (.arr .Y 42))) (.rd (.arr .Y 43))) (.rd (.arr .Y 44))) (.rd (.arr .Y 45))) (.rd (.arr .Y 46))) (.rd (.arr .Y 47))) (.rd (.arr .Y 48))) (.rd (.arr .Y 49))) (.rd (.arr .Y 50))) (.rd (.arr .Y 51))) (.rd (.arr .Y 52)))),
  .set (.var .mwAvg) (.num 0 0),
  .set (.var .mwAvg) (.add (.rd (.var .mwAvg)) (.div (.rd (.arr .Y 0)) (.num 39948 3))),
  .set (.var .mwAvg) (.add (.rd (.var .mwAvg)) (.div (.rd (.arr .Y 1)) (.num 10079400000000001 16))),
  .set (.var .mwAvg) (.add (.rd (.var .mwAvg)) (.div (.rd (.arr .Y 2)) (.num 159994 4))),
  .set (.var .mwAvg) (.add (.rd (.var .mwAvg)) (.div (.rd (.arr .Y 3)) (.num 17007339999999999 15))),
  .set (.var .mwAvg) (.add (.rd (.var .mwAvg)) (.div (.rd (.arr .Y 4)) (.num 33006740000000001 15))),
  .set (.var .mwAvg) (.add (.rd (.var .mwAvg)) (.div (.rd (.arr .Y 5)) (.num 20158800000000001 16))),
  .set (.var .mwAvg) (.add (.rd (.var .mwAvg)) (.div (.rd (.arr .Y 6)) (.num 18015280000000001 15))),
  .set (.var .mwAvg) (.add (.rd (.var .mwAvg)) (.div (.rd (.arr .Y 7)) (.num 34014679999999998 15))),
  .set (.var .mwAvg) (.add (.rd (.var .mwAvg)) (.div (.rd (.arr .Y 8)) (.num 31998799999999999 15))),
  .set (.var .mwAvg) (.add (.rd (.var .mwAvg)) (.div (.rd (.arr .Y 9)) (.num 14026879999999998 15))),
  .set (.var .mwAvg) (.add (.rd (.var .mwAvg)) (.div (.rd (.arr .Y 10)) (.num 14026879999999998 15))),
  .set (.var .mwAvg) (.add (.rd (.var .mwAvg)) (.div (.rd (.arr .Y 11)) (.num 1503482 5))),
  .set (.var .mwAvg) (.add (.rd (.var .mwAvg)) (.div (.rd (.arr .Y 12)) (.num 16042760000000001 15))),
  .set (.var .mwAvg) (.add (.rd (.var .mwAvg)) (.div (.rd (.arr .Y 13)) (.num 29018339999999998 15))),
  .set (.var .mwAvg) (.add (.rd (.var .mwAvg)) (.div (.rd (.arr .Y 14)) (.num 3002628 5))),
  .set (.var .mwAvg) (.add (.rd (.var .mwAvg)) (.div (.rd (.arr .Y 15)) (.num 31034219999999998 15))),
  .set (.var .mwAvg) (.add (.rd (.var .mwAvg)) (.div (.rd (.arr .Y 16)) (.num 28010399999999997 15))),
  .set (.var .mwAvg) (.add (.rd (.var .mwAvg)) (.div (.rd (.arr .Y 17)) (.num 44009799999999998 15))),
  .set (.var .mwAvg) (.add (.rd (.var .mwAvg)) (.div (.rd (.arr .Y 18)) (.num 26037879999999998 15))),
  .set (.var .mwAvg) (.add (.rd (.var .mwAvg)) (.div (.rd (.arr .Y 19)) (.num 27045819999999999 15))),
  .set (.var .mwAvg) (.add (.rd (.var .mwAvg)) (.div (.rd (.arr .Y 20)) (.num 28053759999999997 15))),
  .set (.var .mwAvg) (.add (.rd (.var .mwAvg)) (.div (.rd (.arr .Y 21)) (.num 29061699999999998 15))),
  .set (.var .mwAvg) (.add (.rd (.var .mwAvg)) (.div (.rd (.arr .Y 22)) (.num 3006964 5))),
  .set (.var .mwAvg) (.add (.rd (.var .mwAvg)) (.div (.rd (.arr .Y 23)) (.num 4304522 5))),
  .set (.var .mwAvg) (.add (.rd (.var .mwAvg)) (.div (.rd (.arr .Y 24)) (.num 41072699999999998 15))),
  .set (.var .mwAvg) (.add (.rd (.var .mwAvg)) (.div (.rd (.arr .Y 25)) (.num 42080640000000002 15))),
  .set (.var .mwAvg) (.add (.rd (.var .mwAvg)) (.div (.rd (.arr .Y 26)) (.num 4308858 5))),
  .set (.var .mwAvg) (.add (.rd (.var .mwAvg)) (.div (.rd (.arr .Y 27)) (.num 56064160000000001 15))),
  .set (.var .mwAvg) (.add (.rd (.var .mwAvg)) (.div (.rd (.arr .Y 28)) (.num 55099579999999996 15))),
  .set (.var .mwAvg) (.add (.rd (.var .mwAvg)) (.div (.rd (.arr .Y 29)) (.num 56107519999999994 15))),
  .set (.var .mwAvg) (.add (.rd (.var .mwAvg)) (.div (.rd (.arr .Y 30)) (.num 57115459999999999 15))),
  .set (.var .mwAvg) (.add (.rd (.var .mwAvg)) (.div (.rd (.arr .Y 31)) (.num 69126459999999994 15))),
  .set (.var .mwAvg) (.add (.rd (.var .mwAvg)) (.div (.rd (.arr .Y 32)) (.num 70134399999999999 15))),
  .set (.var .mwAvg) (.add (.rd (.var .mwAvg)) (.div (.rd (.arr .Y 33)) (.num 7114233999999999 14))),
  .set (.var .mwAvg) (.add (.rd (.var .mwAvg)) (.div (.rd (.arr .Y 34)) (.num 84161280000000005 15))),
  .set (.var .mwAvg) (.add (.rd (.var .mwAvg)) (.div (.rd (.arr .Y 35)) (.num 85169219999999996 15))),
  .set (.var .mwAvg) (.add (.rd (.var .mwAvg)) (.div (.rd (.arr .Y 36)) (.num 98188159999999996 15))),
  .set (.var .mwAvg) (.add (.rd (.var .mwAvg)) (.div (.rd (.arr .Y 37)) (.num 99196100000000001 15))),
  .set (.var .mwAvg) (.add (.rd (.var .mwAvg)) (.div (.rd (.arr .Y 38)) (.num 11221503999999999 14))),
  .set (.var .mwAvg) (.add (.rd (.var .mwAvg)) (.div (.rd (.arr .Y 39)) (.num 11322297999999999 14))),
  .set (.var .mwAvg) (.add (.rd (.var .mwAvg)) (.div (.rd (.arr .Y 40)) (.num 12624191999999999 14))),
  .set (.var .mwAvg) (.add (.rd (.var .mwAvg)) (.div (.rd (.arr .Y 41)) (.num 12724985999999998 14))),
  .set (.var .mwAvg) (.add (.rd (.var .mwAvg)) (.div (.rd (.arr .Y 42)) (.num 1402688 4))),
  .set (.var .mwAvg) (.add (.rd (.var .mwAvg)) (.div (.rd (.arr .Y 43)) (.num 14127673999999999 14))),
  .set (.var .mwAvg) (.add (.rd (.var .mwAvg)) (.div (.rd (.arr .Y 44)) (.num 17033843999999999 14))),
  .set (.var .mwAvg) (.add (.rd (.var .mwAvg)) (.div (.rd (.arr .Y 45)) (.num 1693305 4))),
  .set (.var .mwAvg) (.add (.rd (.var .mwAvg)) (.div (.rd (.arr .Y 46)) (.num 1693305 4))),
  .set (.var .mwAvg) (.add (.rd (.var .mwAvg)) (.div (.rd (.arr .Y 47)) (.num 1693305 4))),
  .set (.var .mwAvg) (.add (.rd (.var .mwAvg)) (.div (.rd (.arr .Y 48)) (.num 16832256000000001 14))),
  .set (.var .mwAvg) (.add (.rd (.var .mwAvg)) (.div (.rd (.arr .Y 49)) (.num 20132929999999999 14))),
  .set (.var .mwAvg) (.add (.rd (.var .mwAvg)) (.div (.rd (.arr .Y 50)) (.num 20132929999999999 14))),
  .set (.var .mwAvg) (.add (.rd (.var .mwAvg)) (.div (.rd (.arr .Y 51)) (.num 23332810000000001 14))),
  .set (.var .mwAvg) (.add (.rd (.var .mwAvg)) (.div (.rd (.arr .Y 52)) (.num 21632076000000001 14))),
  .set (.var .mwAvg) (.add (.rd (.var .mwAvg)) (.div (.rd (.var .yN)) (.num 28013480000000001 15))),
  .set (.var .mwAvg) (.div (.num 1 0) (.rd (.var .mwAvg))),
  .set (.arr .X 0) (.div (.mul (.rd (.arr .Y 0)) (.rd (.var .mwAvg))) (.num 39948 3)),
  .set (.arr .X 1) (.div (.mul (.rd (.arr .Y 1)) (.rd (.var .mwAvg))) (.num 10079400000000001 16)),
  .set (.arr .X 2) (.div (.mul (.rd (.arr .Y 2)) (.rd (.var .mwAvg))) (.num 159994 4)),
  .set (.arr .X 3) (.div (.mul (.rd (.arr .Y 3)) (.rd (.var .mwAvg))) (.num 17007339999999999 15)),
  .set (.arr .X 4) (.div (.mul (.rd (.arr .Y 4)) (.rd (.var .mwAvg))) (.num 33006740000000001 15)),
  .set (.arr .X 5) (.div (.mul (.rd (.arr .Y 5)) (.rd (.var .mwAvg))) (.num 20158800000000001 16)),
  .set (.arr .X 6) (.div (.mul (.rd (.arr .Y 6)) (.rd (.var .mwAvg))) (.num 18015280000000001 15)),
  .set (.arr .X 7) (.div (.mul (.rd (.arr .Y 7)) (.rd (.var .mwAvg))) (.num 34014679999999998 15)),
  .set (.arr .X 8) (.div (.mul (.rd (.arr .Y 8)) (.rd (.var .mwAvg))) (.num 31998799999999999 15)),
  .set (.arr .X 9) (.div (.mul (.rd (.arr .Y 9)) (.rd (.var .mwAvg))) (.num 14026879999999998 15)),
  .set (.arr .X 10) (.div (.mul (.rd (.arr .Y 10)) (.rd (.var .mwAvg))) (.num 14026879999999998 15)),
  .set (.arr .X 11) (.div (.mul (.rd (.arr .Y 11)) (.rd (.var .mwAvg))) (.num 1503482 5)),
  .set (.arr .X 12) (.div (.mul (.rd (.arr .Y 12)) (.rd (.var .mwAvg))) (.num 16042760000000001 15)),
  .set (.arr .X 13) (.div (.mul (.rd (.arr .Y 13)) (.rd (.var .mwAvg))) (.num 29018339999999998 15)),
  .set (.arr .X 14) (.div (.mul (.rd (.arr .Y 14)) (.rd (.var .mwAvg))) (.num 3002628 5)),
  .set (.arr .X 15) (.div (.mul (.rd (.arr .Y 15)) (.rd (.var .mwAvg))) (.num 31034219999999998 15)),
  .set (.arr .X 16) (.div (.mul (.rd (.arr .Y 16)) (.rd (.var .mwAvg))) (.num 28010399999999997 15)),
  .set (.arr .X 17) (.div (.mul (.rd (.arr .Y 17)) (.rd (.var .mwAvg))) (.num 44009799999999998 15)),
  .set (.arr .X 18) (.div (.mul (.rd (.arr .Y 18)) (.rd (.var .mwAvg))) (.num 26037879999999998 15)),
  .set (.arr .X 19) (.div (.mul (.rd (.arr .Y 19)) (.rd (.var .mwAvg))) (.num 27045819999999999 15)),
  .set (.arr .X 20) (.div (.mul (.rd (.arr .Y 20)) (.rd (.var .mwAvg))) (.num 28053759999999997 15)),
  .set (.arr .X 21) (.div (.mul (.rd (.arr .Y 21)) (.rd (.var .mwAvg))) (.num 29061699999999998 15)),
  .set (.arr .X 22) (.div (.mul (.rd (.arr .Y 22)) (.rd (.var .mwAvg))) (.num 3006964 5)),
  .set (.arr .X 23) (.div (.mul (.rd (.arr .Y 23)) (.rd (.var .mwAvg))) (.num 4304522 5)),
  .set (.arr .X 24) (.div (.mul (.rd (.arr .Y 24)) (.rd (.var .mwAvg))) (.num 41072699999999998 15)),
  .set (.arr .X 25) (.div (.mul (.rd (.arr .Y 25)) (.rd (.var .mwAvg))) (.num 42080640000000002 15)),
  .set (.arr .X 26) (.div (.mul (.rd (.arr .Y 26)) (.rd (.var .mwAvg))) (.num 4308858 5)),
  .set (.arr .X 27) (.div (.mul (.rd (.arr .Y 27)) (.rd (.var .mwAvg))) (.num 56064160000000001 15)),
  .set (.arr .X 28) (.div (.mul (.rd (.arr .Y 28)) (.rd (.var .mwAvg))) (.num 55099579999999996 15)),
  .set (.arr .X 29) (.div (.mul (.rd (.arr .Y 29)) (.rd (.var .mwAvg))) (.num 56107519999999994 15)),
  .set (.arr .X 30) (.div (.mul (.rd (.arr .Y 30)) (.rd (.var .mwAvg))) (.num 57115459999999999 15)),
  .set (.arr .X 31) (.div (.mul (.rd (.arr .Y 31)) (.rd (.var .mwAvg))) (.num 69126459999999994 15)),
  .set (.arr .X 32) (.div (.mul (.rd (.arr .Y 32)) (.rd (.var .mwAvg))) (.num 70134399999999999 15)),
  .set (.arr .X 33) (.div (.mul (.rd (.arr .Y 33)) (.rd (.var .mwAvg))) (.num 7114233999999999 14)),
  .set (.arr .X 34) (.div (.mul (.rd (.arr .Y 34)) (.rd (.var .mwAvg))) (.num 84161280000000005 15)),
  .set (.arr .X 35) (.div (.mul (.rd (.arr .Y 35)) (.rd (.var .mwAvg))) (.num 85169219999999996 15)),
  .set (.arr .X 36) (.div (.mul (.rd (.arr .Y 36)) (.rd (.var .mwAvg))) (.num 98188159999999996 15)),
  .set (.arr .X 37) (.div (.mul (.rd (.arr .Y 37)) (.rd (.var .mwAvg))) (.num 99196100000000001 15)),
  .set (.arr .X 38) (.div (.mul (.rd (.arr .Y 38)) (.rd (.var .mwAvg))) (.num 11221503999999999 14)),
  .set (.arr .X 39) (.div (.mul (.rd (.arr .Y 39)) (.rd (.var .mwAvg))) (.num 11322297999999999 14)),
  .set (.arr .X 40) (.div (.mul (.rd (.arr .Y 40)) (.rd (.var .mwAvg))) (.num 12624191999999999 14)),
  .set (.arr .X 41) (.div (.mul (.rd (.arr .Y 41)) (.rd (.var .mwAvg))) (.num 12724985999999998 14)),
  .set (.arr .X 42) (.div (.mul (.rd (.arr .Y 42)) (.rd (.var .mwAvg))) (.num 1402688 4)),
  .set (.arr .X 43) (.div (.mul (.rd (.arr .Y 43)) (.rd (.var .mwAvg))) (.num 14127673999999999 14)),
  .set (.arr .X 44) (.div (.mul (.rd (.arr .Y 44)) (.rd (.var .mwAvg))) (.num 17033843999999999 14)),
  .set (.arr .X 45) (.div (.mul (.rd (.arr .Y 45)) (.rd (.var .mwAvg))) (.num 1693305 4)),
  .set (.arr .X 46) (.div (.mul (.rd (.arr .Y 46)) (.rd (.var .mwAvg))) (.num 1693305 4)),
  .set (.arr .X 47) (.div (.mul (.rd (.arr .Y 47)) (.rd (.var .mwAvg))) (.num 1693305 4)),
  .set (.arr .X 48) (.div (.mul (.rd (.arr .Y 48)) (.rd (.var .mwAvg))) (.num 16832256000000001 14)),
  .set (.arr .X 49) (.div (.mul (.rd (.arr .Y 49)) (.rd (.var .mwAvg))) (.num 20132929999999999 14)),
  .set (.arr .X 50) (.div (.mul (.rd (.arr .Y 50)) (.rd (.var .mwAvg))) (.num 20132929999999999 14)),
  .set (.arr .X 51) (.div (.mul (.rd (.arr .Y 51)) (.rd (.var .mwAvg))) (.num 23332810000000001 14)),
  .set (.arr .X 52) (.div (.mul (.rd (.arr .Y 52)) (.rd (.var .mwAvg))) (.num 21632076000000001 14))]

/-- utilities/mechanisms/yao/lib/src/mass_mole.c:273-341 -/
def getDensity : List CStmt := [
  .set (.var .xN) (.sub (.num 1 0) (.add (.add (.add (.add (.add (.add (.add (.add (.add (.add (.add (.add (.add (.add (.add (.add (.add (.add (.add (.add (.add (.add (.add (.add (.add (.add (.add (.add (.add (.add (.add (.add (.add (.add (.add (.add (.add (.add (.add (.add (.add (.add (.add (.add (.add (.add (.add (.add (.add (.add (.add (.add (.rd (.arr .X 0)) (.rd (.arr .X 1))) (.rd (.arr .X 2))) (.rd (.arr .X 3))) (.rd (.arr .X 4))) (.rd (.arr .X 5))) (.rd (.arr .X 6))) (.rd (.arr .X 7))) (.rd (.arr .X 8))) (.rd (.arr .X 9))) (.rd (.arr .X 10))) (.rd (.arr .X 11))) (.rd (.arr .X 12))) (.rd (.arr .X 13))) (.rd (.arr .X 14))) (.rd (.arr .X 15))) (.rd (.arr .X 16))) (.rd (.arr .X 17))) (.rd (.arr .X 18))) (.rd (.arr .X 19))) (.rd (.arr .X 20))) (.rd (.arr .X 21))) (.rd (.arr .X 22))) (.rd (.arr .X 23))) (.rd (.arr .X 24))) (.rd (.arr .X 25))) (.rd (.arr .X 26))) (.rd (.arr .X 27))) (.rd (.arr .X 28))) (.rd (.arr .X 29))) (.rd (.arr .X 30))) (.rd (.arr .X 31))) (.rd (.arr .X 32))) (.rd (.arr .X 33))) (.rd (.arr .X 34))) (.rd (.arr .X 35))) (.rd (.arr .X 36))) (.rd (.arr .X 37))) (.rd (.arr .X 38))) (.rd (.arr .X 39))) (.rd (.arr .X 40))) (.rd (.arr .X 41))) (.rd (.arr .X 42))) (.rd (.arr .X 43))) (.rd (.arr .X 44))) (.rd (.arr .X 45))) (.rd (.arr .X 46))) (.rd (.arr .X 47))) (.rd (.arr .X 48))) (.rd (.arr .X 49))) (.rd (.arr .X 50))) (.rd (.arr .X 51))) (.rd (.arr .X 52)))),
  .set (.var .mwAvg) (.num 0 0),
  .set (.var .mwAvg) (.add (.rd (.var .mwAvg)) (.mul (.rd (.arr .X 0)) (.num 39948 3))),
  .set (.var .mwAvg) (.add (.rd (.var .mwAvg)) (.mul (.rd (.arr .X 1)) (.num 10079400000000001 16))),
  .set (.var .mwAvg) (.add (.rd (.var .mwAvg)) (.mul (.rd (.arr .X 2)) (.num 159994 4))),
  .set (.var .mwAvg) (.add (.rd (.var .mwAvg)) (.mul (.rd (.arr .X 3)) (.num 17007339999999999 15))),
  .set (.var .mwAvg) (.add (.rd (.var .mwAvg)) (.mul (.rd (.arr .X 4)) (.num 33006740000000001 15))),
  .set (.var .mwAvg) (.add (.rd (.var .mwAvg)) (.mul (.rd (.arr .X 5)) (.num 20158800000000001 16))),
  .set (.var .mwAvg) (.add (.rd (.var .mwAvg)) (.mul (.rd (.arr .X 6)) (.num 18015280000000001 15))),
  .set (.var .mwAvg) (.add (.rd (.var .mwAvg)) (.mul (.rd (.arr .X 7)) (.num 34014679999999998 15))),
  .set (.var .mwAvg) (.add (.rd (.var .mwAvg)) (.mul (.rd (.arr .X 8)) (.num 31998799999999999 15))),
  .set (.var .mwAvg) (.add (.rd (.var .mwAvg)) (.mul (.rd (.arr .X 9)) (.num 14026879999999998 15))),
  .set (.var .mwAvg) (.add (.rd (.var .mwAvg)) (.mul (.rd (.arr .X 10)) (.num 14026879999999998 15))),
  .set (.var .mwAvg) (.add (.rd (.var .mwAvg)) (.mul (.rd (.arr .X 11)) (.num 1503482 5))),
  .set (.var .mwAvg) (.add (.rd (.var .mwAvg)) (.mul (.rd (.arr .X 12)) (.num 16042760000000001 15))),
  .set (.var .mwAvg) (.add (.rd (.var .mwAvg)) (.mul (.rd (.arr .X 13)) (.num 29018339999999998 15))),
  .set (.var .mwAvg) (.add (.rd (.var .mwAvg)) (.mul (.rd (.arr .X 14)) (.num 3002628 5))),
  .set (.var .mwAvg) (.add (.rd (.var .mwAvg)) (.mul (.rd (.arr .X 15)) (.num 31034219999999998 15))),
  .set (.var .mwAvg) (.add (.rd (.var .mwAvg)) (.mul (.rd (.arr .X 16)) (.num 28010399999999997 15))),
  .set (.var .mwAvg) (.add (.rd (.var .mwAvg)) (.mul (.rd (.arr .X 17)) (.num 44009799999999998 15))),
  .set (.var .mwAvg) (.add (.rd (.var .mwAvg)) (.mul (.rd (.arr .X 18)) (.num 26037879999999998 15))),
  .set (.var .mwAvg) (.add (.rd (.var .mwAvg)) (.mul (.rd (.arr .X 19)) (.num 27045819999999999 15))),
  .set (.var .mwAvg) (.add (.rd (.var .mwAvg)) (.mul (.rd (.arr .X 20)) (.num 28053759999999997 15))),
  .set (.var .mwAvg) (.add (.rd (.var .mwAvg)) (.mul (.rd (.arr .X 21)) (.num 29061699999999998 15))),
  .set (.var .mwAvg) (.add (.rd (.var .mwAvg)) (.mul (.rd (.arr .X 22)) (.num 3006964 5))),
  .set (.var .mwAvg) (.add (.rd (.var .mwAvg)) (.mul (.rd (.arr .X 23)) (.num 4304522 5))),
  .set (.var .mwAvg) (.add (.rd (.var .mwAvg)) (.mul (.rd (.arr .X 24)) (.num 41072699999999998 15))),
  .set (.var .mwAvg) (.add (.rd (.var .mwAvg)) (.mul (.rd (.arr .X 25)) (.num 42080640000000002 15))),
  .set (.var .mwAvg) (.add (.rd (.var .mwAvg)) (.mul (.rd (.arr .X 26)) (.num 4308858 5))),
  .set (.var .mwAvg) (.add (.rd (.var .mwAvg)) (.mul (.rd (.arr .X 27)) (.num 56064160000000001 15))),
  .set (.var .mwAvg) (.add (.rd (.var .mwAvg)) (.mul (.rd (.arr .X 28)) (.num 55099579999999996 15))),
  .set (.var .mwAvg) (.add (.rd (.var .mwAvg)) (.mul (.rd (.arr .X 29)) (.num 56107519999999994 15))),
  .set (.var .mwAvg) (.add (.rd (.var .mwAvg)) (.mul (.rd (.arr .X 30)) (.num 57115459999999999 15))),
  .set (.var .mwAvg) (.add (.rd (.var .mwAvg)) (.mul (.rd (.arr .X 31)) (.num 69126459999999994 15))),
  .set (.var .mwAvg) (.add (.rd (.var .mwAvg)) (.mul (.rd (.arr .X 32)) (.num 70134399999999999 15))),
  .set (.var .mwAvg) (.add (.rd (.var .mwAvg)) (.mul (.rd (.arr .X 33)) (.num 7114233999999999 14))),
  .set (.var .mwAvg) (.add (.rd (.var .mwAvg)) (.mul (.rd (.arr .X 34)) (.num 84161280000000005 15))),
  .set (.var .mwAvg) (.add (.rd (.var .mwAvg)) (.mul (.rd (.arr .X 35)) (.num 85169219999999996 15))),
  .set (.var .mwAvg) (.add (.rd (.var .mwAvg)) (.mul (.rd (.arr .X 36)) (.num 98188159999999996 15))),
  .set (.var .mwAvg) (.add (.rd (.var .mwAvg)) (.mul (.rd (.arr .X 37)) (.num 99196100000000001 15))),
  .set (.var .mwAvg) (.add (.rd (.var .mwAvg)) (.mul (.rd (.arr .X 38)) (.num 11221503999999999 14))),
  .set (.var .mwAvg) (.add (.rd (.var .mwAvg)) (.mul (.rd (.arr .X 39)) (.num 11322297999999999 14))),
  .set (.var .mwAvg) (.add (.rd (.var .mwAvg)) (.mul (.rd (.arr .X 40)) (.num 12624191999999999 14))),
  .set (.var .mwAvg) (.add (.rd (.var .mwAvg)) (.mul (.rd (.arr .X 41)) (.num 12724985999999998 14))),
  .set (.var .mwAvg) (.add (.rd (.var .mwAvg)) (.mul (.rd (.arr .X 42)) (.num 1402688 4))),
  .set (.var .mwAvg) (.add (.rd (.var .mwAvg)) (.mul (.rd (.arr .X 43)) (.num 14127673999999999 14))),
  .set (.var .mwAvg) (.add (.rd (.var .mwAvg)) (.mul (.rd (.arr .X 44)) (.num 17033843999999999 14))),
  .set (.var .mwAvg) (.add (.rd (.var .mwAvg)) (.mul (.rd (.arr .X 45)) (.num 1693305 4))),
  .set (.var .mwAvg) (.add (.rd (.var .mwAvg)) (.mul (.rd (.arr .X 46)) (.num 1693305 4))),
  .set (.var .mwAvg) (.add (.rd (.var .mwAvg)) (.mul (.rd (.arr .X 47)) (.num 1693305 4))),
  .set (.var .mwAvg) (.add (.rd (.var .mwAvg)) (.mul (.rd (.arr .X 48)) (.num 16832256000000001 14))),
  .set (.var .mwAvg) (.add (.rd (.var .mwAvg)) (.mul (.rd (.arr .X 49)) (.num 20132929999999999 14))),
  .set (.var .mwAvg) (.add (.rd (.var .mwAvg)) (.mul (.rd (.arr .X 50)) (.num 20132929999999999 14))),
  .set (.var .mwAvg) (.add (.rd (.var .mwAvg)) (.mul (.rd (.arr .X 51)) (.num 23332810000000001 14))),
  .set (.var .mwAvg) (.add (.rd (.var .mwAvg)) (.mul (.rd (.arr .X 52)) (.num 21632076000000001 14))),
  .set (.var .mwAvg) (.add (.rd (.var .mwAvg)) (.mul (.rd (.var .xN)) (.num 28013480000000001 15)))]

/-- The returned expression, utilities/mechanisms/yao/lib/src/mass_mole.c:342 -/
def getDensityResult : CExpr := (.div (.mul (.rd (.var .pres)) (.rd (.var .mwAvg))) (.mul (.num 83144621 4) (.rd (.var .T))))

/-- utilities/mechanisms/yao/lib/src/mechanism.c:8-61 (after the memcpy to temp) -/
def applyMask : List CStmt := [
  .set (.arr .y 0) (.rd (.arr .temp 1)),
  .set (.arr .y 1) (.rd (.arr .temp 2)),
  .set (.arr .y 2) (.rd (.arr .temp 3)),
  .set (.arr .y 3) (.rd (.arr .temp 4)),
  .set (.arr .y 4) (.rd (.arr .temp 5)),
  .set (.arr .y 5) (.rd (.arr .temp 6)),
  .set (.arr .y 6) (.rd (.arr .temp 7)),
  .set (.arr .y 7) (.rd (.arr .temp 8)),
  .set (.arr .y 8) (.rd (.arr .temp 9)),
  .set (.arr .y 9) (.rd (.arr .temp 10)),
  .set (.arr .y 10) (.rd (.arr .temp 11)),
  .set (.arr .y 11) (.rd (.arr .temp 12)),
  .set (.arr .y 12) (.rd (.arr .temp 13)),
  .set (.arr .y 13) (.rd (.arr .temp 14)),
  .set (.arr .y 14) (.rd (.arr .temp 15)),
  .set (.arr .y 15) (.rd (.arr .temp 16)),
  .set (.arr .y 16) (.rd (.arr .temp 17)),
  .set (.arr .y 17) (.rd (.arr .temp 18)),
  .set (.arr .y 18) (.rd (.arr .temp 19)),
  .set (.arr .y 19) (.rd (.arr .temp 20)),
  .set (.arr .y 20) (.rd (.arr .temp 21)),
  .set (.arr .y 21) (.rd (.arr .temp 22)),
  .set (.arr .y 22) (.rd (.arr .temp 23)),
  .set (.arr .y 23) (.rd (.arr .temp 24)),
  .set (.arr .y 24) (.rd (.arr .temp 25)),
  .set (.arr .y 25) (.rd (.arr .temp 26)),
  .set (.arr .y 26) (.rd (.arr .temp 27)),
  .set (.arr .y 27) (.rd (.arr .temp 28)),
  .set (.arr .y 28) (.rd (.arr .temp 29)),
  .set (.arr .y 29) (.rd (.arr .temp 30)),
  .set (.arr .y 30) (.rd (.arr .temp 31)),
  .set (.arr .y 31) (.rd (.arr .temp 32)),
  .set (.arr .y 32) (.rd (.arr .temp 33)),
  .set (.arr .y 33) (.rd (.arr .temp 34)),
  .set (.arr .y 34) (.rd (.arr .temp 35)),
  .set (.arr .y 35) (.rd (.arr .temp 36)),
  .set (.arr .y 36) (.rd (.arr .temp 37)),
  .set (.arr .y 37) (.rd (.arr .temp 38)),
  .set (.arr .y 38) (.rd (.arr .temp 39)),
  .set (.arr .y 39) (.rd (.arr .temp 40)),
  .set (.arr .y 40) (.rd (.arr .temp 41)),
  .set (.arr .y 41) (.rd (.arr .temp 42)),
  .set (.arr .y 42) (.rd (.arr .temp 43)),
  .set (.arr .y 43) (.rd (.arr .temp 44)),
  .set (.arr .y 44) (.rd (.arr .temp 45)),
  .set (.arr .y 45) (.rd (.arr .temp 46)),
  .set (.arr .y 46) (.rd (.arr .temp 47)),
  .set (.arr .y 47) (.rd (.arr .temp 48)),
  .set (.arr .y 48) (.rd (.arr .temp 49)),
  .set (.arr .y 49) (.rd (.arr .temp 50)),
  .set (.arr .y 50) (.rd (.arr .temp 51)),
  .set (.arr .y 51) (.rd (.arr .temp 52)),
  .set (.arr .y 52) (.rd (.arr .temp 53)),
  .set (.arr .y 53) (.rd (.arr .temp 0))]

/-- utilities/mechanisms/yao/lib/src/mechanism.c:67-120 (after the memcpy to temp) -/
def applyReverseMask : List CStmt := [
  .set (.arr .y 0) (.rd (.arr .temp 53)),
  .set (.arr .y 1) (.rd (.arr .temp 0)),
  .set (.arr .y 2) (.rd (.arr .temp 1)),
  .set (.arr .y 3) (.rd (.arr .temp 2)),
  .set (.arr .y 4) (.rd (.arr .temp 3)),
  .set (.arr .y 5) (.rd (.arr .temp 4)),
  .set (.arr .y 6) (.rd (.arr .temp 5)),
  .set (.arr .y 7) (.rd (.arr .temp 6)),
  .set (.arr .y 8) (.rd (.arr .temp 7)),
  .set (.arr .y 9) (.rd (.arr .temp 8)),
  .set (.arr .y 10) (.rd (.arr .temp 9)),
  .set (.arr .y 11) (.rd (.arr .temp 10)),
  .set (.arr .y 12) (.rd (.arr .temp 11)),
  .set (.arr .y 13) (.rd (.arr .temp 12)),
  .set (.arr .y 14) (.rd (.arr .temp 13)),
  .set (.arr .y 15) (.rd (.arr .temp 14)),
  .set (.arr .y 16) (.rd (.arr .temp 15)),
  .set (.arr .y 17) (.rd (.arr .temp 16)),
  .set (.arr .y 18) (.rd (.arr .temp 17)),
  .set (.arr .y 19) (.rd (.arr .temp 18)),
  .set (.arr .y 20) (.rd (.arr .temp 19)),
  .set (.arr .y 21) (.rd (.arr .temp 20)),
  .set (.arr .y 22) (.rd (.arr .temp 21)),
  .set (.arr .y 23) (.rd (.arr .temp 22)),
  .set (.arr .y 24) (.rd (.arr .temp 23)),
  .set (.arr .y 25) (.rd (.arr .temp 24)),
  .set (.arr .y 26) (.rd (.arr .temp 25)),
  .set (.arr .y 27) (.rd (.arr .temp 26)),
  .set (.arr .y 28) (.rd (.arr .temp 27)),
  .set (.arr .y 29) (.rd (.arr .temp 28)),
  .set (.arr .y 30) (.rd (.arr .temp 29)),
  .set (.arr .y 31) (.rd (.arr .temp 30)),
  .set (.arr .y 32) (.rd (.arr .temp 31)),
  .set (.arr .y 33) (.rd (.arr .temp 32)),
  .set (.arr .y 34) (.rd (.arr .temp 33)),
  .set (.arr .y 35) (.rd (.arr .temp 34)),
  .set (.arr .y 36) (.rd (.arr .temp 35)),
  .set (.arr .y 37) (.rd (.arr .temp 36)),
  .set (.arr .y 38) (.rd (.arr .temp 37)),
  .set (.arr .y 39) (.rd (.arr .temp 38)),
  .set (.arr .y 40) (.rd (.arr .temp 39)),
  .set (.arr .y 41) (.rd (.arr .temp 40)),
  .set (.arr .y 42) (.rd (.arr .temp 41)),
  .set (.arr .y 43) (.rd (.arr .temp 42)),
  .set (.arr .y 44) (.rd (.arr .temp 43)),
  .set (.arr .y 45) (.rd (.arr .temp 44)),
  .set (.arr .y 46) (.rd (.arr .temp 45)),
  .set (.arr .y 47) (.rd (.arr .temp 46)),
  .set (.arr .y 48) (.rd (.arr .temp 47)),
  .set (.arr .y 49) (.rd (.arr .temp 48)),
  .set (.arr .y 50) (.rd (.arr .temp 49)),
  .set (.arr .y 51) (.rd (.arr .temp 50)),
  .set (.arr .y 52) (.rd (.arr .temp 51)),
  .set (.arr .y 53) (.rd (.arr .temp 52))]

/-- the assignment of cp_avg, utilities/mechanisms/yao/lib/src/dydt.c:7-135 -/
def dydtCpAvg : List CStmt := [
  .set (.var .cpAvg) (.add (.add (.add (.add (.add (.add (.add (.add (.add (.add (.add (.add (.add (.add (.add (.add (.add (.add (.add (.add (.add (.add (.add (.add (.add (.add (.add (.add (.add (.add (.add (.add (.add (.add (.add (.add (.add (.add (.add (.add (.add (.add (.add (.add (.add (.add (.add (.add (.add (.add (.add (.add (.add (.mul (.rd (.arr .cp 0)) (.rd (.arr .y 1))) (.mul (.rd (.arr .cp 1)) (.rd (.arr .y 2)))) (.mul (.rd (.arr .cp 2)) (.rd (.arr .y 3)))) (.mul (.rd (.arr .cp 3)) (.rd (.arr .y 4)))) (.mul (.rd (.arr .cp 4)) (.rd (.arr .y 5)))) (.mul (.rd (.arr .cp 5)) (.rd (.arr .y 6)))) (.mul (.rd (.arr .cp 6)) (.rd (.arr .y 7)))) (.mul (.rd (.arr .cp 7)) (.rd (.arr .y 8)))) (.mul (.rd (.arr .cp 8)) (.rd (.arr .y 9)))) (.mul (.rd (.arr .cp 9)) (.rd (.arr .y 10)))) (.mul (.rd (.arr .cp 10)) (.rd (.arr .y 11)))) (.mul (.rd (.arr .cp 11)) (.rd (.arr .y 12)))) (.mul (.rd (.arr .cp 12)) (.rd (.arr .y 13)))) (.mul (.rd (.arr .cp 13)) (.rd (.arr .y 14)))) (.mul (.rd (.arr .cp 14)) (.rd (.arr .y 15)))) (.mul (.rd (.arr .cp 15)) (.rd (.arr .y 16)))) (.mul (.rd (.arr .cp 16)) (.rd (.arr .y 17)))) (.mul (.rd (.arr .cp 17)) (.rd (.arr .y 18)))) (.mul (.rd (.arr .cp 18)) (.rd (.arr .y 19)))) (.mul (.rd (.arr .cp 19)) (.rd (.arr .y 20)))) (.mul (.rd (.arr .cp 20)) (.rd (.arr .y 21)))) (.mul (.rd (.arr .cp 21)) (.rd (.arr .y 22)))) (.mul (.rd (.arr .cp 22)) (.rd (.arr .y 23)))) (.mul (.rd (.arr .cp 23)) (.rd (.arr .y 24)))) (.mul (.rd (.arr .cp 24)) (.rd (.arr .y 25)))) (.mul (.rd (.arr .cp 25)) (.rd (.arr .y 26)))) (.mul (.rd (.arr .cp 26)) (.rd (.arr .y 27)))) (.mul (.rd (.arr .cp 27)) (.rd (.arr .y 28)))) (.mul (.rd (.arr .cp 28)) (.rd (.arr .y 29)))) (.mul (.rd (.arr .cp 29)) (.rd (.arr .y 30)))) (.mul (.rd (.arr .cp 30)) (.rd (.arr .y 31)))) (.mul (.rd (.arr .cp 31)) (.rd (.arr .y 32)))) (.mul (.rd (.arr .cp 32)) (.rd (.arr .y 33)))) (.mul (.rd (.arr .cp 33)) (.rd (.arr .y 34)))) (.mul (.rd (.arr .cp 34)) (.rd (.arr .y 35)))) (.mul (.rd (.arr .cp 35)) (.rd (.arr .y 36)))) (.mul (.rd (.arr .cp 36)) (.rd (.arr .y 37)))) (.mul (.rd (.arr .cp 37)) (.rd (.arr .y 38)))) (.mul (.rd (.arr .cp 38)) (.rd (.arr .y 39)))) (.mul (.rd (.arr .cp 39)) (.rd (.arr .y 40)))) (.mul (.rd (.arr .cp 40)) (.rd (.arr .y 41)))) (.mul (.rd (.arr .cp 41)) (.rd (.arr .y 42)))) (.mul (.rd (.arr .cp 42)) (.rd (.arr .y 43)))) (.mul (.rd (.arr .cp 43)) (.rd (.arr .y 44)))) (.mul (.rd (.arr .cp 44)) (.rd (.arr .y 45)))) (.mul (.rd (.arr .cp 45)) (.rd (.arr .y 46)))) (.mul (.rd (.arr .cp 46)) (.rd (.arr .y 47)))) (.mul (.rd (.arr .cp 47)) (.rd (.arr .y 48)))) (.mul (.rd (.arr .cp 48)) (.rd (.arr .y 49)))) (.mul (.rd (.arr .cp 49)) (.rd (.arr .y 50)))) (.mul (.rd (.arr .cp 50)) (.rd (.arr .y 51)))) (.mul (.rd (.arr .cp 51)) (.rd (.arr .y 52)))) (.mul (.rd (.arr .cp 52)) (.rd (.arr .y 53)))) (.mul (.rd (.arr .cp 53)) (.rd (.var .yN))))]

/-- the assignments to dy, utilities/mechanisms/yao/lib/src/dydt.c:7-135 -/
def dydtRest : List CStmt := [
  .set (.arr .dy 0) (.mul (.div (.neg (.num 1 0)) (.mul (.rd (.var .rho)) (.rd (.var .cpAvg)))) (.add (.add (.add (.add (.add (.add (.add (.add (.add (.add (.add (.add (.add (.add (.add (.add (.add (.add (.add (.add (.add (.add (.add (.add (.add (.add (.add (.add (.add (.add (.add (.add (.add (.add (.add (.add (.add (.add (.add (.add (.add (.add (.add (.add (.add (.add (.add (.add (.add (.add (.add (.mul (.mul (.rd (.arr .dy 2)) (.rd (.arr .h 1))) (.num 10079400000000001 16)) (.mul (.mul (.rd (.arr .dy 3)) (.rd (.arr .h 2))) (.num 159994 4))) (.mul (.mul (.rd (.arr .dy 4)) (.rd (.arr .h 3))) (.num 17007339999999999 15))) (.mul (.mul (.rd (.arr .dy 5)) (.rd (.arr .h 4))) (.num 33006740000000001 15))) (.mul (.mul (.rd (.arr .dy 6)) (.rd (.arr .h 5))) (.num 20158800000000001 16))) (.mul (.mul (.rd (.arr .dy 7)) (.rd (.arr .h 6))) (.num 18015280000000001 15))) (.mul (.mul (.rd (.arr .dy 8)) (.rd (.arr .h 7))) (.num 34014679999999998 15))) (.mul (.mul (.rd (.arr .dy 9)) (.rd (.arr .h 8))) (.num 31998799999999999 15))) (.mul (.mul (.rd (.arr .dy 10)) (.rd (.arr .h 9))) (.num 14026879999999998 15))) (.mul (.mul (.rd (.arr .dy 11)) (.rd (.arr .h 10))) (.num 14026879999999998 15))) (.mul (.mul (.rd (.arr .dy 12)) (.rd (.arr .h 11))) (.num 1503482 5))) (.mul (.mul (.rd (.arr .dy 13)) (.rd (.arr .h 12))) (.num 16042760000000001 15))) (.mul (.mul (.rd (.arr .dy 14)) (.rd (.arr .h 13))) (.num 29018339999999998 15))) (.mul (.mul (.rd (.arr .dy 15)) (.rd (.arr .h 14))) (.num 3002628 5))) (.mul (.mul (.rd (.arr .dy 16)) (.rd (.arr .h 15))) (.num 31034219999999998 15))) (.mul (.mul (.rd (.arr .dy 17)) (.rd (.arr .h 16))) (.num 28010399999999997 15))) (.mul (.mul (.rd (.arr .dy 18)) (.rd (.arr .h 17))) (.num 44009799999999998 15))) (.mul (.mul (.rd (.arr .dy 19)) (.rd (.arr .h 18))) (.num 26037879999999998 15))) (.mul (.mul (.rd (.arr .dy 20)) (.rd (.arr .h 19))) (.num 27045819999999999 15))) (.mul (.mul (.rd (.arr .dy 21)) (.rd (.arr .h 20))) (.num 28053759999999997 15))) (.mul (.mul (.rd (.arr .dy 22)) (.rd (.arr .h 21))) (.num 29061699999999998 15))) (.mul (.mul (.rd (.arr .dy 23)) (.rd (.arr .h 22))) (.num 3006964 5))) (.mul (.mul (.rd (.arr .dy 24)) (.rd (.arr .h 23))) (.num 4304522 5))) (.mul (.mul (.rd (.arr .dy 25)) (.rd (.arr .h 24))) (.num 41072699999999998 15))) (.mul (.mul (.rd (.arr .dy 26)) (.rd (.arr .h 25))) (.num 42080640000000002 15))) (.mul (.mul (.rd (.arr .dy 27)) (.rd (.arr .h 26))) (.num 4308858 5))) (.mul (.mul (.rd (.arr .dy 28)) (.rd (.arr .h 27))) (.num 56064160000000001 15))) (.mul (.mul (.rd (.arr .dy 29)) (.rd (.arr .h 28))) (.num 55099579999999996 15))) (.mul (.mul (.rd (.arr .dy 30)) (.rd (.arr .h 29))) (.num 56107519999999994 15))) (.mul (.mul (.rd (.arr .dy 31)) (.rd (.arr .h 30))) (.num 57115459999999999 15))) (.mul (.mul (.rd (.arr .dy 32)) (.rd (.arr .h 31))) (.num 69126459999999994 15))) (.mul (.mul (.rd (.arr .dy 33)) (.rd (.arr .h 32))) (.num 70134399999999999 15))) (.mul (.mul (.rd (.arr .dy 34)) (.rd (.arr .h 33))) (.num 7114233999999999 14))) (.mul (.mul (.rd (.arr .dy 35)) (.rd (.arr .h 34))) (.num 84161280000000005 15))) (.mul (.mul (.rd (.arr .dy 36)) (.rd (.arr .h 35))) (.num 85169219999999996 15))) (.mul (.mul (.rd (.arr .dy 37)) (.rd (.arr .h 36))) (.num 98188159999999996 15))) (.mul (.mul (.rd (.arr .dy 38)) (.rd (.arr .h 37))) (.num 99196100000000001 15))) (.mul (.mul (.rd (.arr .dy 39)) (.rd (.arr .h 38))) (.num 11221503999999999 14))) (.mul (.mul (.rd (.arr .dy 40)) (.rd (.arr .h 39))) (.num 11322297999999999 14))) (.mul (.mul (.rd (.arr .dy 41)) (.rd (.arr .h 40))) (.num 12624191999999999 14))) (.mul (.mul (.rd (.arr .dy 42)) (.rd (.arr .h 41))) (.num 12724985999999998 14))) (.mul (.mul (.rd (.arr .dy 43)) (.rd (.arr .h 42))) (.num 1402688 4))) (.mul (.mul (.rd (.arr .dy 44)) (.rd (.arr .h 43))) (.num 14127673999999999 14))) (.mul (.mul (.rd (.arr .dy 45)) (.rd (.arr .h 44))) (.num 17033843999999999 14))) (.mul (.mul (.rd (.arr .dy 46)) (.rd (.arr .h 45))) (.num 1693305 4))) (.mul (.mul (.rd (.arr .dy 47)) (.rd (.arr .h 46))) (.num 1693305 4))) (.mul (.mul (.rd (.arr .dy 48)) (.rd (.arr .h 47))) (.num 1693305 4))) (.mul (.mul (.rd (.arr .dy 49)) (.rd (.arr .h 48))) (.num 16832256000000001 14))) (.mul (.mul (.rd (.arr .dy 50)) (.rd (.arr .h 49))) (.num 20132929999999999 14))) (.mul (.mul (.rd (.arr .dy 51)) (.rd (.arr .h 50))) (.num 20132929999999999 14))) (.mul (.mul (.rd (.arr .dy 52)) (.rd (.arr .h 51))) (.num 23332810000000001 14))) (.mul (.mul (.rd (.arr .dy 53)) (.rd (.arr .h 52))) (.num 21632076000000001 14)))),
  .set (.arr .dy 1) (.mul (.rd (.arr .dy 1)) (.div (.num 39948 3) (.rd (.var .rho)))),
  .set (.arr .dy 2) (.mul (.rd (.arr .dy 2)) (.div (.num 10079400000000001 16) (.rd (.var .rho)))),
  .set (.arr .dy 3) (.mul (.rd (.arr .dy 3)) (.div (.num 159994 4) (.rd (.var .rho)))),
  .set (.arr .dy 4) (.mul (.rd (.arr .dy 4)) (.div (.num 17007339999999999 15) (.rd (.var .rho)))),
  .set (.arr .dy 5) (.mul (.rd (.arr .dy 5)) (.div (.num 33006740000000001 15) (.rd (.var .rho)))),
  .set (.arr .dy 6) (.mul (.rd (.arr .dy 6)) (.div (.num 20158800000000001 16) (.rd (.var .rho)))),
  .set (.arr .dy 7) (.mul (.rd (.arr .dy 7)) (.div (.num 18015280000000001 15) (.rd (.var .rho)))),
  .set (.arr .dy 8) (.mul (.rd (.arr .dy 8)) (.div (.num 34014679999999998 15) (.rd (.var .rho)))),
  .set (.arr .dy 9) (.mul (.rd (.arr .dy 9)) (.div (.num 31998799999999999 15) (.rd (.var .rho)))),
  .set (.arr .dy 10) (.mul (.rd (.arr .dy 10)) (.div (.num 14026879999999998 15) (.rd (.var .rho)))),
  .set (.arr .dy 11) (.mul (.rd (.arr .dy 11)) (.div (.num 14026879999999998 15) (.rd (.var .rho)))),
  .set (.arr .dy 12) (.mul (.rd (.arr .dy 12)) (.div (.num 1503482 5) (.rd (.var .rho)))),
  .set (.arr .dy 13) (.mul (.rd (.arr .dy 13)) (.div (.num 16042760000000001 15) (.rd (.var .rho)))),
  .set (.arr .dy 14) (.mul (.rd (.arr .dy 14)) (.div (.num 29018339999999998 15) (.rd (.var .rho)))),
  .set (.arr .dy 15) (.mul (.rd (.arr .dy 15)) (.div (.num 3002628 5) (.rd (.var .rho)))),
  .set (.arr .dy 16) (.mul (.rd (.arr .dy 16)) (.div (.num 31034219999999998 15) (.rd (.var .rho)))),
  .set (.arr .dy 17) (.mul (.rd (.arr .dy 17)) (.div (.num 28010399999999997 15) (.rd (.var .rho)))),
  .set (.arr .dy 18) (.mul (.rd (.arr .dy 18)) (.div (.num 44009799999999998 15) (.rd (.var .rho)))),
  .set (.arr .dy 19) (.mul (.rd (.arr .dy 19)) (.div (.num 26037879999999998 15) (.rd (.var .rho)))),
  .set (.arr .dy 20) (.mul (.rd (.arr .dy 20)) (.div (.num 27045819999999999 15) (.rd (.var .rho)))),
  .set (.arr .dy 21) (.mul (.rd (.arr .dy 21)) (.div (.num 28053759999999997 15) (.rd (.var .rho)))),
  .set (.arr .dy 22) (.mul (.rd (.arr .dy 22)) (.div (.num 29061699999999998 15) (.rd (.var .rho)))),
  .set (.arr .dy 23) (.mul (.rd (.arr .dy 23)) (.div (.num 3006964 5) (.rd (.var .rho)))),
  .set (.arr .dy 24) (.mul (.rd (.arr .dy 24)) (.div (.num 4304522 5) (.rd (.var .rho)))),
  .set (.arr .dy 25) (.mul (.rd (.arr .dy 25)) (.div (.num 41072699999999998 15) (.rd (.var .rho)))),
  .set (.arr .dy 26) (.mul (.rd (.arr .dy 26)) (.div (.num 42080640000000002 15) (.rd (.var .rho)))),
  .set (.arr .dy 27) (.mul (.rd (.arr .dy 27)) (.div (.num 4308858 5) (.rd (.var .rho)))),
  .set (.arr .dy 28) (.mul (.rd (.arr .dy 28)) (.div (.num 56064160000000001 15) (.rd (.var .rho)))),
  .set (.arr .dy 29) (.mul (.rd (.arr .dy 29)) (.div (.num 55099579999999996 15) (.rd (.var .rho)))),
  .set (.arr .dy 30) (.mul (.rd (.arr .dy 30)) (.div (.num 56107519999999994 15) (.rd (.var .rho)))),
  .set (.arr .dy 31) (.mul (.rd (.arr .dy 31)) (.div (.num 57115459999999999 15) (.rd (.var .rho)))),
  .set (.arr .dy 32) (.mul (.rd (.arr .dy 32)) (.div (.num 69126459999999994 15) (.rd (.var .rho)))),
  .set (.arr .dy 33) (.mul (.rd (.arr .dy 33)) (.div (.num 70134399999999999 15) (.rd (.var .rho)))),
  .set (.arr .dy 34) (.mul (.rd (.arr .dy 34)) (.div (.num 7114233999999999 14) (.rd (.var .rho)))),
  .set (.arr .dy 35) (.mul (.rd (.arr .dy 35)) (.div (.num 84161280000000005 15) (.rd (.var .rho)))),
  .set (.arr .dy 36) (.mul (.rd (.arr .dy 36)) (.div (.num 85169219999999996 15) (.rd (.var .rho)))),
  .set (.arr .dy 37) (.mul (.rd (.arr .dy 37)) (.div (.num 98188159999999996 15) (.rd (.var .rho)))),
  .set (.arr .dy 38) (.mul (.rd (.arr .dy 38)) (.div (.num 99196100000000001 15) (.rd (.var .rho)))),
  .set (.arr .dy 39) (.mul (.rd (.arr .dy 39)) (.div (.num 11221503999999999 14) (.rd (.var .rho)))),
  .set (.arr .dy 40) (.mul (.rd (.arr .dy 40)) (.div (.num 11322297999999999 14) (.rd (.var .rho)))),
  .set (.arr .dy 41) (.mul (.rd (.arr .dy 41)) (.div (.num 12624191999999999 14) (.rd (.var .rho)))),
  .set (.arr .dy 42) (.mul (.rd (.arr .dy 42)) (.div (.num 12724985999999998 14) (.rd (.var .rho)))),
  .set (.arr .dy 43) (.mul (.rd (.arr .dy 43)) (.div (.num 1402688 4) (.rd (.var .rho)))),
  .set (.arr .dy 44) (.mul (.rd (.arr .dy 44)) (.div (.num 14127673999999999 14) (.rd (.var .rho)))),
  .set (.arr .dy 45) (.mul (.rd (.arr .dy 45)) (.div (.num 17033843999999999 14) (.rd (.var .rho)))),
  .set (.arr .dy 46) (.mul (.rd (.arr .dy 46)) (.div (.num 1693305 4) (.rd (.var .rho)))),
  .set (.arr .dy 47) (.mul (.rd (.arr .dy 47)) (.div (.num 1693305 4) (.rd (.var .rho)))),
  .set (.arr .dy 48) (.mul (.rd (.arr .dy 48)) (.div (.num 1693305 4) (.rd (.var .rho)))),
  .set (.arr .dy 49) (.mul (.rd (.arr .dy 49)) (.div (.num 16832256000000001 14) (.rd (.var .rho)))),
  .set (.arr .dy 50) (.mul (.rd (.arr .dy 50)) (.div (.num 20132929999999999 14) (.rd (.var .rho)))),
  .set (.arr .dy 51) (.mul (.rd (.arr .dy 51)) (.div (.num 20132929999999999 14) (.rd (.var .rho)))),
  .set (.arr .dy 52) (.mul (.rd (.arr .dy 52)) (.div (.num 23332810000000001 14) (.rd (.var .rho)))),
  .set (.arr .dy 53) (.mul (.rd (.arr .dy 53)) (.div (.num 21632076000000001 14) (.rd (.var .rho))))]

end DLB.Mech.Yao
