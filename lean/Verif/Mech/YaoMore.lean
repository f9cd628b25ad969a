/- Generated by tools/gen_mechanisms.py from utilities/mechanisms/yao/lib/src/{chem_utils,sparse_multiplier}.c. Do not edit. -/
import Verif.Model.CLang
set_option autoImplicit false
set_option maxRecDepth 1000000

namespace DLB.Mech.Yao
open DLB

/-- utilities/mechanisms/yao/lib/src/chem_utils.c:110-206 -/
def evalConcRho : List CStmt := [
  .set (.var .yN) (.sub (.num 1 0) (.add (.add (.add (.add (.add (.add (.add (.add (.add (.add (.add (.add (.add (.add (.add (.add (.add (.add (.add (.add (.add (.add (.add (.add (.add (.add (.add (.add (.add (.add (.add (.add (.add (.add (.add (.add (.add (.add (.add (.add (.add (.add (.add (.add (.add (.add (.add (.add (.add (.add (.add (.add (.rd (.arr .y 0)) (.rd (.arr .y 1))) (.rd (.arr .y 2))) (.rd (.arr .y 3))) (.rd (.arr .y 4))) (.rd (.arr .y 5))) (.rd (.arr .y 6))) (.rd (.arr .y 7))) (.rd (.arr .y 8))) (.rd (.arr .y 9))) (.rd (.arr .y 10))) (.rd (.arr .y 11))) (.rd (.arr .y 12))) (.rd (.arr .y 13))) (.rd (.arr .y 14))) (.rd (.arr .y 15))) (.rd (.arr .y 16))) (.rd (.arr .y 17))) (.rd (.arr .y 18))) (.rd (.arr .y 19))) (.rd (.arr .y 20))) (.rd (.arr .y 21))) (.rd (.arr .y 22))) (.rd (.arr .y 23))) (.rd (.arr .y 24))) (.rd (.arr .y 25))) (.rd (.arr .y 26))) (.rd (.arr .y 27))) (.rd (.arr .y 28))) (.rd (.arr .y 29))) (.rd (.arr .y 30))) (.rd (.arr .y 31))) (.rd (.arr .y 32))) (.rd (.arr .y 33))) (.rd (.arr .y 34))) (.rd (.arr .y 35))) (.rd (.arr .y 36))) (.rd (.arr .y 37))) (.rd (.arr .y 38))) (.rd (.arr .y 39))) (.rd (.arr .y 40))) (.rd (.arr .y 41))) (.rd (.arr .y 42))) (.rd (.arr .y 43))) (.rd (.arr .y 44))) (.rd (.arr .y 45))) (.rd (.arr .y 46))) (.rd (.arr .y 47))) (.rd (.arr .y 48))) (.rd (.arr .y 49))) (.rd (.arr .y 50))) (.rd (.arr .y 51))) (.rd (.arr .y 52)))),
  .set (.var .mwAvg) (.add (.add (.add (.add (.add (.add (.add (.add (.add (.add (.add (.add (.add (.add (.add (.add (.add (.add (.add (.add (.add (.add (.add (.add (.add (.add (.add (.add (.add (.add (.add (.add (.add (.add (.add (.add (.add (.add (.add (.add (.add (.add (.add (.add (.add (.add (.add (.add (.add (.add (.add (.add (.add (.mul (.rd (.arr .y 0)) (.num 25032542304996495 18)) (.mul (.rd (.arr .y 1)) (.num 99212254697700253 17))) (.mul (.rd (.arr .y 2)) (.num 62502343837893923 18))) (.mul (.rd (.arr .y 3)) (.num 58798142449083754 18))) (.mul (.rd (.arr .y 4)) (.num 30296842402491128 18))) (.mul (.rd (.arr .y 5)) (.num 49606127348850126 17))) (.mul (.rd (.arr .y 6)) (.num 5550843506179199 17))) (.mul (.rd (.arr .y 7)) (.num 29399071224541877 18))) (.mul (.rd (.arr .y 8)) (.num 31251171918946961 18))) (.mul (.rd (.arr .y 9)) (.num 71291691381119682 18))) (.mul (.rd (.arr .y 10)) (.num 71291691381119682 18))) (.mul (.rd (.arr .y 11)) (.num 6651226951835805 17))) (.mul (.rd (.arr .y 12)) (.num 62333413951215375 18))) (.mul (.rd (.arr .y 13)) (.num 34460965031080343 18))) (.mul (.rd (.arr .y 14)) (.num 33304158890145569 18))) (.mul (.rd (.arr .y 15)) (.num 32222495039346891 18))) (.mul (.rd (.arr .y 16)) (.num 35701025333447579 18))) (.mul (.rd (.arr .y 17)) (.num 22722211870992371 18))) (.mul (.rd (.arr .y 18)) (.num 38405584479227962 18))) (.mul (.rd (.arr .y 19)) (.num 36974290296984895 18))) (.mul (.rd (.arr .y 20)) (.num 35645845690559841 18))) (.mul (.rd (.arr .y 21)) (.num 34409549338132318 18))) (.mul (.rd (.arr .y 22)) (.num 33256134759179025 18))) (.mul (.rd (.arr .y 23)) (.num 23231383182615861 18))) (.mul (.rd (.arr .y 24)) (.num 24347072386280914 18))) (.mul (.rd (.arr .y 25)) (.num 23763897127039892 18))) (.mul (.rd (.arr .y 26)) (.num 23208005462236166 18))) (.mul (.rd (.arr .y 27)) (.num 17836707087023153 18))) (.mul (.rd (.arr .y 28)) (.num 18148958667198553 18))) (.mul (.rd (.arr .y 29)) (.num 1782292284527992 17))) (.mul (.rd (.arr .y 30)) (.num 17508394399694933 18))) (.mul (.rd (.arr .y 31)) (.num 14466240568372807 18))) (.mul (.rd (.arr .y 32)) (.num 14258338276223937 18))) (.mul (.rd (.arr .y 33)) (.num 14056327076112483 18))) (.mul (.rd (.arr .y 34)) (.num 11881948563519946 18))) (.mul (.rd (.arr .y 35)) (.num 11741330964402398 18))) (.mul (.rd (.arr .y 36)) (.num 10184527340159955 18))) (.mul (.rd (.arr .y 37)) (.num 10081041492558679 18))) (.mul (.rd (.arr .y 38)) (.num 89114614226399602 19))) (.mul (.rd (.arr .y 39)) (.num 88321293080256321 19))) (.mul (.rd (.arr .y 40)) (.num 79212990423466311 19))) (.mul (.rd (.arr .y 41)) (.num 78585548149129603 19))) (.mul (.rd (.arr .y 42)) (.num 71291691381119683 19))) (.mul (.rd (.arr .y 43)) (.num 70783060254646308 19))) (.mul (.rd (.arr .y 44)) (.num 58706654822011988 19))) (.mul (.rd (.arr .y 45)) (.num 5905610625374637 18))) (.mul (.rd (.arr .y 46)) (.num 5905610625374637 18))) (.mul (.rd (.arr .y 47)) (.num 5905610625374637 18))) (.mul (.rd (.arr .y 48)) (.num 59409742817599729 19))) (.mul (.rd (.arr .y 49)) (.num 49669869214267375 19))) (.mul (.rd (.arr .y 50)) (.num 49669869214267375 19))) (.mul (.rd (.arr .y 51)) (.num 42858104103192024 19))) (.mul (.rd (.arr .y 52)) (.num 46227648238661885 19))) (.mul (.rd (.var .yN)) (.num 35697100110375433 18))),
  .set (.var .mwAvg) (.div (.num 1 0) (.rd (.var .mwAvg))),
  .set (.var .pres) (.div (.mul (.mul (.rd (.var .rho)) (.num 83144621 4)) (.rd (.var .T))) (.rd (.var .mwAvg))),
  .set (.arr .C 0) (.mul (.mul (.rd (.var .rho)) (.rd (.arr .y 0))) (.num 25032542304996495 18)),
  .set (.arr .C 1) (.mul (.mul (.rd (.var .rho)) (.rd (.arr .y 1))) (.num 99212254697700253 17)),
  .set (.arr .C 2) (.mul (.mul (.rd (.var .rho)) (.rd (.arr .y 2))) (.num 62502343837893923 18)),
  .set (.arr .C 3) (.mul (.mul (.rd (.var .rho)) (.rd (.arr .y 3))) (.num 58798142449083754 18)),
  .set (.arr .C 4) (.mul (.mul (.rd (.var .rho)) (.rd (.arr .y 4))) (.num 30296842402491128 18)),
  .set (.arr .C 5) (.mul (.mul (.rd (.var .rho)) (.rd (.arr .y 5))) (.num 49606127348850126 17)),
  .set (.arr .C 6) (.mul (.mul (.rd (.var .rho)) (.rd (.arr .y 6))) (.num 5550843506179199 17)),
  .set (.arr .C 7) (.mul (.mul (.rd (.var .rho)) (.rd (.arr .y 7))) (.num 29399071224541877 18)),
  .set (.arr .C 8) (.mul (.mul (.rd (.var .rho)) (.rd (.arr .y 8))) (.num 31251171918946961 18)),
  .set (.arr .C 9) (.mul (.mul (.rd (.var .rho)) (.rd (.arr .y 9))) (.num 71291691381119682 18)),
  .set (.arr .C 10) (.mul (.mul (.rd (.var .rho)) (.rd (.arr .y 10))) (.num 71291691381119682 18)),
  .set (.arr .C 11) (.mul (.mul (.rd (.var .rho)) (.rd (.arr .y 11))) (.num 6651226951835805 17)),
  .set (.arr .C 12) (.mul (.mul (.rd (.var .rho)) (.rd (.arr .y 12))) (.num 62333413951215375 18)),
  .set (.arr .C 13) (.mul (.mul (.rd (.var .rho)) (.rd (.arr .y 13))) (.num 34460965031080343 18)),
  .set (.arr .C 14) (.mul (.mul (.rd (.var .rho)) (.rd (.arr .y 14))) (.num 33304158890145569 18)),
  .set (.arr .C 15) (.mul (.mul (.rd (.var .rho)) (.rd (.arr .y 15))) (.num 32222495039346891 18)),
  .set (.arr .C 16) (.mul (.mul (.rd (.var .rho)) (.rd (.arr .y 16))) (.num 35701025333447579 18)),
  .set (.arr .C 17) (.mul (.mul (.rd (.var .rho)) (.rd (.arr .y 17))) (.num 22722211870992371 18)),
  .set (.arr .C 18) (.mul (.mul (.rd (.var .rho)) (.rd (.arr .y 18))) (.num 38405584479227962 18)),
  .set (.arr .C 19) (.mul (.mul (.rd (.var .rho)) (.rd (.arr .y 19))) (.num 36974290296984895 18)),
  .set (.arr .C 20) (.mul (.mul (.rd (.var .rho)) (.rd (.arr .y 20))) (.num 35645845690559841 18)),
  .set (.arr .C 21) (.mul (.mul (.rd (.var .rho)) (.rd (.arr .y 21))) (.num 34409549338132318 18)),
  .set (.arr .C 22) (.mul (.mul (.rd (.var .rho)) (.rd (.arr .y 22))) (.num 33256134759179025 18)),
  .set (.arr .C 23) (.mul (.mul (.rd (.var .rho)) (.rd (.arr .y 23))) (.num 23231383182615861 18)),
  .set (.arr .C 24) (.mul (.mul (.rd (.var .rho)) (.rd (.arr .y 24))) (.num 24347072386280914 18)),
  .set (.arr .C 25) (.mul (.mul (.rd (.var .rho)) (.rd (.arr .y 25))) (.num 23763897127039892 18)),
  .set (.arr .C 26) (.mul (.mul (.rd (.var .rho)) (.rd (.arr .y 26))) (.num 23208005462236166 18)),
  .set (.arr .C 27) (.mul (.mul (.rd (.var .rho)) (.rd (.arr .y 27))) (.num 17836707087023153 18)),
  .set (.arr .C 28) (.mul (.mul (.rd (.var .rho)) (.rd (.arr .y 28))) (.num 18148958667198553 18)),
  .set (.arr .C 29) (.mul (.mul (.rd (.var .rho)) (.rd (.arr .y 29))) (.num 1782292284527992 17)),
  .set (.arr .C 30) (.mul (.mul (.rd (.var .rho)) (.rd (.arr .y 30))) (.num 17508394399694933 18)),
  .set (.arr .C 31) (.mul (.mul (.rd (.var .rho)) (.rd (.arr .y 31))) (.num 14466240568372807 18)),
  .set (.arr .C 32) (.mul (.mul (.rd (.var .rho)) (.rd (.arr .y 32))) (.num 14258338276223937 18)),
  .set (.arr .C 33) (.mul (.mul (.rd (.var .rho)) (.rd (.arr .y 33))) (.num 14056327076112483 18)),
  .set (.arr .C 34) (.mul (.mul (.rd (.var .rho)) (.rd (.arr .y 34))) (.num 11881948563519946 18)),
  .set (.arr .C 35) (.mul (.mul (.rd (.var .rho)) (.rd (.arr .y 35))) (.num 11741330964402398 18)),
  .set (.arr .C 36) (.mul (.mul (.rd (.var .rho)) (.rd (.arr .y 36))) (.num 10184527340159955 18)),
  .set (.arr .C 37) (.mul (.mul (.rd (.var .rho)) (.rd (.arr .y 37))) (.num 10081041492558679 18)),
  .set (.arr .C 38) (.mul (.mul (.rd (.var .rho)) (.rd (.arr .y 38))) (.num 89114614226399602 19)),
  .set (.arr .C 39) (.mul (.mul (.rd (.var .rho)) (.rd (.arr .y 39))) (.num 88321293080256321 19)),
  .set (.arr .C 40) (.mul (.mul (.rd (.var .rho)) (.rd (.arr .y 40))) (.num 79212990423466311 19)),
  .set (.arr .C 41) (.mul (.mul (.rd (.var .rho)) (.rd (.arr .y 41))) (.num 78585548149129603 19)),
  .set (.arr .C 42) (.mul (.mul (.rd (.var .rho)) (.rd (.arr .y 42))) (.num 71291691381119683 19)),
  .set (.arr .C 43) (.mul (.mul (.rd (.var .rho)) (.rd (.arr .y 43))) (.num 70783060254646308 19)),
  .set (.arr .C 44) (.mul (.mul (.rd (.var .rho)) (.rd (.arr .y 44))) (.num 58706654822011988 19)),
  .set (.arr .C 45) (.mul (.mul (.rd (.var .rho)) (.rd (.arr .y 45))) (.num 5905610625374637 18)),
  .set (.arr .C 46) (.mul (.mul (.rd (.var .rho)) (.rd (.arr .y 46))) (.num 5905610625374637 18)),
  .set (.arr .C 47) (.mul (.mul (.rd (.var .rho)) (.rd (.arr .y 47))) (.num 5905610625374637 18)),
  .set (.arr .C 48) (.mul (.mul (.rd (.var .rho)) (.rd (.arr .y 48))) (.num 59409742817599729 19)),
  .set (.arr .C 49) (.mul (.mul (.rd (.var .rho)) (.rd (.arr .y 49))) (.num 49669869214267375 19)),
  .set (.arr .C 50) (.mul (.mul (.rd (.var .rho)) (.rd (.arr .y 50))) (.num 49669869214267375 19)),
  .set (.arr .C 51) (.mul (.mul (.rd (.var .rho)) (.rd (.arr .y 51))) (.num 42858104103192024 19)),
  .set (.arr .C 52) (.mul (.mul (.rd (.var .rho)) (.rd (.arr .y 52))) (.num 46227648238661885 19)),
  .set (.arr .C 53) (.mul (.mul (.rd (.var .rho)) (.rd (.var .yN))) (.num 35697100110375433 18))]

/-- utilities/mechanisms/yao/lib/src/chem_utils.c:536-862 -/
def evalU : List CStmt := [
  .ite (.rd (.var .T)) (.num 1000 0) (.arr .h 0) (.mul (.num 20813212426154001 14) (.add (.neg (.num 745375 3)) (.mul (.rd (.var .T)) (.add (.sub (.num 25 1) (.num 1 0)) (.mul (.rd (.var .T)) (.add (.num 0 0) (.mul (.rd (.var .T)) (.add (.num 0 0) (.mul (.rd (.var .T)) (.add (.num 0 0) (.mul (.num 0 0) (.rd (.var .T))))))))))))) (.mul (.num 20813212426154001 14) (.add (.neg (.num 745375 3)) (.mul (.rd (.var .T)) (.add (.sub (.num 25 1) (.num 1 0)) (.mul (.rd (.var .T)) (.add (.num 0 0) (.mul (.rd (.var .T)) (.add (.num 0 0) (.mul (.rd (.var .T)) (.add (.num 0 0) (.mul (.num 0 0) (.rd (.var .T))))))))))))),
  .ite (.rd (.var .T)) (.num 1000 0) (.arr .h 1) (.mul (.num 8248965315395757 12) (.add (.num 25473659899999999 12) (.mul (.rd (.var .T)) (.add (.sub (.num 25 1) (.num 1 0)) (.mul (.rd (.var .T)) (.add (.num 35266640949999999 29) (.mul (.rd (.var .T)) (.add (.neg (.num 66530654666666665 32)) (.mul (.rd (.var .T)) (.add (.num 57520407999999997 35) (.mul (.neg (.num 18554646640000001 38)) (.rd (.var .T))))))))))))) (.mul (.num 8248965315395757 12) (.add (.num 25473659899999999 12) (.mul (.rd (.var .T)) (.add (.sub (.num 25000000099999999 16) (.num 1 0)) (.mul (.rd (.var .T)) (.add (.neg (.num 11542148649999999 27)) (.mul (.rd (.var .T)) (.add (.num 53853982666666673 31) (.mul (.rd (.var .T)) (.add (.neg (.num 11837880875000001 34)) (.mul (.num 99639471400000006 39) (.rd (.var .T))))))))))))),
  .ite (.rd (.var .T)) (.num 1000 0) (.arr .h 2) (.mul (.num 51967336900133762 14) (.add (.num 291222592 4) (.mul (.rd (.var .T)) (.add (.sub (.num 31682671 7) (.num 1 0)) (.mul (.rd (.var .T)) (.add (.neg (.num 163965942 11)) (.mul (.rd (.var .T)) (.add (.num 22143546533333334 22) (.mul (.rd (.var .T)) (.add (.neg (.num 153201656 17)) (.mul (.num 42253194199999998 29) (.rd (.var .T))))))))))))) (.mul (.num 51967336900133762 14) (.add (.num 29217579099999999 12) (.mul (.rd (.var .T)) (.add (.sub (.num 25694207800000002 16) (.num 1 0)) (.mul (.rd (.var .T)) (.add (.neg (.num 42987056850000002 21)) (.mul (.rd (.var .T)) (.add (.num 13982819633333334 24) (.mul (.rd (.var .T)) (.add (.neg (.num 25044449749999998 28)) (.mul (.num 24566738199999997 32) (.rd (.var .T))))))))))))),
  .ite (.rd (.var .T)) (.num 1000 0) (.arr .h 3) (.mul (.num 48887492694330808 14) (.add (.num 33815381200000002 13) (.mul (.rd (.var .T)) (.add (.sub (.num 41253056099999998 16) (.num 1 0)) (.mul (.rd (.var .T)) (.add (.neg (.num 16127246950000001 19)) (.mul (.rd (.var .T)) (.add (.num 21758823033333334 22) (.mul (.rd (.var .T)) (.add (.neg (.num 14496341075 19)) (.mul (.num 41247475799999997 29) (.rd (.var .T))))))))))))) (.mul (.num 48887492694330808 14) (.add (.num 37188577399999999 13) (.mul (.rd (.var .T)) (.add (.sub (.num 286472886 8) (.num 1 0)) (.mul (.rd (.var .T)) (.add (.num 52825224000000001 20) (.mul (.rd (.var .T)) (.add (.neg (.num 86360919333333338 24)) (.mul (.rd (.var .T)) (.add (.num 76304668500000001 28) (.mul (.neg (.num 266391752 24)) (.rd (.var .T))))))))))))),
  .ite (.rd (.var .T)) (.num 1000 0) (.arr .h 4) (.mul (.num 25190194790518544 14) (.add (.num 29480804000000001 14) (.mul (.rd (.var .T)) (.add (.sub (.num 43017980099999997 16) (.num 1 0)) (.mul (.rd (.var .T)) (.add (.neg (.num 23745602549999998 19)) (.mul (.rd (.var .T)) (.add (.num 70527630333333326 22) (.mul (.rd (.var .T)) (.add (.neg (.num 606909735 17)) (.mul (.num 18584502480000002 28) (.rd (.var .T))))))))))))) (.mul (.num 25190194790518544 14) (.add (.num 111856713 6) (.mul (.rd (.var .T)) (.add (.sub (.num 40172109000000003 16) (.num 1 0)) (.mul (.rd (.var .T)) (.add (.num 1119910065 12) (.mul (.rd (.var .T)) (.add (.neg (.num 21121938333333332 23)) (.mul (.rd (.var .T)) (.add (.num 28561592500000001 27) (.mul (.neg (.num 21581707 22)) (.rd (.var .T))))))))))))),
  .ite (.rd (.var .T)) (.num 1000 0) (.arr .h 5) (.mul (.num 41244826576978785 13) (.add (.neg (.num 91793517299999996 14)) (.mul (.rd (.var .T)) (.add (.sub (.num 23443311200000001 16) (.num 1 0)) (.mul (.rd (.var .T)) (.add (.num 39902603749999996 19) (.mul (.rd (.var .T)) (.add (.neg (.num 64927169999999995 22)) (.mul (.rd (.var .T)) (.add (.num 50393023500000001 25) (.mul (.neg (.num 14752235220000002 28)) (.rd (.var .T))))))))))))) (.mul (.num 41244826576978785 13) (.add (.neg (.num 95015892199999996 14)) (.mul (.rd (.var .T)) (.add (.sub (.num 33372791999999998 16) (.num 1 0)) (.mul (.rd (.var .T)) (.add (.neg (.num 24701236549999999 21)) (.mul (.rd (.var .T)) (.add (.num 16648559266666665 23) (.mul (.rd (.var .T)) (.add (.neg (.num 44891598500000001 27)) (.mul (.num 40051075199999998 31) (.rd (.var .T))))))))))))),
  .ite (.rd (.var .T)) (.num 1000 0) (.arr .h 6) (.mul (.num 4615227795515807 13) (.add (.neg (.num 30293726699999999 12)) (.mul (.rd (.var .T)) (.add (.sub (.num 41986405600000003 16) (.num 1 0)) (.mul (.rd (.var .T)) (.add (.neg (.num 10182170500000001 19)) (.mul (.rd (.var .T)) (.add (.num 217346737 14) (.mul (.rd (.var .T)) (.add (.neg (.num 13719926550000001 25)) (.mul (.num 354395634 21) (.rd (.var .T))))))))))))) (.mul (.num 4615227795515807 13) (.add (.neg (.num 300042971 4)) (.mul (.rd (.var .T)) (.add (.sub (.num 30339924900000002 16) (.num 1 0)) (.mul (.rd (.var .T)) (.add (.num 10884590200000001 19) (.mul (.rd (.var .T)) (.add (.neg (.num 54690839333333327 24)) (.mul (.rd (.var .T)) (.add (.neg (.num 2426049675 20)) (.mul (.num 33640198399999998 31) (.rd (.var .T))))))))))))),
  .ite (.rd (.var .T)) (.num 1000 0) (.arr .h 7) (.mul (.num 24443746347165404 14) (.add (.neg (.num 177025821 4)) (.mul (.rd (.var .T)) (.add (.sub (.num 42761126899999997 16) (.num 1 0)) (.mul (.rd (.var .T)) (.add (.neg (.num 27141120849999997 20)) (.mul (.rd (.var .T)) (.add (.num 55778567000000005 22) (.mul (.rd (.var .T)) (.add (.neg (.num 53942703249999999 25)) (.mul (.num 1724908726 21) (.rd (.var .T))))))))))))) (.mul (.num 24443746347165404 14) (.add (.neg (.num 17861787700000001 12)) (.mul (.rd (.var .T)) (.add (.sub (.num 41650028499999996 16) (.num 1 0)) (.mul (.rd (.var .T)) (.add (.num 245415847 11) (.mul (.rd (.var .T)) (.add (.neg (.num 63379741666666662 23)) (.mul (.rd (.var .T)) (.add (.num 92796496499999996 27) (.mul (.neg (.num 57581661000000002 31)) (.rd (.var .T))))))))))))),
  .ite (.rd (.var .T)) (.num 1000 0) (.arr .h 8) (.mul (.num 25983668450066881 14) (.add (.neg (.num 10639435599999999 13)) (.mul (.rd (.var .T)) (.add (.sub (.num 37824563599999999 16) (.num 1 0)) (.mul (.rd (.var .T)) (.add (.neg (.num 14983670799999999 19)) (.mul (.rd (.var .T)) (.add (.num 32824340033333332 22) (.mul (.rd (.var .T)) (.add (.neg (.num 24203237725000002 25)) (.mul (.num 648745674 21) (.rd (.var .T))))))))))))) (.mul (.num 25983668450066881 14) (.add (.neg (.num 10884577200000001 13)) (.mul (.rd (.var .T)) (.add (.sub (.num 32825378399999998 16) (.num 1 0)) (.mul (.rd (.var .T)) (.add (.num 74154376999999996 20) (.mul (.rd (.var .T)) (.add (.neg (.num 25265555633333331 23)) (.mul (.rd (.var .T)) (.add (.num 52367638749999998 27) (.mul (.neg (.num 43343558799999996 31)) (.rd (.var .T))))))))))))),
  .ite (.rd (.var .T)) (.num 1000 0) (.arr .h 9) (.mul (.num 59275206603321635 14) (.add (.num 46004040099999998 12) (.mul (.rd (.var .T)) (.add (.sub (.num 37626786700000001 16) (.num 1 0)) (.mul (.rd (.var .T)) (.add (.num 48443607150000002 20) (.mul (.rd (.var .T)) (.add (.num 93163280333333339 23) (.mul (.rd (.var .T)) (.add (.neg (.num 96272788250000007 26)) (.mul (.num 33748343799999999 29) (.rd (.var .T))))))))))))) (.mul (.num 59275206603321635 14) (.add (.num 46263603999999999 12) (.mul (.rd (.var .T)) (.add (.sub (.num 28741011300000001 16) (.num 1 0)) (.mul (.rd (.var .T)) (.add (.num 18281964599999999 19) (.mul (.rd (.var .T)) (.add (.neg (.num 46964865666666667 23)) (.mul (.rd (.var .T)) (.add (.num 65044887249999998 27) (.mul (.neg (.num 375455134 23)) (.rd (.var .T))))))))))))),
  .ite (.rd (.var .T)) (.num 1000 0) (.arr .h 10) (.mul (.num 59275206603321635 14) (.add (.num 50496816299999999 12) (.mul (.rd (.var .T)) (.add (.sub (.num 41986041099999998 16) (.num 1 0)) (.mul (.rd (.var .T)) (.add (.neg (.num 1183307095 12)) (.mul (.rd (.var .T)) (.add (.num 27443207333333332 22) (.mul (.rd (.var .T)) (.add (.neg (.num 16720399525000001 25)) (.mul (.num 38862947400000001 29) (.rd (.var .T))))))))))))) (.mul (.num 59275206603321635 14) (.add (.num 509259997 4) (.mul (.rd (.var .T)) (.add (.sub (.num 22920384199999999 16) (.num 1 0)) (.mul (.rd (.var .T)) (.add (.num 2327943185 12) (.mul (.rd (.var .T)) (.add (.neg (.num 67063982333333332 23)) (.mul (.rd (.var .T)) (.add (.num 10447650000000001 26) (.mul (.neg (.num 67943272999999998 31)) (.rd (.var .T))))))))))))),
  .ite (.rd (.var .T)) (.num 1000 0) (.arr .h 11) (.mul (.num 55301374409537334 14) (.add (.num 16444998800000001 12) (.mul (.rd (.var .T)) (.add (.sub (.num 36735904000000001 16) (.num 1 0)) (.mul (.rd (.var .T)) (.add (.num 1005475875 12) (.mul (.rd (.var .T)) (.add (.num 19100728533333335 22) (.mul (.rd (.var .T)) (.add (.neg (.num 17177935625 19)) (.mul (.num 50877146800000003 29) (.rd (.var .T))))))))))))) (.mul (.num 55301374409537334 14) (.add (.num 16775584299999999 12) (.mul (.rd (.var .T)) (.add (.sub (.num 22857177200000001 16) (.num 1 0)) (.mul (.rd (.var .T)) (.add (.num 36199501849999999 19) (.mul (.rd (.var .T)) (.add (.neg (.num 99571449333333331 23)) (.mul (.rd (.var .T)) (.add (.num 14892116100000001 26) (.mul (.neg (.num 93430878800000005 31)) (.rd (.var .T))))))))))))),
  .ite (.rd (.var .T)) (.num 1000 0) (.arr .h 12) (.mul (.num 5182688078609915 13) (.add (.neg (.num 102466476 4)) (.mul (.rd (.var .T)) (.add (.sub (.num 514987613 8) (.num 1 0)) (.mul (.rd (.var .T)) (.add (.neg (.num 68354894000000003 19)) (.mul (.rd (.var .T)) (.add (.num 16393353300000001 21) (.mul (.rd (.var .T)) (.add (.neg (.num 1211857565 17)) (.mul (.num 333387912 20) (.rd (.var .T))))))))))))) (.mul (.num 5182688078609915 13) (.add (.neg (.num 94683445900000006 13)) (.mul (.rd (.var .T)) (.add (.sub (.num 74851495000000004 18) (.num 1 0)) (.mul (.rd (.var .T)) (.add (.num 66954733499999999 19) (.mul (.rd (.var .T)) (.add (.neg (.num 19109526966666665 22)) (.mul (.rd (.var .T)) (.add (.num 3057313375 19) (.mul (.neg (.num 20363046000000002 30)) (.rd (.var .T))))))))))))),
  .ite (.rd (.var .T)) (.num 1000 0) (.arr .h 13) (.mul (.num 2865243876803429 13) (.add (.num 38395649600000002 13) (.mul (.rd (.var .T)) (.add (.sub (.num 42211858400000004 16) (.num 1 0)) (.mul (.rd (.var .T)) (.add (.neg (.num 162196266 11)) (.mul (.rd (.var .T)) (.add (.num 45933148666666667 22) (.mul (.rd (.var .T)) (.add (.neg (.num 33286023250000002 25)) (.mul (.num 86753773 20) (.rd (.var .T))))))))))))) (.mul (.num 2865243876803429 13) (.add (.num 401191815 5) (.mul (.rd (.var .T)) (.add (.sub (.num 277217438 8) (.num 1 0)) (.mul (.rd (.var .T)) (.add (.num 24784776299999998 19) (.mul (.rd (.var .T)) (.add (.neg (.num 82815204333333337 23)) (.mul (.rd (.var .T)) (.add (.num 14729044450000001 26) (.mul (.neg (.num 1067017422 23)) (.rd (.var .T))))))))))))),
  .ite (.rd (.var .T)) (.num 1000 0) (.arr .h 14) (.mul (.num 2769061668644934 13) (.add (.neg (.num 14308956700000001 12)) (.mul (.rd (.var .T)) (.add (.sub (.num 47937231499999999 16) (.num 1 0)) (.mul (.rd (.var .T)) (.add (.neg (.num 4954166845 12)) (.mul (.rd (.var .T)) (.add (.num 12440666933333332 21) (.mul (.rd (.var .T)) (.add (.neg (.num 94821315249999995 25)) (.mul (.num 26354530400000001 28) (.rd (.var .T))))))))))))) (.mul (.num 2769061668644934 13) (.add (.neg (.num 139958323 4)) (.mul (.rd (.var .T)) (.add (.sub (.num 176069008 8) (.num 1 0)) (.mul (.rd (.var .T)) (.add (.num 460000041 11) (.mul (.rd (.var .T)) (.add (.neg (.num 14741960433333332 22)) (.mul (.rd (.var .T)) (.add (.num 25160302999999999 26) (.mul (.neg (.num 17677112800000002 30)) (.rd (.var .T))))))))))))),
  .ite (.rd (.var .T)) (.num 1000 0) (.arr .h 15) (.mul (.num 26791271377208773 14) (.add (.num 12956976 4) (.mul (.rd (.var .T)) (.add (.sub (.num 37118050199999999 16) (.num 1 0)) (.mul (.rd (.var .T)) (.add (.neg (.num 14023165300000001 19)) (.mul (.rd (.var .T)) (.add (.num 12551699033333334 21) (.mul (.rd (.var .T)) (.add (.neg (.num 11826802224999999 24)) (.mul (.num 37317684000000002 28) (.rd (.var .T))))))))))))) (.mul (.num 26791271377208773 14) (.add (.num 37811194 5) (.mul (.rd (.var .T)) (.add (.sub (.num 47577923799999997 16) (.num 1 0)) (.mul (.rd (.var .T)) (.add (.num 372071237 11) (.mul (.rd (.var .T)) (.add (.neg (.num 8990172533333333 22)) (.mul (.rd (.var .T)) (.add (.num 109522626 18) (.mul (.neg (.num 52707419599999998 31)) (.rd (.var .T))))))))))))),
  .ite (.rd (.var .T)) (.num 1000 0) (.arr .h 16) (.mul (.num 29683482206608977 14) (.add (.neg (.num 14344085999999999 12)) (.mul (.rd (.var .T)) (.add (.sub (.num 35795334699999999 16) (.num 1 0)) (.mul (.rd (.var .T)) (.add (.neg (.num 30517684 11)) (.mul (.rd (.var .T)) (.add (.num 33893811000000002 23) (.mul (.rd (.var .T)) (.add (.num 226751471 18) (.mul (.neg (.num 18088489979999999 29)) (.rd (.var .T))))))))))))) (.mul (.num 29683482206608977 14) (.add (.neg (.num 141518724 4)) (.mul (.rd (.var .T)) (.add (.sub (.num 27151856099999998 16) (.num 1 0)) (.mul (.rd (.var .T)) (.add (.num 10312637150000001 19) (.mul (.rd (.var .T)) (.add (.neg (.num 33294192366666671 23)) (.mul (.rd (.var .T)) (.add (.num 57513252 18) (.mul (.neg (.num 40729543200000001 31)) (.rd (.var .T))))))))))))),
  .ite (.rd (.var .T)) (.num 1000 0) (.arr .h 17) (.mul (.num 18892296942953618 14) (.add (.neg (.num 48371969700000001 12)) (.mul (.rd (.var .T)) (.add (.sub (.num 235677352 8) (.num 1 0)) (.mul (.rd (.var .T)) (.add (.num 44922983850000002 19) (.mul (.rd (.var .T)) (.add (.neg (.num 23745208966666665 22)) (.mul (.rd (.var .T)) (.add (.num 61479755499999995 26) (.mul (.neg (.num 28739909599999997 30)) (.rd (.var .T))))))))))))) (.mul (.num 18892296942953618 14) (.add (.neg (.num 48759165999999997 12)) (.mul (.rd (.var .T)) (.add (.sub (.num 38574602900000001 16) (.num 1 0)) (.mul (.rd (.var .T)) (.add (.num 22071851299999999 19) (.mul (.rd (.var .T)) (.add (.neg (.num 73827134666666672 23)) (.mul (.rd (.var .T)) (.add (.num 13087254700000001 26) (.mul (.neg (.num 94416832800000002 31)) (.rd (.var .T))))))))))))),
  .ite (.rd (.var .T)) (.num 1000 0) (.arr .h 18) (.mul (.num 31932177658088915 14) (.add (.num 264289807 4) (.mul (.rd (.var .T)) (.add (.sub (.num 80868109399999999 17) (.num 1 0)) (.mul (.rd (.var .T)) (.add (.num 1168078145 11) (.mul (.rd (.var .T)) (.add (.neg (.num 118390605 13)) (.mul (.rd (.var .T)) (.add (.num 70038109249999999 25) (.mul (.neg (.num 17001459479999999 28)) (.rd (.var .T))))))))))))) (.mul (.num 31932177658088915 14) (.add (.num 25935999199999998 12) (.mul (.rd (.var .T)) (.add (.sub (.num 41475696400000004 16) (.num 1 0)) (.mul (.rd (.var .T)) (.add (.num 298083332 11) (.mul (.rd (.var .T)) (.add (.neg (.num 79098284000000004 23)) (.mul (.rd (.var .T)) (.add (.num 11685304275000001 26) (.mul (.neg (.num 72247042600000001 31)) (.rd (.var .T))))))))))))),
  .ite (.rd (.var .T)) (.num 1000 0) (.arr .h 19) (.mul (.num 30742133534867867 14) (.add (.num 34859846799999999 12) (.mul (.rd (.var .T)) (.add (.sub (.num 321246645 8) (.num 1 0)) (.mul (.rd (.var .T)) (.add (.num 75739581000000002 20) (.mul (.rd (.var .T)) (.add (.num 86403137333333327 22) (.mul (.rd (.var .T)) (.add (.neg (.num 8941446175 18)) (.mul (.num 29430174599999999 28) (.rd (.var .T))))))))))))) (.mul (.num 30742133534867867 14) (.add (.num 34612873899999999 12) (.mul (.rd (.var .T)) (.add (.sub (.num 3016724 6) (.num 1 0)) (.mul (.rd (.var .T)) (.add (.num 51651146000000004 19) (.mul (.rd (.var .T)) (.add (.neg (.num 15602744966666665 22)) (.mul (.rd (.var .T)) (.add (.num 25440821999999998 26) (.mul (.neg (.num 17252140819999999 30)) (.rd (.var .T))))))))))))),
  .ite (.rd (.var .T)) (.num 1000 0) (.arr .h 20) (.mul (.num 29637603301660818 14) (.add (.num 50897759299999998 13) (.mul (.rd (.var .T)) (.add (.sub (.num 39592014799999999 16) (.num 1 0)) (.mul (.rd (.var .T)) (.add (.neg (.num 37852612350000002 19)) (.mul (.rd (.var .T)) (.add (.num 19033009733333333 21) (.mul (.rd (.var .T)) (.add (.neg (.num 17289718825 18)) (.mul (.num 53976874600000004 28) (.rd (.var .T))))))))))))) (.mul (.num 29637603301660818 14) (.add (.num 49398861399999996 13) (.mul (.rd (.var .T)) (.add (.sub (.num 20361111599999999 16) (.num 1 0)) (.mul (.rd (.var .T)) (.add (.num 73227075499999999 19) (.mul (.rd (.var .T)) (.add (.neg (.num 22369263833333335 22)) (.mul (.rd (.var .T)) (.add (.num 36805730750000002 26) (.mul (.neg (.num 251412122 22)) (.rd (.var .T))))))))))))),
  .ite (.rd (.var .T)) (.num 1000 0) (.arr .h 21) (.mul (.num 28609689384998131 14) (.add (.num 128416265 4) (.mul (.rd (.var .T)) (.add (.sub (.num 43064656799999996 16) (.num 1 0)) (.mul (.rd (.var .T)) (.add (.neg (.num 20932944600000002 19)) (.mul (.rd (.var .T)) (.add (.num 16571426900000001 21) (.mul (.rd (.var .T)) (.add (.neg (.num 14978165149999999 24)) (.mul (.num 46101800800000003 28) (.rd (.var .T))))))))))))) (.mul (.num 28609689384998131 14) (.add (.num 1285752 2) (.mul (.rd (.var .T)) (.add (.sub (.num 19546564200000001 16) (.num 1 0)) (.mul (.rd (.var .T)) (.add (.num 86986361000000005 19) (.mul (.rd (.var .T)) (.add (.neg (.num 26606888933333333 22)) (.mul (.rd (.var .T)) (.add (.num 43804422250000001 26) (.mul (.neg (.num 29928315199999999 30)) (.rd (.var .T))))))))))))),
  .ite (.rd (.var .T)) (.num 1000 0) (.arr .h 22) (.mul (.num 27650687204768667 14) (.add (.neg (.num 115222055 4)) (.mul (.rd (.var .T)) (.add (.sub (.num 42914249199999999 16) (.num 1 0)) (.mul (.rd (.var .T)) (.add (.neg (.num 27507713499999998 19)) (.mul (.rd (.var .T)) (.add (.num 19981276266666669 21) (.mul (.rd (.var .T)) (.add (.neg (.num 17711657125 18)) (.mul (.num 53737154200000002 28) (.rd (.var .T))))))))))))) (.mul (.num 27650687204768667 14) (.add (.neg (.num 114263932 4)) (.mul (.rd (.var .T)) (.add (.sub (.num 10718814999999999 16) (.num 1 0)) (.mul (.rd (.var .T)) (.add (.num 1084263385 11) (.mul (.rd (.var .T)) (.add (.neg (.num 33418689 13)) (.mul (.rd (.var .T)) (.add (.num 55353000250000001 26) (.mul (.neg (.num 38000577999999999 30)) (.rd (.var .T))))))))))))),
  .ite (.rd (.var .T)) (.num 1000 0) (.arr .h 23) (.mul (.num 19315645500243699 14) (.add (.num 62 0) (.mul (.rd (.var .T)) (.add (.sub (.num 34090623999999998 16) (.num 1 0)) (.mul (.rd (.var .T)) (.add (.num 53692870000000004 19) (.mul (.rd (.var .T)) (.add (.num 63049749999999997 23) (.mul (.rd (.var .T)) (.add (.neg (.num 1789645775 18)) (.mul (.num 57347701999999995 29) (.rd (.var .T))))))))))))) (.mul (.num 19315645500243699 14) (.add (.neg (.num 9695 1)) (.mul (.rd (.var .T)) (.add (.sub (.num 59756698999999998 16) (.num 1 0)) (.mul (.rd (.var .T)) (.add (.num 40652956999999998 19) (.mul (.rd (.var .T)) (.add (.neg (.num 91454149999999997 23)) (.mul (.rd (.var .T)) (.add (.num 1017576025 19) (.mul (.neg (.num 43520341999999999 31)) (.rd (.var .T))))))))))))),
  .ite (.rd (.var .T)) (.num 1000 0) (.arr .h 24) (.mul (.num 20243281060168923 14) (.add (.num 19245629000000001 12) (.mul (.rd (.var .T)) (.add (.sub (.num 13631835000000001 16) (.num 1 0)) (.mul (.rd (.var .T)) (.add (.num 99069104999999994 19) (.mul (.rd (.var .T)) (.add (.num 41656866666666669 22) (.mul (.rd (.var .T)) (.add (.neg (.num 83388887499999995 25)) (.mul (.num 31693142 19) (.rd (.var .T))))))))))))) (.mul (.num 20243281060168923 14) (.add (.num 17482449000000001 12) (.mul (.rd (.var .T)) (.add (.sub (.num 65007877000000001 16) (.num 1 0)) (.mul (.rd (.var .T)) (.add (.num 71623655000000001 19) (.mul (.rd (.var .T)) (.add (.neg (.num 18927210666666665 22)) (.mul (.rd (.var .T)) (.add (.num 277020025 18) (.mul (.neg (.num 18072777399999997 30)) (.rd (.var .T))))))))))))),
  .ite (.rd (.var .T)) (.num 1000 0) (.arr .h 25) (.mul (.num 19758402201107208 14) (.add (.num 1074826 3) (.mul (.rd (.var .T)) (.add (.sub (.num 14933069999999999 16) (.num 1 0)) (.mul (.rd (.var .T)) (.add (.num 10462590000000001 18) (.mul (.rd (.var .T)) (.add (.num 14955980000000001 22) (.mul (.rd (.var .T)) (.add (.neg (.num 417228 14)) (.mul (.num 14316292 19) (.rd (.var .T))))))))))))) (.mul (.num 19758402201107208 14) (.add (.neg (.num 92357029999999997 14)) (.mul (.rd (.var .T)) (.add (.sub (.num 67322569999999997 16) (.num 1 0)) (.mul (.rd (.var .T)) (.add (.num 74541700000000004 19) (.mul (.rd (.var .T)) (.add (.neg (.num 16499663333333331 22)) (.mul (.rd (.var .T)) (.add (.num 18030055000000001 26) (.mul (.neg (.num 75324079999999992 31)) (.rd (.var .T))))))))))))),
  .ite (.rd (.var .T)) (.num 1000 0) (.arr .h 26) (.mul (.num 19296208183235558 14) (.add (.num 10312346 3) (.mul (.rd (.var .T)) (.add (.sub (.num 10491173 7) (.num 1 0)) (.mul (.rd (.var .T)) (.add (.num 13004486500000001 18) (.mul (.rd (.var .T)) (.add (.num 78475053333333331 23) (.mul (.rd (.var .T)) (.add (.neg (.num 4898783 15)) (.mul (.num 18744041400000001 28) (.rd (.var .T))))))))))))) (.mul (.num 19296208183235558 14) (.add (.num 79762236000000003 13) (.mul (.rd (.var .T)) (.add (.sub (.num 77097479 7) (.num 1 0)) (.mul (.rd (.var .T)) (.add (.num 80157425000000008 19) (.mul (.rd (.var .T)) (.add (.neg (.num 17573412666666665 22)) (.mul (.rd (.var .T)) (.add (.num 18972088000000001 26) (.mul (.neg (.num 77725438000000008 31)) (.rd (.var .T))))))))))))),
  .ite (.rd (.var .T)) (.num 1000 0) (.arr .h 27) (.mul (.num 14830262506385543 14) (.add (.neg (.num 93357343999999994 13)) (.mul (.rd (.var .T)) (.add (.sub (.num 12713498000000001 16) (.num 1 0)) (.mul (.rd (.var .T)) (.add (.num 13115527 9) (.mul (.rd (.var .T)) (.add (.neg (.num 30970768333333334 22)) (.mul (.rd (.var .T)) (.add (.neg (.num 11959318 16)) (.mul (.num 66961085999999998 29) (.rd (.var .T))))))))))))) (.mul (.num 14830262506385543 14) (.add (.neg (.num 10784054 3)) (.mul (.rd (.var .T)) (.add (.sub (.num 58111867999999998 16) (.num 1 0)) (.mul (.rd (.var .T)) (.add (.num 85571280000000007 19) (.mul (.rd (.var .T)) (.add (.neg (.num 24944720333333334 22)) (.mul (.rd (.var .T)) (.add (.num 35630622500000002 26) (.mul (.neg (.num 18349368199999999 30)) (.rd (.var .T))))))))))))),
  .ite (.rd (.var .T)) (.num 1000 0) (.arr .h 28) (.mul (.num 15089882899288889 14) (.add (.num 22653328000000001 12) (.mul (.rd (.var .T)) (.add (.sub (.num 74449432000000004 17) (.num 1 0)) (.mul (.rd (.var .T)) (.add (.num 19839428499999999 18) (.mul (.rd (.var .T)) (.add (.neg (.num 76326953333333334 22)) (.mul (.rd (.var .T)) (.add (.num 53382432499999996 26) (.mul (.num 4619275 19) (.rd (.var .T))))))))))))) (.mul (.num 15089882899288889 14) (.add (.num 20955008000000002 12) (.mul (.rd (.var .T)) (.add (.sub (.num 70134835000000004 16) (.num 1 0)) (.mul (.rd (.var .T)) (.add (.num 11317279 9) (.mul (.rd (.var .T)) (.add (.neg (.num 3084849 12)) (.mul (.rd (.var .T)) (.add (.num 42019817499999999 26) (.mul (.neg (.num 20817233999999999 30)) (.rd (.var .T))))))))))))),
  .ite (.rd (.var .T)) (.num 1000 0) (.arr .h 29) (.mul (.num 14818801650830409 14) (.add (.neg (.num 17904004 4)) (.mul (.rd (.var .T)) (.add (.sub (.num 1181138 6) (.num 1 0)) (.mul (.rd (.var .T)) (.add (.num 1542669 8) (.mul (.rd (.var .T)) (.add (.num 16955082333333333 22) (.mul (.rd (.var .T)) (.add (.neg (.num 61637219999999997 25)) (.mul (.num 22220385999999997 28) (.rd (.var .T))))))))))))) (.mul (.num 14818801650830409 14) (.add (.neg (.num 21397231000000002 13)) (.mul (.rd (.var .T)) (.add (.sub (.num 20535841000000001 16) (.num 1 0)) (.mul (.rd (.var .T)) (.add (.num 17175253500000001 18) (.mul (.rd (.var .T)) (.add (.neg (.num 52943989999999994 22)) (.mul (.rd (.var .T)) (.add (.num 82724155000000001 26) (.mul (.neg (.num 50722090000000006 30)) (.rd (.var .T))))))))))))),
  .ite (.rd (.var .T)) (.num 1000 0) (.arr .h 30) (.mul (.num 1455728816681158 13) (.add (.num 73221040000000003 13) (.mul (.rd (.var .T)) (.add (.sub (.num 12087041999999999 16) (.num 1 0)) (.mul (.rd (.var .T)) (.add (.num 191487485 10) (.mul (.rd (.var .T)) (.add (.neg (.num 24220169666666668 22)) (.mul (.rd (.var .T)) (.add (.neg (.num 385713675 17)) (.mul (.num 17371887 19) (.rd (.var .T))))))))))))) (.mul (.num 1455728816681158 13) (.add (.num 49644058000000005 13) (.mul (.rd (.var .T)) (.add (.sub (.num 86822394999999997 16) (.num 1 0)) (.mul (.rd (.var .T)) (.add (.num 11845535500000001 18) (.mul (.rd (.var .T)) (.add (.neg (.num 25316288333333332 22)) (.mul (.rd (.var .T)) (.add (.num 16606784 17) (.mul (.num 109690272 22) (.rd (.var .T))))))))))))),
  .ite (.rd (.var .T)) (.num 1000 0) (.arr .h 31) (.mul (.num 12027900893521817 14) (.add (.num 28121887000000002 13) (.mul (.rd (.var .T)) (.add (.sub (.neg (.num 24190111000000001 16)) (.num 1 0)) (.mul (.rd (.var .T)) (.add (.num 20215194499999999 18) (.mul (.rd (.var .T)) (.add (.num 22600779666666667 22) (.mul (.rd (.var .T)) (.add (.neg (.num 84311855000000008 25)) (.mul (.num 30233426000000002 28) (.rd (.var .T))))))))))))) (.mul (.num 12027900893521817 14) (.add (.neg (.num 17218359 4)) (.mul (.rd (.var .T)) (.add (.sub (.num 10138640000000001 15) (.num 1 0)) (.mul (.rd (.var .T)) (.add (.num 11357068999999999 18) (.mul (.rd (.var .T)) (.add (.neg (.num 25970154333333331 22)) (.mul (.rd (.var .T)) (.add (.num 29691305 17) (.mul (.neg (.num 13186489600000001 30)) (.rd (.var .T))))))))))))),
  .ite (.rd (.var .T)) (.num 1392 0) (.arr .h 32) (.mul (.num 11855041320664326 14) (.add (.neg (.num 446546666 5)) (.mul (.rd (.var .T)) (.add (.sub (.neg (.num 10622348100000001 16)) (.num 1 0)) (.mul (.rd (.var .T)) (.add (.num 287109147 10) (.mul (.rd (.var .T)) (.add (.neg (.num 12482896333333334 21)) (.mul (.rd (.var .T)) (.add (.num 31841247249999998 25) (.mul (.neg (.num 35921957799999997 29)) (.rd (.var .T))))))))))))) (.mul (.num 11855041320664326 14) (.add (.neg (.num 100898205 4)) (.mul (.rd (.var .T)) (.add (.sub (.num 145851539 7) (.num 1 0)) (.mul (.rd (.var .T)) (.add (.num 1120362355 11) (.mul (.rd (.var .T)) (.add (.neg (.num 25444934166666668 22)) (.mul (.rd (.var .T)) (.add (.num 29547241500000002 26) (.mul (.neg (.num 1368770278 23)) (.rd (.var .T))))))))))))),
  .ite (.rd (.var .T)) (.num 1390 0) (.arr .h 33) (.mul (.num 11687079873954106 14) (.add (.num 47161145999999999 13) (.mul (.rd (.var .T)) (.add (.sub (.num 524384081 10) (.num 1 0)) (.mul (.rd (.var .T)) (.add (.num 28039847900000001 18) (.mul (.rd (.var .T)) (.add (.neg (.num 11051526766666668 21)) (.mul (.rd (.var .T)) (.add (.num 24438344525 19) (.mul (.neg (.num 22801931999999999 29)) (.rd (.var .T))))))))))))) (.mul (.num 11687079873954106 14) (.add (.neg (.num 98071230700000001 14)) (.mul (.rd (.var .T)) (.add (.sub (.num 152977446 7) (.num 1 0)) (.mul (.rd (.var .T)) (.add (.num 119867655 10) (.mul (.rd (.var .T)) (.add (.neg (.num 27279764933333334 22)) (.mul (.rd (.var .T)) (.add (.num 31720768999999998 26) (.mul (.neg (.num 147081811 22)) (.rd (.var .T))))))))))))),
  .ite (.rd (.var .T)) (.num 1392 0) (.arr .h 34) (.mul (.num 9879201100553604 14) (.add (.neg (.num 73436861699999999 13)) (.mul (.rd (.var .T)) (.add (.sub (.neg (.num 13527520500000001 16)) (.num 1 0)) (.mul (.rd (.var .T)) (.add (.num 34932771299999998 18) (.mul (.rd (.var .T)) (.add (.neg (.num 15313600733333335 21)) (.mul (.rd (.var .T)) (.add (.num 39241835750000003 25) (.mul (.neg (.num 44259235000000003 29)) (.rd (.var .T))))))))))))) (.mul (.num 9879201100553604 14) (.add (.neg (.num 14206286 3)) (.mul (.rd (.var .T)) (.add (.sub (.num 178337529 7) (.num 1 0)) (.mul (.rd (.var .T)) (.add (.num 133688829 10) (.mul (.rd (.var .T)) (.add (.neg (.num 30334559100000002 22)) (.mul (.rd (.var .T)) (.add (.num 35204941999999999 26) (.mul (.neg (.num 16302484880000001 30)) (.rd (.var .T))))))))))))),
  .ite (.rd (.var .T)) (.num 1390 0) (.arr .h 35) (.mul (.num 97622851307080197 15) (.add (.num 183280393 5) (.mul (.rd (.var .T)) (.add (.sub (.neg (.num 204871465 9)) (.num 1 0)) (.mul (.rd (.var .T)) (.add (.num 34190063600000001 18) (.mul (.rd (.var .T)) (.add (.neg (.num 13814930399999999 21)) (.mul (.rd (.var .T)) (.add (.num 31538950500000001 25) (.mul (.neg (.num 30624011599999997 29)) (.rd (.var .T))))))))))))) (.mul (.num 97622851307080197 15) (.add (.neg (.num 50929904100000003 13)) (.mul (.rd (.var .T)) (.add (.sub (.num 18538547000000001 15) (.num 1 0)) (.mul (.rd (.var .T)) (.add (.num 14155398099999999 18) (.mul (.rd (.var .T)) (.add (.neg (.num 32176908199999999 22)) (.mul (.rd (.var .T)) (.add (.num 3738689625 19) (.mul (.neg (.num 17326721280000001 30)) (.rd (.var .T))))))))))))),
  .ite (.rd (.var .T)) (.num 1392 0) (.arr .h 36) (.mul (.num 8467886657617376 14) (.add (.neg (.num 102168601 4)) (.mul (.rd (.var .T)) (.add (.sub (.neg (.num 167720549 8)) (.num 1 0)) (.mul (.rd (.var .T)) (.add (.num 4123058005 11) (.mul (.rd (.var .T)) (.add (.neg (.num 18216803599999999 21)) (.mul (.rd (.var .T)) (.add (.num 46965575749999998 25) (.mul (.neg (.num 53147596599999995 29)) (.rd (.var .T))))))))))))) (.mul (.num 8467886657617376 14) (.add (.neg (.num 183260065 4)) (.mul (.rd (.var .T)) (.add (.sub (.num 210898039 7) (.num 1 0)) (.mul (.rd (.var .T)) (.add (.num 155303939 10) (.mul (.rd (.var .T)) (.add (.neg (.num 35214930999999996 22)) (.mul (.rd (.var .T)) (.add (.num 40851444999999999 26) (.mul (.neg (.num 18911964380000001 30)) (.rd (.var .T))))))))))))),
  .ite (.rd (.var .T)) (.num 1390 0) (.arr .h 37) (.mul (.num 83818437418406575 15) (.add (.neg (.num 10459022299999999 13)) (.mul (.rd (.var .T)) (.add (.sub (.neg (.num 49957040600000002 17)) (.num 1 0)) (.mul (.rd (.var .T)) (.add (.num 40441323350000002 18) (.mul (.rd (.var .T)) (.add (.neg (.num 16684425133333334 21)) (.mul (.rd (.var .T)) (.add (.num 39137327000000003 25) (.mul (.neg (.num 39323245400000001 29)) (.rd (.var .T))))))))))))) (.mul (.num 83818437418406575 15) (.add (.neg (.num 92093822099999998 13)) (.mul (.rd (.var .T)) (.add (.sub (.num 21794070900000001 15) (.num 1 0)) (.mul (.rd (.var .T)) (.add (.num 16314012150000001 18) (.mul (.rd (.var .T)) (.add (.neg (.num 37046081333333335 22)) (.mul (.rd (.var .T)) (.add (.num 43016787 17) (.mul (.neg (.num 19927339979999999 30)) (.rd (.var .T))))))))))))),
  .ite (.rd (.var .T)) (.num 1392 0) (.arr .h 38) (.mul (.num 74094008254152044 15) (.add (.neg (.num 13107455900000001 12)) (.mul (.rd (.var .T)) (.add (.sub (.neg (.num 189226915 8)) (.num 1 0)) (.mul (.rd (.var .T)) (.add (.num 47303317849999998 18) (.mul (.rd (.var .T)) (.add (.neg (.num 20912850700000002 21)) (.mul (.rd (.var .T)) (.add (.num 53789577249999999 25) (.mul (.neg (.num 60543736600000008 29)) (.rd (.var .T))))))))))))) (.mul (.num 74094008254152044 15) (.add (.neg (.num 224485674 4)) (.mul (.rd (.var .T)) (.add (.sub (.num 243540125 7) (.num 1 0)) (.mul (.rd (.var .T)) (.add (.num 17683323099999999 18) (.mul (.rd (.var .T)) (.add (.neg (.num 40069462666666671 22)) (.mul (.rd (.var .T)) (.add (.num 46463763250000001 26) (.mul (.neg (.num 215044524 22)) (.rd (.var .T))))))))))))),
  .ite (.rd (.var .T)) (.num 1390 0) (.arr .h 39) (.mul (.num 73434404393878353 15) (.add (.neg (.num 39268951099999999 13)) (.mul (.rd (.var .T)) (.add (.sub (.neg (.num 77275943800000002 17)) (.num 1 0)) (.mul (.rd (.var .T)) (.add (.num 46627485250000003 18) (.mul (.rd (.var .T)) (.add (.neg (.num 19481574833333333 21)) (.mul (.rd (.var .T)) (.add (.num 46392553499999997 25) (.mul (.neg (.num 47425496600000005 29)) (.rd (.var .T))))))))))))) (.mul (.num 73434404393878353 15) (.add (.neg (.num 133300535 4)) (.mul (.rd (.var .T)) (.add (.sub (.num 25051035599999999 15) (.num 1 0)) (.mul (.rd (.var .T)) (.add (.num 18474008100000001 18) (.mul (.rd (.var .T)) (.add (.neg (.num 41921754666666666 22)) (.mul (.rd (.var .T)) (.add (.num 48657102249999996 26) (.mul (.neg (.num 22533779600000001 30)) (.rd (.var .T))))))))))))),
  .ite (.rd (.var .T)) (.num 1392 0) (.arr .h 40) (.mul (.num 65861340670357365 15) (.add (.neg (.num 15989084699999999 12)) (.mul (.rd (.var .T)) (.add (.sub (.neg (.num 21610826300000001 16)) (.num 1 0)) (.mul (.rd (.var .T)) (.add (.num 53479148499999997 18) (.mul (.rd (.var .T)) (.add (.neg (.num 23699108133333333 21)) (.mul (.rd (.var .T)) (.add (.num 60992769249999999 25) (.mul (.neg (.num 68554309399999999 29)) (.rd (.var .T))))))))))))) (.mul (.num 65861340670357365 15) (.add (.neg (.num 265709061 4)) (.mul (.rd (.var .T)) (.add (.sub (.num 276142176 7) (.num 1 0)) (.mul (.rd (.var .T)) (.add (.num 19841264349999999 18) (.mul (.rd (.var .T)) (.add (.neg (.num 44939815333333332 22)) (.mul (.rd (.var .T)) (.add (.num 52097613000000002 26) (.mul (.neg (.num 24107858799999998 30)) (.rd (.var .T))))))))))))),
  .ite (.rd (.var .T)) (.num 1390 0) (.arr .h 41) (.mul (.num 65339656169366336 15) (.add (.neg (.num 68081851200000001 13)) (.mul (.rd (.var .T)) (.add (.sub (.neg (.num 10438729200000001 16)) (.num 1 0)) (.mul (.rd (.var .T)) (.add (.num 52808641500000003 18) (.mul (.rd (.var .T)) (.add (.neg (.num 22273332366666668 21)) (.mul (.rd (.var .T)) (.add (.num 53621541499999998 25) (.mul (.neg (.num 55480855000000001 29)) (.rd (.var .T))))))))))))) (.mul (.num 65339656169366336 15) (.add (.neg (.num 17451602999999999 12)) (.mul (.rd (.var .T)) (.add (.sub (.num 283097514 7) (.num 1 0)) (.mul (.rd (.var .T)) (.add (.num 20632867199999998 18) (.mul (.rd (.var .T)) (.add (.neg (.num 46794429666666664 22)) (.mul (.rd (.var .T)) (.add (.num 54293717749999998 26) (.mul (.neg (.num 25138461399999997 30)) (.rd (.var .T))))))))))))),
  .ite (.rd (.var .T)) (.num 1392 0) (.arr .h 42) (.mul (.num 59275206603321628 15) (.add (.neg (.num 18870836500000001 12)) (.mul (.rd (.var .T)) (.add (.sub (.neg (.num 24290168799999998 16)) (.num 1 0)) (.mul (.rd (.var .T)) (.add (.num 59652798999999999 18) (.mul (.rd (.var .T)) (.add (.neg (.num 26482967500000001 21)) (.mul (.rd (.var .T)) (.add (.num 68184149000000001 25) (.mul (.neg (.num 76543674599999999 29)) (.rd (.var .T))))))))))))) (.mul (.num 59275206603321628 15) (.add (.neg (.num 306937307 4)) (.mul (.rd (.var .T)) (.add (.sub (.num 30875390299999999 15) (.num 1 0)) (.mul (.rd (.var .T)) (.add (.num 21998576299999999 18) (.mul (.rd (.var .T)) (.add (.neg (.num 49808510000000002 22)) (.mul (.rd (.var .T)) (.add (.num 57729419499999995 26) (.mul (.neg (.num 26710295400000001 30)) (.rd (.var .T))))))))))))),
  .ite (.rd (.var .T)) (.num 1390 0) (.arr .h 43) (.mul (.num 58852307180927312 15) (.add (.neg (.num 96896754999999994 13)) (.mul (.rd (.var .T)) (.add (.sub (.neg (.num 13135834799999999 16)) (.num 1 0)) (.mul (.rd (.var .T)) (.add (.num 58986406499999998 18) (.mul (.rd (.var .T)) (.add (.neg (.num 25061435966666667 21)) (.mul (.rd (.var .T)) (.add (.num 60832776499999998 25) (.mul (.neg (.num 63504570400000002 29)) (.rd (.var .T))))))))))))) (.mul (.num 58852307180927312 15) (.add (.neg (.num 21573783200000002 12)) (.mul (.rd (.var .T)) (.add (.sub (.num 31569716 6) (.num 1 0)) (.mul (.rd (.var .T)) (.add (.num 22790920150000001 18) (.mul (.rd (.var .T)) (.add (.neg (.num 51664988333333336 22)) (.mul (.rd (.var .T)) (.add (.num 59927733249999998 26) (.mul (.neg (.num 277419118 22)) (.rd (.var .T))))))))))))),
  .ite (.rd (.var .T)) (.num 1391 0) (.arr .h 44) (.mul (.num 48811425653540098 15) (.add (.neg (.num 40065425300000003 12)) (.mul (.rd (.var .T)) (.add (.sub (.neg (.num 26218159399999998 16)) (.num 1 0)) (.mul (.rd (.var .T)) (.add (.num 73618855499999997 18) (.mul (.rd (.var .T)) (.add (.neg (.num 31465675699999999 21)) (.mul (.rd (.var .T)) (.add (.num 76860317000000003 25) (.mul (.neg (.num 80720446000000006 29)) (.rd (.var .T))))))))))))) (.mul (.num 48811425653540098 15) (.add (.neg (.num 548843465 4)) (.mul (.rd (.var .T)) (.add (.sub (.num 38509503700000003 15) (.num 1 0)) (.mul (.rd (.var .T)) (.add (.num 28177502399999999 18) (.mul (.rd (.var .T)) (.add (.neg (.num 63831066666666668 22)) (.mul (.rd (.var .T)) (.add (.num 74006215500000001 26) (.mul (.neg (.num 34248830000000002 30)) (.rd (.var .T))))))))))))),
  .ite (.rd (.var .T)) (.num 1390 0) (.arr .h 45) (.mul (.num 49101975722034723 15) (.add (.neg (.num 154530435 4)) (.mul (.rd (.var .T)) (.add (.sub (.neg (.num 185028741 8)) (.num 1 0)) (.mul (.rd (.var .T)) (.add (.num 71335354000000004 18) (.mul (.rd (.var .T)) (.add (.neg (.num 30630551833333332 21)) (.mul (.rd (.var .T)) (.add (.num 75220848 16) (.mul (.neg (.num 79490859999999999 29)) (.rd (.var .T))))))))))))) (.mul (.num 49101975722034723 15) (.add (.neg (.num 298194375 4)) (.mul (.rd (.var .T)) (.add (.sub (.num 38092188499999999 15) (.num 1 0)) (.mul (.rd (.var .T)) (.add (.num 27105392400000001 18) (.mul (.rd (.var .T)) (.add (.neg (.num 61401839000000006 22)) (.mul (.rd (.var .T)) (.add (.num 71190543250000005 26) (.mul (.neg (.num 32946349600000002 30)) (.rd (.var .T))))))))))))),
  .ite (.rd (.var .T)) (.num 1385 0) (.arr .h 46) (.mul (.num 49101975722034723 15) (.add (.neg (.num 16766053899999999 12)) (.mul (.rd (.var .T)) (.add (.sub (.neg (.num 13678708900000001 16)) (.num 1 0)) (.mul (.rd (.var .T)) (.add (.num 68677673999999994 18) (.mul (.rd (.var .T)) (.add (.neg (.num 27469205266666665 21)) (.mul (.rd (.var .T)) (.add (.num 59105390500000003 25) (.mul (.neg (.num 49487186400000001 29)) (.rd (.var .T))))))))))))) (.mul (.num 49101975722034723 15) (.add (.neg (.num 31214498800000001 12)) (.mul (.rd (.var .T)) (.add (.sub (.num 37968826800000002 15) (.num 1 0)) (.mul (.rd (.var .T)) (.add (.num 26935973200000001 18) (.mul (.rd (.var .T)) (.add (.neg (.num 60723754333333335 22)) (.mul (.rd (.var .T)) (.add (.num 70193625749999998 26) (.mul (.neg (.num 32421684000000002 30)) (.rd (.var .T))))))))))))),
  .ite (.rd (.var .T)) (.num 1385 0) (.arr .h 47) (.mul (.num 49101975722034723 15) (.add (.neg (.num 16766053899999999 12)) (.mul (.rd (.var .T)) (.add (.sub (.neg (.num 13678708900000001 16)) (.num 1 0)) (.mul (.rd (.var .T)) (.add (.num 68677673999999994 18) (.mul (.rd (.var .T)) (.add (.neg (.num 27469205266666665 21)) (.mul (.rd (.var .T)) (.add (.num 59105390500000003 25) (.mul (.neg (.num 49487186400000001 29)) (.rd (.var .T))))))))))))) (.mul (.num 49101975722034723 15) (.add (.neg (.num 31214498800000001 12)) (.mul (.rd (.var .T)) (.add (.sub (.num 37968826800000002 15) (.num 1 0)) (.mul (.rd (.var .T)) (.add (.num 26935973200000001 18) (.mul (.rd (.var .T)) (.add (.neg (.num 60723754333333335 22)) (.mul (.rd (.var .T)) (.add (.num 70193625749999998 26) (.mul (.neg (.num 32421684000000002 30)) (.rd (.var .T))))))))))))),
  .ite (.rd (.var .T)) (.num 1391 0) (.arr .h 48) (.mul (.num 4939600550276802 14) (.add (.neg (.num 24634529900000001 12)) (.mul (.rd (.var .T)) (.add (.sub (.neg (.num 29634268100000001 16)) (.num 1 0)) (.mul (.rd (.var .T)) (.add (.num 71996180000000007 18) (.mul (.rd (.var .T)) (.add (.neg (.num 32046133833333336 21)) (.mul (.rd (.var .T)) (.add (.num 82543618250000006 25) (.mul (.neg (.num 92479638000000003 29)) (.rd (.var .T))))))))))))) (.mul (.num 4939600550276802 14) (.add (.neg (.num 389405962 4)) (.mul (.rd (.var .T)) (.add (.sub (.num 374002111 7) (.num 1 0)) (.mul (.rd (.var .T)) (.add (.num 26311537650000001 18) (.mul (.rd (.var .T)) (.add (.neg (.num 59541439666666665 22)) (.mul (.rd (.var .T)) (.add (.num 68987465750000003 26) (.mul (.neg (.num 31912499799999998 30)) (.rd (.var .T))))))))))))),
  .ite (.rd (.var .T)) (.num 1000 0) (.arr .h 49) (.mul (.num 41297824509398289 15) (.add (.neg (.num 29891799999999999 12)) (.mul (.rd (.var .T)) (.add (.sub (.num 53140400000000003 16) (.num 1 0)) (.mul (.rd (.var .T)) (.add (.num 44693650000000001 18) (.mul (.rd (.var .T)) (.add (.num 48450333333333336 22) (.mul (.rd (.var .T)) (.add (.neg (.num 18731250000000001 24)) (.mul (.num 67065000000000002 28) (.rd (.var .T))))))))))))) (.mul (.num 41297824509398289 15) (.add (.neg (.num 37411800000000003 12)) (.mul (.rd (.var .T)) (.add (.sub (.num 28478200000000001 15) (.num 1 0)) (.mul (.rd (.var .T)) (.add (.num 2687695 8) (.mul (.rd (.var .T)) (.add (.neg (.num 56061999999999998 22)) (.mul (.rd (.var .T)) (.add (.num 62841750000000002 26) (.mul (.neg (.num 29441600000000001 30)) (.rd (.var .T))))))))))))),
  .ite (.rd (.var .T)) (.num 1000 0) (.arr .h 50) (.mul (.num 41297824509398289 15) (.add (.neg (.num 23838 0)) (.mul (.rd (.var .T)) (.add (.sub (.num 51523099999999999 16) (.num 1 0)) (.mul (.rd (.var .T)) (.add (.num 4989565 8) (.mul (.rd (.var .T)) (.add (.neg (.num 60211666666666666 22)) (.mul (.rd (.var .T)) (.add (.neg (.num 10460875 15)) (.mul (.num 44557199999999995 28) (.rd (.var .T))))))))))))) (.mul (.num 41297824509398289 15) (.add (.neg (.num 31119200000000001 12)) (.mul (.rd (.var .T)) (.add (.sub (.num 29201899999999998 15) (.num 1 0)) (.mul (.rd (.var .T)) (.add (.num 25795849999999999 18) (.mul (.rd (.var .T)) (.add (.neg (.num 52442333333333331 22)) (.mul (.rd (.var .T)) (.add (.num 57576500000000003 26) (.mul (.neg (.num 26528000000000002 30)) (.rd (.var .T))))))))))))),
  .ite (.rd (.var .T)) (.num 1000 0) (.arr .h 51) (.mul (.num 35634208224384466 15) (.add (.neg (.num 416875 1)) (.mul (.rd (.var .T)) (.add (.sub (.num 48197200000000001 17) (.num 1 0)) (.mul (.rd (.var .T)) (.add (.num 72510000000000005 18) (.mul (.rd (.var .T)) (.add (.neg (.num 33310266666666665 21)) (.mul (.rd (.var .T)) (.add (.num 651055 14) (.mul (.num 23871600000000003 29) (.rd (.var .T))))))))))))) (.mul (.num 35634208224384466 15) (.add (.neg (.num 512675 1)) (.mul (.rd (.var .T)) (.add (.sub (.num 35090699999999998 15) (.num 1 0)) (.mul (.rd (.var .T)) (.add (.num 255295 7) (.mul (.rd (.var .T)) (.add (.neg (.num 51448333333333328 22)) (.mul (.rd (.var .T)) (.add (.num 56156749999999998 26) (.mul (.neg (.num 257802 19)) (.rd (.var .T))))))))))))),
  .ite (.rd (.var .T)) (.num 1000 0) (.arr .h 52) (.mul (.num 38435802925248602 15) (.add (.neg (.num 66536100000000006 12)) (.mul (.rd (.var .T)) (.add (.sub (.num 88073300000000003 16) (.num 1 0)) (.mul (.rd (.var .T)) (.add (.num 32531150000000002 18) (.mul (.rd (.var .T)) (.add (.num 23168599999999997 21) (.mul (.rd (.var .T)) (.add (.neg (.num 31726250000000003 24)) (.mul (.num 10219820000000001 27) (.rd (.var .T))))))))))))) (.mul (.num 38435802925248602 15) (.add (.neg (.num 71825800000000003 12)) (.mul (.rd (.var .T)) (.add (.sub (.num 23673100000000002 15) (.num 1 0)) (.mul (.rd (.var .T)) (.add (.num 30819599999999999 18) (.mul (.rd (.var .T)) (.add (.neg (.num 69945333333333331 22)) (.mul (.rd (.var .T)) (.add (.num 83291500000000001 26) (.mul (.neg (.num 40717999999999996 30)) (.rd (.var .T))))))))))))),
  .ite (.rd (.var .T)) (.num 1000 0) (.arr .h 53) (.mul (.num 29680218594762238 14) (.add (.neg (.num 10208999 4)) (.mul (.rd (.var .T)) (.add (.sub (.num 32986770000000001 16) (.num 1 0)) (.mul (.rd (.var .T)) (.add (.num 70412019999999999 20) (.mul (.rd (.var .T)) (.add (.neg (.num 13210739999999999 22)) (.mul (.rd (.var .T)) (.add (.num 14103787500000001 25) (.mul (.neg (.num 48897079999999994 29)) (.rd (.var .T))))))))))))) (.mul (.num 29680218594762238 14) (.add (.neg (.num 92279769999999996 14)) (.mul (.rd (.var .T)) (.add (.sub (.num 29266399999999999 16) (.num 1 0)) (.mul (.rd (.var .T)) (.add (.num 74398840000000003 20) (.mul (.rd (.var .T)) (.add (.neg (.num 18949200000000001 23)) (.mul (.rd (.var .T)) (.add (.num 25242595 18) (.mul (.neg (.num 13506701999999999 31)) (.rd (.var .T)))))))))))))]

/-- utilities/mechanisms/yao/lib/src/chem_utils.c:864-1190 -/
def evalCv : List CStmt := [
  .ite (.rd (.var .T)) (.num 1000 0) (.arr .cp 0) (.mul (.num 20813212426154001 14) (.add (.sub (.num 25 1) (.num 1 0)) (.mul (.rd (.var .T)) (.add (.num 0 0) (.mul (.rd (.var .T)) (.add (.num 0 0) (.mul (.rd (.var .T)) (.add (.num 0 0) (.mul (.num 0 0) (.rd (.var .T))))))))))) (.mul (.num 20813212426154001 14) (.add (.sub (.num 25 1) (.num 1 0)) (.mul (.rd (.var .T)) (.add (.num 0 0) (.mul (.rd (.var .T)) (.add (.num 0 0) (.mul (.rd (.var .T)) (.add (.num 0 0) (.mul (.num 0 0) (.rd (.var .T))))))))))),
  .ite (.rd (.var .T)) (.num 1000 0) (.arr .cp 1) (.mul (.num 8248965315395757 12) (.add (.sub (.num 25 1) (.num 1 0)) (.mul (.rd (.var .T)) (.add (.num 70533281899999999 29) (.mul (.rd (.var .T)) (.add (.neg (.num 199591964 23)) (.mul (.rd (.var .T)) (.add (.num 23008163199999999 34) (.mul (.neg (.num 92773233200000006 38)) (.rd (.var .T))))))))))) (.mul (.num 8248965315395757 12) (.add (.sub (.num 25000000099999999 16) (.num 1 0)) (.mul (.rd (.var .T)) (.add (.neg (.num 23084297299999999 27)) (.mul (.rd (.var .T)) (.add (.num 16156194800000001 30) (.mul (.rd (.var .T)) (.add (.neg (.num 47351523500000003 34)) (.mul (.num 49819735700000002 38) (.rd (.var .T))))))))))),
  .ite (.rd (.var .T)) (.num 1000 0) (.arr .cp 2) (.mul (.num 51967336900133762 14) (.add (.sub (.num 31682671 7) (.num 1 0)) (.mul (.rd (.var .T)) (.add (.neg (.num 32793188399999999 19)) (.mul (.rd (.var .T)) (.add (.num 66430639599999997 22) (.mul (.rd (.var .T)) (.add (.neg (.num 61280662400000001 25)) (.mul (.num 21126597099999999 28) (.rd (.var .T))))))))))) (.mul (.num 51967336900133762 14) (.add (.sub (.num 25694207800000002 16) (.num 1 0)) (.mul (.rd (.var .T)) (.add (.neg (.num 85974113700000004 21)) (.mul (.rd (.var .T)) (.add (.num 41948458900000002 24) (.mul (.rd (.var .T)) (.add (.neg (.num 10017779899999999 27)) (.mul (.num 12283369099999999 31) (.rd (.var .T))))))))))),
  .ite (.rd (.var .T)) (.num 1000 0) (.arr .cp 3) (.mul (.num 48887492694330808 14) (.add (.sub (.num 41253056099999998 16) (.num 1 0)) (.mul (.rd (.var .T)) (.add (.neg (.num 32254493900000002 19)) (.mul (.rd (.var .T)) (.add (.num 65276469100000001 22) (.mul (.rd (.var .T)) (.add (.neg (.num 57985364300000001 25)) (.mul (.num 20623737899999999 28) (.rd (.var .T))))))))))) (.mul (.num 48887492694330808 14) (.add (.sub (.num 286472886 8) (.num 1 0)) (.mul (.rd (.var .T)) (.add (.num 105650448 11) (.mul (.rd (.var .T)) (.add (.neg (.num 25908275800000001 23)) (.mul (.rd (.var .T)) (.add (.num 305218674 19) (.mul (.neg (.num 13319587600000001 31)) (.rd (.var .T))))))))))),
  .ite (.rd (.var .T)) (.num 1000 0) (.arr .cp 4) (.mul (.num 25190194790518544 14) (.add (.sub (.num 43017980099999997 16) (.num 1 0)) (.mul (.rd (.var .T)) (.add (.neg (.num 47491205099999996 19)) (.mul (.rd (.var .T)) (.add (.num 21158289099999999 21) (.mul (.rd (.var .T)) (.add (.neg (.num 242763894 16)) (.mul (.num 92922512400000003 28) (.rd (.var .T))))))))))) (.mul (.num 25190194790518544 14) (.add (.sub (.num 40172109000000003 16) (.num 1 0)) (.mul (.rd (.var .T)) (.add (.num 22398201299999999 19) (.mul (.rd (.var .T)) (.add (.neg (.num 63365814999999998 23)) (.mul (.rd (.var .T)) (.add (.num 11424637 17) (.mul (.neg (.num 107908535 22)) (.rd (.var .T))))))))))),
  .ite (.rd (.var .T)) (.num 1000 0) (.arr .cp 5) (.mul (.num 41244826576978785 13) (.add (.sub (.num 23443311200000001 16) (.num 1 0)) (.mul (.rd (.var .T)) (.add (.num 79805207499999992 19) (.mul (.rd (.var .T)) (.add (.neg (.num 19478150999999999 21)) (.mul (.rd (.var .T)) (.add (.num 201572094 16) (.mul (.neg (.num 73761176100000006 28)) (.rd (.var .T))))))))))) (.mul (.num 41244826576978785 13) (.add (.sub (.num 33372791999999998 16) (.num 1 0)) (.mul (.rd (.var .T)) (.add (.neg (.num 49402473099999998 21)) (.mul (.rd (.var .T)) (.add (.num 49945677799999996 23) (.mul (.rd (.var .T)) (.add (.neg (.num 17956639400000001 26)) (.mul (.num 200255376 22) (.rd (.var .T))))))))))),
  .ite (.rd (.var .T)) (.num 1000 0) (.arr .cp 6) (.mul (.num 4615227795515807 13) (.add (.sub (.num 41986405600000003 16) (.num 1 0)) (.mul (.rd (.var .T)) (.add (.neg (.num 20364341000000002 19)) (.mul (.rd (.var .T)) (.add (.num 65204021099999997 22) (.mul (.rd (.var .T)) (.add (.neg (.num 54879706200000003 25)) (.mul (.num 177197817 20) (.rd (.var .T))))))))))) (.mul (.num 4615227795515807 13) (.add (.sub (.num 30339924900000002 16) (.num 1 0)) (.mul (.rd (.var .T)) (.add (.num 21769180400000002 19) (.mul (.rd (.var .T)) (.add (.neg (.num 16407251799999999 23)) (.mul (.rd (.var .T)) (.add (.neg (.num 97041986999999998 27)) (.mul (.num 16820099199999999 30) (.rd (.var .T))))))))))),
  .ite (.rd (.var .T)) (.num 1000 0) (.arr .cp 7) (.mul (.num 24443746347165404 14) (.add (.sub (.num 42761126899999997 16) (.num 1 0)) (.mul (.rd (.var .T)) (.add (.neg (.num 54282241699999995 20)) (.mul (.rd (.var .T)) (.add (.num 16733570100000001 21) (.mul (.rd (.var .T)) (.add (.neg (.num 215770813 16)) (.mul (.num 86245436299999998 28) (.rd (.var .T))))))))))) (.mul (.num 24443746347165404 14) (.add (.sub (.num 41650028499999996 16) (.num 1 0)) (.mul (.rd (.var .T)) (.add (.num 490831694 11) (.mul (.rd (.var .T)) (.add (.neg (.num 190139225 14)) (.mul (.rd (.var .T)) (.add (.num 37118598599999998 26) (.mul (.neg (.num 28790830500000002 30)) (.rd (.var .T))))))))))),
  .ite (.rd (.var .T)) (.num 1000 0) (.arr .cp 8) (.mul (.num 25983668450066881 14) (.add (.sub (.num 37824563599999999 16) (.num 1 0)) (.mul (.rd (.var .T)) (.add (.neg (.num 29967341599999998 19)) (.mul (.rd (.var .T)) (.add (.num 984730201 14) (.mul (.rd (.var .T)) (.add (.neg (.num 96812950900000007 25)) (.mul (.num 324372837 20) (.rd (.var .T))))))))))) (.mul (.num 25983668450066881 14) (.add (.sub (.num 32825378399999998 16) (.num 1 0)) (.mul (.rd (.var .T)) (.add (.num 14830875399999999 19) (.mul (.rd (.var .T)) (.add (.neg (.num 75796666899999999 23)) (.mul (.rd (.var .T)) (.add (.num 20947055499999999 26) (.mul (.neg (.num 21671779399999999 30)) (.rd (.var .T))))))))))),
  .ite (.rd (.var .T)) (.num 1000 0) (.arr .cp 9) (.mul (.num 59275206603321635 14) (.add (.sub (.num 37626786700000001 16) (.num 1 0)) (.mul (.rd (.var .T)) (.add (.num 96887214300000004 20) (.mul (.rd (.var .T)) (.add (.num 27948984100000001 22) (.mul (.rd (.var .T)) (.add (.neg (.num 38509115300000003 25)) (.mul (.num 168741719 20) (.rd (.var .T))))))))))) (.mul (.num 59275206603321635 14) (.add (.sub (.num 28741011300000001 16) (.num 1 0)) (.mul (.rd (.var .T)) (.add (.num 36563929199999999 19) (.mul (.rd (.var .T)) (.add (.neg (.num 14089459700000001 22)) (.mul (.rd (.var .T)) (.add (.num 26017954899999999 26) (.mul (.neg (.num 18772756700000001 30)) (.rd (.var .T))))))))))),
  .ite (.rd (.var .T)) (.num 1000 0) (.arr .cp 10) (.mul (.num 59275206603321635 14) (.add (.sub (.num 41986041099999998 16) (.num 1 0)) (.mul (.rd (.var .T)) (.add (.neg (.num 23666141900000001 19)) (.mul (.rd (.var .T)) (.add (.num 82329621999999999 22) (.mul (.rd (.var .T)) (.add (.neg (.num 66881598100000004 25)) (.mul (.num 19431473700000001 28) (.rd (.var .T))))))))))) (.mul (.num 59275206603321635 14) (.add (.sub (.num 22920384199999999 16) (.num 1 0)) (.mul (.rd (.var .T)) (.add (.num 465588637 11) (.mul (.rd (.var .T)) (.add (.neg (.num 20119194699999999 22)) (.mul (.rd (.var .T)) (.add (.num 41790600000000002 26) (.mul (.neg (.num 33971636499999998 30)) (.rd (.var .T))))))))))),
  .ite (.rd (.var .T)) (.num 1000 0) (.arr .cp 11) (.mul (.num 55301374409537334 14) (.add (.sub (.num 36735904000000001 16) (.num 1 0)) (.mul (.rd (.var .T)) (.add (.num 201095175 11) (.mul (.rd (.var .T)) (.add (.num 57302185600000002 22) (.mul (.rd (.var .T)) (.add (.neg (.num 68711742500000001 25)) (.mul (.num 254385734 20) (.rd (.var .T))))))))))) (.mul (.num 55301374409537334 14) (.add (.sub (.num 22857177200000001 16) (.num 1 0)) (.mul (.rd (.var .T)) (.add (.num 72399003699999999 19) (.mul (.rd (.var .T)) (.add (.neg (.num 29871434799999999 22)) (.mul (.rd (.var .T)) (.add (.num 59568464400000002 26) (.mul (.neg (.num 46715439400000003 30)) (.rd (.var .T))))))))))),
  .ite (.rd (.var .T)) (.num 1000 0) (.arr .cp 12) (.mul (.num 5182688078609915 13) (.add (.sub (.num 514987613 8) (.num 1 0)) (.mul (.rd (.var .T)) (.add (.neg (.num 13670978800000001 18)) (.mul (.rd (.var .T)) (.add (.num 49180059899999999 21) (.mul (.rd (.var .T)) (.add (.neg (.num 48474302600000002 24)) (.mul (.num 16669395599999999 27) (.rd (.var .T))))))))))) (.mul (.num 5182688078609915 13) (.add (.sub (.num 74851495000000004 18) (.num 1 0)) (.mul (.rd (.var .T)) (.add (.num 133909467 10) (.mul (.rd (.var .T)) (.add (.neg (.num 573285809 14)) (.mul (.rd (.var .T)) (.add (.num 122292535 17) (.mul (.neg (.num 10181523 20)) (.rd (.var .T))))))))))),
  .ite (.rd (.var .T)) (.num 1000 0) (.arr .cp 13) (.mul (.num 2865243876803429 13) (.add (.sub (.num 42211858400000004 16) (.num 1 0)) (.mul (.rd (.var .T)) (.add (.neg (.num 324392532 11)) (.mul (.rd (.var .T)) (.add (.num 137799446 13) (.mul (.rd (.var .T)) (.add (.neg (.num 13314409300000001 24)) (.mul (.num 43376886499999999 28) (.rd (.var .T))))))))))) (.mul (.num 2865243876803429 13) (.add (.sub (.num 277217438 8) (.num 1 0)) (.mul (.rd (.var .T)) (.add (.num 49569552599999997 19) (.mul (.rd (.var .T)) (.add (.neg (.num 248445613 14)) (.mul (.rd (.var .T)) (.add (.num 58916177800000004 26) (.mul (.neg (.num 53350871099999999 30)) (.rd (.var .T))))))))))),
  .ite (.rd (.var .T)) (.num 1000 0) (.arr .cp 14) (.mul (.num 2769061668644934 13) (.add (.sub (.num 47937231499999999 16) (.num 1 0)) (.mul (.rd (.var .T)) (.add (.neg (.num 99083336899999999 19)) (.mul (.rd (.var .T)) (.add (.num 37322000799999999 21) (.mul (.rd (.var .T)) (.add (.neg (.num 37928526099999998 24)) (.mul (.num 131772652 19) (.rd (.var .T))))))))))) (.mul (.num 2769061668644934 13) (.add (.sub (.num 176069008 8) (.num 1 0)) (.mul (.rd (.var .T)) (.add (.num 920000082 11) (.mul (.rd (.var .T)) (.add (.neg (.num 44225881299999997 22)) (.mul (.rd (.var .T)) (.add (.num 100641212 17) (.mul (.neg (.num 88385564000000006 30)) (.rd (.var .T))))))))))),
  .ite (.rd (.var .T)) (.num 1000 0) (.arr .cp 15) (.mul (.num 26791271377208773 14) (.add (.sub (.num 37118050199999999 16) (.num 1 0)) (.mul (.rd (.var .T)) (.add (.neg (.num 28046330600000001 19)) (.mul (.rd (.var .T)) (.add (.num 37655097100000001 21) (.mul (.rd (.var .T)) (.add (.neg (.num 47307208899999997 24)) (.mul (.num 18658842 18) (.rd (.var .T))))))))))) (.mul (.num 26791271377208773 14) (.add (.sub (.num 47577923799999997 16) (.num 1 0)) (.mul (.rd (.var .T)) (.add (.num 74414247399999999 19) (.mul (.rd (.var .T)) (.add (.neg (.num 26970517599999999 22)) (.mul (.rd (.var .T)) (.add (.num 43809050400000002 26) (.mul (.neg (.num 263537098 22)) (.rd (.var .T))))))))))),
  .ite (.rd (.var .T)) (.num 1000 0) (.arr .cp 16) (.mul (.num 29683482206608977 14) (.add (.sub (.num 35795334699999999 16) (.num 1 0)) (.mul (.rd (.var .T)) (.add (.neg (.num 61035368 11)) (.mul (.rd (.var .T)) (.add (.num 101681433 14) (.mul (.rd (.var .T)) (.add (.num 90700588399999998 26) (.mul (.neg (.num 904424499 21)) (.rd (.var .T))))))))))) (.mul (.num 29683482206608977 14) (.add (.sub (.num 27151856099999998 16) (.num 1 0)) (.mul (.rd (.var .T)) (.add (.num 20625274300000002 19) (.mul (.rd (.var .T)) (.add (.neg (.num 99882577100000007 23)) (.mul (.rd (.var .T)) (.add (.num 230053008 18) (.mul (.neg (.num 203647716 22)) (.rd (.var .T))))))))))),
  .ite (.rd (.var .T)) (.num 1000 0) (.arr .cp 17) (.mul (.num 18892296942953618 14) (.add (.sub (.num 235677352 8) (.num 1 0)) (.mul (.rd (.var .T)) (.add (.num 89845967700000005 19) (.mul (.rd (.var .T)) (.add (.neg (.num 71235626899999998 22)) (.mul (.rd (.var .T)) (.add (.num 24591902199999998 25) (.mul (.neg (.num 14369954799999999 29)) (.rd (.var .T))))))))))) (.mul (.num 18892296942953618 14) (.add (.sub (.num 38574602900000001 16) (.num 1 0)) (.mul (.rd (.var .T)) (.add (.num 44143702599999998 19) (.mul (.rd (.var .T)) (.add (.neg (.num 22148140400000001 22)) (.mul (.rd (.var .T)) (.add (.num 52349018800000005 26) (.mul (.neg (.num 47208416400000003 30)) (.rd (.var .T))))))))))),
  .ite (.rd (.var .T)) (.num 1000 0) (.arr .cp 18) (.mul (.num 31932177658088915 14) (.add (.sub (.num 80868109399999999 17) (.num 1 0)) (.mul (.rd (.var .T)) (.add (.num 23361562900000001 18) (.mul (.rd (.var .T)) (.add (.neg (.num 35517181499999999 21)) (.mul (.rd (.var .T)) (.add (.num 280152437 16) (.mul (.neg (.num 85007297399999996 28)) (.rd (.var .T))))))))))) (.mul (.num 31932177658088915 14) (.add (.sub (.num 41475696400000004 16) (.num 1 0)) (.mul (.rd (.var .T)) (.add (.num 59616666400000001 19) (.mul (.rd (.var .T)) (.add (.neg (.num 237294852 14)) (.mul (.rd (.var .T)) (.add (.num 46741217100000004 26) (.mul (.neg (.num 36123521300000002 30)) (.rd (.var .T))))))))))),
  .ite (.rd (.var .T)) (.num 1000 0) (.arr .cp 19) (.mul (.num 30742133534867867 14) (.add (.sub (.num 321246645 8) (.num 1 0)) (.mul (.rd (.var .T)) (.add (.num 151479162 11) (.mul (.rd (.var .T)) (.add (.num 259209412 13) (.mul (.rd (.var .T)) (.add (.neg (.num 357657847 16)) (.mul (.num 147150873 19) (.rd (.var .T))))))))))) (.mul (.num 30742133534867867 14) (.add (.sub (.num 3016724 6) (.num 1 0)) (.mul (.rd (.var .T)) (.add (.num 10330229200000001 18) (.mul (.rd (.var .T)) (.add (.neg (.num 46808234899999996 22)) (.mul (.rd (.var .T)) (.add (.num 10176328799999999 25) (.mul (.neg (.num 86260704099999999 30)) (.rd (.var .T))))))))))),
  .ite (.rd (.var .T)) (.num 1000 0) (.arr .cp 20) (.mul (.num 29637603301660818 14) (.add (.sub (.num 39592014799999999 16) (.num 1 0)) (.mul (.rd (.var .T)) (.add (.neg (.num 75705224700000004 19)) (.mul (.rd (.var .T)) (.add (.num 57099029199999999 21) (.mul (.rd (.var .T)) (.add (.neg (.num 69158875299999999 24)) (.mul (.num 26988437300000001 27) (.rd (.var .T))))))))))) (.mul (.num 29637603301660818 14) (.add (.sub (.num 20361111599999999 16) (.num 1 0)) (.mul (.rd (.var .T)) (.add (.num 146454151 10) (.mul (.rd (.var .T)) (.add (.neg (.num 67107791500000002 22)) (.mul (.rd (.var .T)) (.add (.num 14722292300000001 25) (.mul (.neg (.num 125706061 21)) (.rd (.var .T))))))))))),
  .ite (.rd (.var .T)) (.num 1000 0) (.arr .cp 21) (.mul (.num 28609689384998131 14) (.add (.sub (.num 43064656799999996 16) (.num 1 0)) (.mul (.rd (.var .T)) (.add (.neg (.num 41865889200000004 19)) (.mul (.rd (.var .T)) (.add (.num 49714280699999999 21) (.mul (.rd (.var .T)) (.add (.neg (.num 59912660599999996 24)) (.mul (.num 230509004 19) (.rd (.var .T))))))))))) (.mul (.num 28609689384998131 14) (.add (.sub (.num 19546564200000001 16) (.num 1 0)) (.mul (.rd (.var .T)) (.add (.num 17397272200000001 18) (.mul (.rd (.var .T)) (.add (.neg (.num 79820666799999996 22)) (.mul (.rd (.var .T)) (.add (.num 175217689 17) (.mul (.neg (.num 149641576 21)) (.rd (.var .T))))))))))),
  .ite (.rd (.var .T)) (.num 1000 0) (.arr .cp 22) (.mul (.num 27650687204768667 14) (.add (.sub (.num 42914249199999999 16) (.num 1 0)) (.mul (.rd (.var .T)) (.add (.neg (.num 55015426999999997 19)) (.mul (.rd (.var .T)) (.add (.num 59943828800000003 21) (.mul (.rd (.var .T)) (.add (.neg (.num 70846628500000001 24)) (.mul (.num 26868577099999999 27) (.rd (.var .T))))))))))) (.mul (.num 27650687204768667 14) (.add (.sub (.num 10718814999999999 16) (.num 1 0)) (.mul (.rd (.var .T)) (.add (.num 216852677 10) (.mul (.rd (.var .T)) (.add (.neg (.num 100256067 13)) (.mul (.rd (.var .T)) (.add (.num 221412001 17) (.mul (.neg (.num 19000289 20)) (.rd (.var .T))))))))))),
  .ite (.rd (.var .T)) (.num 1000 0) (.arr .cp 23) (.mul (.num 19315645500243699 14) (.add (.sub (.num 34090623999999998 16) (.num 1 0)) (.mul (.rd (.var .T)) (.add (.num 10738574000000001 18) (.mul (.rd (.var .T)) (.add (.num 18914924999999999 22) (.mul (.rd (.var .T)) (.add (.neg (.num 71585831000000001 25)) (.mul (.num 28673851 19) (.rd (.var .T))))))))))) (.mul (.num 19315645500243699 14) (.add (.sub (.num 59756698999999998 16) (.num 1 0)) (.mul (.rd (.var .T)) (.add (.num 81305913999999996 19) (.mul (.rd (.var .T)) (.add (.neg (.num 27436244999999998 22)) (.mul (.rd (.var .T)) (.add (.num 40703041000000001 26) (.mul (.neg (.num 21760171000000001 30)) (.rd (.var .T))))))))))),
  .ite (.rd (.var .T)) (.num 1000 0) (.arr .cp 24) (.mul (.num 20243281060168923 14) (.add (.sub (.num 13631835000000001 16) (.num 1 0)) (.mul (.rd (.var .T)) (.add (.num 19813820999999999 18) (.mul (.rd (.var .T)) (.add (.num 1249706 11) (.mul (.rd (.var .T)) (.add (.neg (.num 33355554999999998 24)) (.mul (.num 15846571 18) (.rd (.var .T))))))))))) (.mul (.num 20243281060168923 14) (.add (.sub (.num 65007877000000001 16) (.num 1 0)) (.mul (.rd (.var .T)) (.add (.num 14324731 9) (.mul (.rd (.var .T)) (.add (.neg (.num 56781631999999996 22)) (.mul (.rd (.var .T)) (.add (.num 11080801 16) (.mul (.neg (.num 90363886999999994 30)) (.rd (.var .T))))))))))),
  .ite (.rd (.var .T)) (.num 1000 0) (.arr .cp 25) (.mul (.num 19758402201107208 14) (.add (.sub (.num 14933069999999999 16) (.num 1 0)) (.mul (.rd (.var .T)) (.add (.num 20925180000000002 18) (.mul (.rd (.var .T)) (.add (.num 44867940000000002 22) (.mul (.rd (.var .T)) (.add (.neg (.num 1668912 14)) (.mul (.num 71581460000000003 28) (.rd (.var .T))))))))))) (.mul (.num 19758402201107208 14) (.add (.sub (.num 67322569999999997 16) (.num 1 0)) (.mul (.rd (.var .T)) (.add (.num 14908340000000001 18) (.mul (.rd (.var .T)) (.add (.neg (.num 49498989999999996 22)) (.mul (.rd (.var .T)) (.add (.num 72120220000000003 26) (.mul (.neg (.num 37662039999999999 30)) (.rd (.var .T))))))))))),
  .ite (.rd (.var .T)) (.num 1000 0) (.arr .cp 26) (.mul (.num 19296208183235558 14) (.add (.sub (.num 10491173 7) (.num 1 0)) (.mul (.rd (.var .T)) (.add (.num 26008973000000001 18) (.mul (.rd (.var .T)) (.add (.num 23542515999999998 22) (.mul (.rd (.var .T)) (.add (.neg (.num 19595132 15)) (.mul (.num 93720207000000007 28) (.rd (.var .T))))))))))) (.mul (.num 19296208183235558 14) (.add (.sub (.num 77097479 7) (.num 1 0)) (.mul (.rd (.var .T)) (.add (.num 16031485000000002 18) (.mul (.rd (.var .T)) (.add (.neg (.num 52720237999999996 22)) (.mul (.rd (.var .T)) (.add (.num 75888352000000004 26) (.mul (.neg (.num 38862719000000001 30)) (.rd (.var .T))))))))))),
  .ite (.rd (.var .T)) (.num 1000 0) (.arr .cp 27) (.mul (.num 14830262506385543 14) (.add (.sub (.num 12713498000000001 16) (.num 1 0)) (.mul (.rd (.var .T)) (.add (.num 26231054 9) (.mul (.rd (.var .T)) (.add (.neg (.num 92912305000000002 22)) (.mul (.rd (.var .T)) (.add (.neg (.num 47837271999999999 25)) (.mul (.num 33480543000000001 28) (.rd (.var .T))))))))))) (.mul (.num 14830262506385543 14) (.add (.sub (.num 58111867999999998 16) (.num 1 0)) (.mul (.rd (.var .T)) (.add (.num 17114256000000001 18) (.mul (.rd (.var .T)) (.add (.neg (.num 74834160999999997 22)) (.mul (.rd (.var .T)) (.add (.num 14252249000000001 25) (.mul (.neg (.num 91746840999999995 30)) (.rd (.var .T))))))))))),
  .ite (.rd (.var .T)) (.num 1000 0) (.arr .cp 28) (.mul (.num 15089882899288889 14) (.add (.sub (.num 74449432000000004 17) (.num 1 0)) (.mul (.rd (.var .T)) (.add (.num 39678856999999998 18) (.mul (.rd (.var .T)) (.add (.neg (.num 22898085999999999 21)) (.mul (.rd (.var .T)) (.add (.num 21352972999999998 25) (.mul (.num 23096375 19) (.rd (.var .T))))))))))) (.mul (.num 15089882899288889 14) (.add (.sub (.num 70134835000000004 16) (.num 1 0)) (.mul (.rd (.var .T)) (.add (.num 22634557999999999 18) (.mul (.rd (.var .T)) (.add (.neg (.num 92545469999999995 22)) (.mul (.rd (.var .T)) (.add (.num 16807927 16) (.mul (.neg (.num 10408617 20)) (.rd (.var .T))))))))))),
  .ite (.rd (.var .T)) (.num 1000 0) (.arr .cp 29) (.mul (.num 14818801650830409 14) (.add (.sub (.num 1181138 6) (.num 1 0)) (.mul (.rd (.var .T)) (.add (.num 3085338 8) (.mul (.rd (.var .T)) (.add (.num 50865246999999997 22) (.mul (.rd (.var .T)) (.add (.neg (.num 24654887999999999 24)) (.mul (.num 11110192999999999 27) (.rd (.var .T))))))))))) (.mul (.num 14818801650830409 14) (.add (.sub (.num 20535841000000001 16) (.num 1 0)) (.mul (.rd (.var .T)) (.add (.num 34350507000000002 18) (.mul (.rd (.var .T)) (.add (.neg (.num 15883196999999999 21)) (.mul (.rd (.var .T)) (.add (.num 33089662 16) (.mul (.neg (.num 25361045000000002 29)) (.rd (.var .T))))))))))),
  .ite (.rd (.var .T)) (.num 1000 0) (.arr .cp 30) (.mul (.num 1455728816681158 13) (.add (.sub (.num 12087041999999999 16) (.num 1 0)) (.mul (.rd (.var .T)) (.add (.num 38297497 9) (.mul (.rd (.var .T)) (.add (.neg (.num 72660509 13)) (.mul (.rd (.var .T)) (.add (.neg (.num 15428547 15)) (.mul (.num 86859435000000004 28) (.rd (.var .T))))))))))) (.mul (.num 1455728816681158 13) (.add (.sub (.num 86822394999999997 16) (.num 1 0)) (.mul (.rd (.var .T)) (.add (.num 23691071000000001 18) (.mul (.rd (.var .T)) (.add (.neg (.num 75948864999999996 22)) (.mul (.rd (.var .T)) (.add (.num 66427135999999998 26) (.mul (.num 54845136 21) (.rd (.var .T))))))))))),
  .ite (.rd (.var .T)) (.num 1000 0) (.arr .cp 31) (.mul (.num 12027900893521817 14) (.add (.sub (.neg (.num 24190111000000001 16)) (.num 1 0)) (.mul (.rd (.var .T)) (.add (.num 40430388999999997 18) (.mul (.rd (.var .T)) (.add (.num 67802338999999996 22) (.mul (.rd (.var .T)) (.add (.neg (.num 33724742000000003 24)) (.mul (.num 15116713000000001 27) (.rd (.var .T))))))))))) (.mul (.num 12027900893521817 14) (.add (.sub (.num 10138640000000001 15) (.num 1 0)) (.mul (.rd (.var .T)) (.add (.num 22714137999999998 18) (.mul (.rd (.var .T)) (.add (.neg (.num 77910462999999994 22)) (.mul (.rd (.var .T)) (.add (.num 11876522 16) (.mul (.neg (.num 65932448000000004 30)) (.rd (.var .T))))))))))),
  .ite (.rd (.var .T)) (.num 1392 0) (.arr .cp 32) (.mul (.num 11855041320664326 14) (.add (.sub (.neg (.num 10622348100000001 16)) (.num 1 0)) (.mul (.rd (.var .T)) (.add (.num 57421829399999999 18) (.mul (.rd (.var .T)) (.add (.neg (.num 37448689000000003 21)) (.mul (.rd (.var .T)) (.add (.num 12736498899999999 24) (.mul (.neg (.num 17960978899999999 28)) (.rd (.var .T))))))))))) (.mul (.num 11855041320664326 14) (.add (.sub (.num 145851539 7) (.num 1 0)) (.mul (.rd (.var .T)) (.add (.num 224072471 10) (.mul (.rd (.var .T)) (.add (.neg (.num 763348025 14)) (.mul (.rd (.var .T)) (.add (.num 11818896600000001 25) (.mul (.neg (.num 68438513900000002 30)) (.rd (.var .T))))))))))),
  .ite (.rd (.var .T)) (.num 1390 0) (.arr .cp 33) (.mul (.num 11687079873954106 14) (.add (.sub (.num 524384081 10) (.num 1 0)) (.mul (.rd (.var .T)) (.add (.num 56079695800000003 18) (.mul (.rd (.var .T)) (.add (.neg (.num 33154580300000003 21)) (.mul (.rd (.var .T)) (.add (.num 97753378099999998 25) (.mul (.neg (.num 11400966 19)) (.rd (.var .T))))))))))) (.mul (.num 11687079873954106 14) (.add (.sub (.num 152977446 7) (.num 1 0)) (.mul (.rd (.var .T)) (.add (.num 23973530999999999 18) (.mul (.rd (.var .T)) (.add (.neg (.num 81839294800000007 22)) (.mul (.rd (.var .T)) (.add (.num 12688307599999999 25) (.mul (.neg (.num 73540905499999999 30)) (.rd (.var .T))))))))))),
  .ite (.rd (.var .T)) (.num 1392 0) (.arr .cp 34) (.mul (.num 9879201100553604 14) (.add (.sub (.neg (.num 13527520500000001 16)) (.num 1 0)) (.mul (.rd (.var .T)) (.add (.num 69865542599999997 18) (.mul (.rd (.var .T)) (.add (.neg (.num 45940802200000001 21)) (.mul (.rd (.var .T)) (.add (.num 15696734300000001 24) (.mul (.neg (.num 22129617500000001 28)) (.rd (.var .T))))))))))) (.mul (.num 9879201100553604 14) (.add (.sub (.num 178337529 7) (.num 1 0)) (.mul (.rd (.var .T)) (.add (.num 267377658 10) (.mul (.rd (.var .T)) (.add (.neg (.num 91003677300000006 22)) (.mul (.rd (.var .T)) (.add (.num 140819768 17) (.mul (.neg (.num 81512424400000003 30)) (.rd (.var .T))))))))))),
  .ite (.rd (.var .T)) (.num 1390 0) (.arr .cp 35) (.mul (.num 97622851307080197 15) (.add (.sub (.neg (.num 204871465 9)) (.num 1 0)) (.mul (.rd (.var .T)) (.add (.num 68380127200000002 18) (.mul (.rd (.var .T)) (.add (.neg (.num 41444791199999999 21)) (.mul (.rd (.var .T)) (.add (.num 126155802 16) (.mul (.neg (.num 15312005799999999 28)) (.rd (.var .T))))))))))) (.mul (.num 97622851307080197 15) (.add (.sub (.num 18538547000000001 15) (.num 1 0)) (.mul (.rd (.var .T)) (.add (.num 28310796199999998 18) (.mul (.rd (.var .T)) (.add (.neg (.num 96530724599999996 22)) (.mul (.rd (.var .T)) (.add (.num 149547585 17) (.mul (.neg (.num 866336064 22)) (.rd (.var .T))))))))))),
  .ite (.rd (.var .T)) (.num 1392 0) (.arr .cp 36) (.mul (.num 8467886657617376 14) (.add (.sub (.neg (.num 167720549 8)) (.num 1 0)) (.mul (.rd (.var .T)) (.add (.num 824611601 10) (.mul (.rd (.var .T)) (.add (.neg (.num 54650410800000001 21)) (.mul (.rd (.var .T)) (.add (.num 18786230299999999 24) (.mul (.neg (.num 26573798299999999 28)) (.rd (.var .T))))))))))) (.mul (.num 8467886657617376 14) (.add (.sub (.num 210898039 7) (.num 1 0)) (.mul (.rd (.var .T)) (.add (.num 310607878 10) (.mul (.rd (.var .T)) (.add (.neg (.num 10564479299999999 21)) (.mul (.rd (.var .T)) (.add (.num 16340578 16) (.mul (.neg (.num 945598219 22)) (.rd (.var .T))))))))))),
  .ite (.rd (.var .T)) (.num 1390 0) (.arr .cp 37) (.mul (.num 83818437418406575 15) (.add (.sub (.neg (.num 49957040600000002 17)) (.num 1 0)) (.mul (.rd (.var .T)) (.add (.num 80882646700000005 18) (.mul (.rd (.var .T)) (.add (.neg (.num 50053275400000002 21)) (.mul (.rd (.var .T)) (.add (.num 15654930800000001 24) (.mul (.neg (.num 196616227 20)) (.rd (.var .T))))))))))) (.mul (.num 83818437418406575 15) (.add (.sub (.num 21794070900000001 15) (.num 1 0)) (.mul (.rd (.var .T)) (.add (.num 32628024300000003 18) (.mul (.rd (.var .T)) (.add (.neg (.num 11113824400000001 21)) (.mul (.rd (.var .T)) (.add (.num 172067148 17) (.mul (.neg (.num 99636699899999997 30)) (.rd (.var .T))))))))))),
  .ite (.rd (.var .T)) (.num 1392 0) (.arr .cp 38) (.mul (.num 74094008254152044 15) (.add (.sub (.neg (.num 189226915 8)) (.num 1 0)) (.mul (.rd (.var .T)) (.add (.num 94606635699999997 18) (.mul (.rd (.var .T)) (.add (.neg (.num 62738552100000003 21)) (.mul (.rd (.var .T)) (.add (.num 215158309 16) (.mul (.neg (.num 30271868300000002 28)) (.rd (.var .T))))))))))) (.mul (.num 74094008254152044 15) (.add (.sub (.num 243540125 7) (.num 1 0)) (.mul (.rd (.var .T)) (.add (.num 35366646199999997 18) (.mul (.rd (.var .T)) (.add (.neg (.num 120208388 13)) (.mul (.rd (.var .T)) (.add (.num 185855053 17) (.mul (.neg (.num 107522262 21)) (.rd (.var .T))))))))))),
  .ite (.rd (.var .T)) (.num 1390 0) (.arr .cp 39) (.mul (.num 73434404393878353 15) (.add (.sub (.neg (.num 77275943800000002 17)) (.num 1 0)) (.mul (.rd (.var .T)) (.add (.num 93254970500000006 18) (.mul (.rd (.var .T)) (.add (.neg (.num 58444724499999997 21)) (.mul (.rd (.var .T)) (.add (.num 18557021399999999 24) (.mul (.neg (.num 23712748300000001 28)) (.rd (.var .T))))))))))) (.mul (.num 73434404393878353 15) (.add (.sub (.num 25051035599999999 15) (.num 1 0)) (.mul (.rd (.var .T)) (.add (.num 36948016200000003 18) (.mul (.rd (.var .T)) (.add (.neg (.num 125765264 13)) (.mul (.rd (.var .T)) (.add (.num 19462840899999998 25) (.mul (.neg (.num 112668898 21)) (.rd (.var .T))))))))))),
  .ite (.rd (.var .T)) (.num 1392 0) (.arr .cp 40) (.mul (.num 65861340670357365 15) (.add (.sub (.neg (.num 21610826300000001 16)) (.num 1 0)) (.mul (.rd (.var .T)) (.add (.num 10695829699999999 17) (.mul (.rd (.var .T)) (.add (.neg (.num 710973244 13)) (.mul (.rd (.var .T)) (.add (.num 243971077 16) (.mul (.neg (.num 34277154699999998 28)) (.rd (.var .T))))))))))) (.mul (.num 65861340670357365 15) (.add (.sub (.num 276142176 7) (.num 1 0)) (.mul (.rd (.var .T)) (.add (.num 39682528699999997 18) (.mul (.rd (.var .T)) (.add (.neg (.num 134819446 13)) (.mul (.rd (.var .T)) (.add (.num 20839045200000001 25) (.mul (.neg (.num 120539294 21)) (.rd (.var .T))))))))))),
  .ite (.rd (.var .T)) (.num 1390 0) (.arr .cp 41) (.mul (.num 65339656169366336 15) (.add (.sub (.neg (.num 10438729200000001 16)) (.num 1 0)) (.mul (.rd (.var .T)) (.add (.num 10561728300000001 17) (.mul (.rd (.var .T)) (.add (.neg (.num 66819997100000004 21)) (.mul (.rd (.var .T)) (.add (.num 21448616599999999 24) (.mul (.neg (.num 27740427500000001 28)) (.rd (.var .T))))))))))) (.mul (.num 65339656169366336 15) (.add (.sub (.num 283097514 7) (.num 1 0)) (.mul (.rd (.var .T)) (.add (.num 41265734399999997 18) (.mul (.rd (.var .T)) (.add (.neg (.num 140383289 13)) (.mul (.rd (.var .T)) (.add (.num 21717487099999999 25) (.mul (.neg (.num 12569230699999999 29)) (.rd (.var .T))))))))))),
  .ite (.rd (.var .T)) (.num 1392 0) (.arr .cp 42) (.mul (.num 59275206603321628 15) (.add (.sub (.neg (.num 24290168799999998 16)) (.num 1 0)) (.mul (.rd (.var .T)) (.add (.num 119305598 9) (.mul (.rd (.var .T)) (.add (.neg (.num 79448902500000001 21)) (.mul (.rd (.var .T)) (.add (.num 27273659600000001 24) (.mul (.neg (.num 38271837299999998 28)) (.rd (.var .T))))))))))) (.mul (.num 59275206603321628 15) (.add (.sub (.num 30875390299999999 15) (.num 1 0)) (.mul (.rd (.var .T)) (.add (.num 43997152599999999 18) (.mul (.rd (.var .T)) (.add (.neg (.num 14942553 12)) (.mul (.rd (.var .T)) (.add (.num 23091767799999998 25) (.mul (.neg (.num 133551477 21)) (.rd (.var .T))))))))))),
  .ite (.rd (.var .T)) (.num 1390 0) (.arr .cp 43) (.mul (.num 58852307180927312 15) (.add (.sub (.neg (.num 13135834799999999 16)) (.num 1 0)) (.mul (.rd (.var .T)) (.add (.num 117972813 9) (.mul (.rd (.var .T)) (.add (.neg (.num 75184307900000001 21)) (.mul (.rd (.var .T)) (.add (.num 24333110599999999 24) (.mul (.neg (.num 31752285200000001 28)) (.rd (.var .T))))))))))) (.mul (.num 58852307180927312 15) (.add (.sub (.num 31569716 6) (.num 1 0)) (.mul (.rd (.var .T)) (.add (.num 45581840300000002 18) (.mul (.rd (.var .T)) (.add (.neg (.num 154994965 13)) (.mul (.rd (.var .T)) (.add (.num 23971093299999999 25) (.mul (.neg (.num 13870955900000001 29)) (.rd (.var .T))))))))))),
  .ite (.rd (.var .T)) (.num 1391 0) (.arr .cp 44) (.mul (.num 48811425653540098 15) (.add (.sub (.neg (.num 26218159399999998 16)) (.num 1 0)) (.mul (.rd (.var .T)) (.add (.num 14723771099999999 17) (.mul (.rd (.var .T)) (.add (.neg (.num 94397027100000003 21)) (.mul (.rd (.var .T)) (.add (.num 30744126800000001 24) (.mul (.neg (.num 40360223000000001 28)) (.rd (.var .T))))))))))) (.mul (.num 48811425653540098 15) (.add (.sub (.num 38509503700000003 15) (.num 1 0)) (.mul (.rd (.var .T)) (.add (.num 56355004799999997 18) (.mul (.rd (.var .T)) (.add (.neg (.num 19149320000000001 21)) (.mul (.rd (.var .T)) (.add (.num 296024862 17) (.mul (.neg (.num 17124415000000001 29)) (.rd (.var .T))))))))))),
  .ite (.rd (.var .T)) (.num 1390 0) (.arr .cp 45) (.mul (.num 49101975722034723 15) (.add (.sub (.neg (.num 185028741 8)) (.num 1 0)) (.mul (.rd (.var .T)) (.add (.num 14267070800000001 17) (.mul (.rd (.var .T)) (.add (.neg (.num 91891655500000001 21)) (.mul (.rd (.var .T)) (.add (.num 300883392 16) (.mul (.neg (.num 39745429999999999 28)) (.rd (.var .T))))))))))) (.mul (.num 49101975722034723 15) (.add (.sub (.num 38092188499999999 15) (.num 1 0)) (.mul (.rd (.var .T)) (.add (.num 54210784800000002 18) (.mul (.rd (.var .T)) (.add (.neg (.num 18420551700000002 21)) (.mul (.rd (.var .T)) (.add (.num 28476217300000002 25) (.mul (.neg (.num 16473174800000001 29)) (.rd (.var .T))))))))))),
  .ite (.rd (.var .T)) (.num 1385 0) (.arr .cp 46) (.mul (.num 49101975722034723 15) (.add (.sub (.neg (.num 13678708900000001 16)) (.num 1 0)) (.mul (.rd (.var .T)) (.add (.num 13735534799999999 17) (.mul (.rd (.var .T)) (.add (.neg (.num 82407615799999994 21)) (.mul (.rd (.var .T)) (.add (.num 23642156200000001 24) (.mul (.neg (.num 24743593200000001 28)) (.rd (.var .T))))))))))) (.mul (.num 49101975722034723 15) (.add (.sub (.num 37968826800000002 15) (.num 1 0)) (.mul (.rd (.var .T)) (.add (.num 53871946400000002 18) (.mul (.rd (.var .T)) (.add (.neg (.num 18217126300000001 21)) (.mul (.rd (.var .T)) (.add (.num 28077450299999999 25) (.mul (.neg (.num 16210842000000001 29)) (.rd (.var .T))))))))))),
  .ite (.rd (.var .T)) (.num 1385 0) (.arr .cp 47) (.mul (.num 49101975722034723 15) (.add (.sub (.neg (.num 13678708900000001 16)) (.num 1 0)) (.mul (.rd (.var .T)) (.add (.num 13735534799999999 17) (.mul (.rd (.var .T)) (.add (.neg (.num 82407615799999994 21)) (.mul (.rd (.var .T)) (.add (.num 23642156200000001 24) (.mul (.neg (.num 24743593200000001 28)) (.rd (.var .T))))))))))) (.mul (.num 49101975722034723 15) (.add (.sub (.num 37968826800000002 15) (.num 1 0)) (.mul (.rd (.var .T)) (.add (.num 53871946400000002 18) (.mul (.rd (.var .T)) (.add (.neg (.num 18217126300000001 21)) (.mul (.rd (.var .T)) (.add (.num 28077450299999999 25) (.mul (.neg (.num 16210842000000001 29)) (.rd (.var .T))))))))))),
  .ite (.rd (.var .T)) (.num 1391 0) (.arr .cp 48) (.mul (.num 4939600550276802 14) (.add (.sub (.neg (.num 29634268100000001 16)) (.num 1 0)) (.mul (.rd (.var .T)) (.add (.num 14399236000000001 17) (.mul (.rd (.var .T)) (.add (.neg (.num 96138401500000002 21)) (.mul (.rd (.var .T)) (.add (.num 33017447300000002 24) (.mul (.neg (.num 46239818999999997 28)) (.rd (.var .T))))))))))) (.mul (.num 4939600550276802 14) (.add (.sub (.num 374002111 7) (.num 1 0)) (.mul (.rd (.var .T)) (.add (.num 52623075300000002 18) (.mul (.rd (.var .T)) (.add (.neg (.num 178624319 13)) (.mul (.rd (.var .T)) (.add (.num 27594986300000001 25) (.mul (.neg (.num 15956249899999999 29)) (.rd (.var .T))))))))))),
  .ite (.rd (.var .T)) (.num 1000 0) (.arr .cp 49) (.mul (.num 41297824509398289 15) (.add (.sub (.num 53140400000000003 16) (.num 1 0)) (.mul (.rd (.var .T)) (.add (.num 89387300000000003 18) (.mul (.rd (.var .T)) (.add (.num 14535100000000001 21) (.mul (.rd (.var .T)) (.add (.neg (.num 74925000000000004 24)) (.mul (.num 33532500000000002 27) (.rd (.var .T))))))))))) (.mul (.num 41297824509398289 15) (.add (.sub (.num 28478200000000001 15) (.num 1 0)) (.mul (.rd (.var .T)) (.add (.num 537539 7) (.mul (.rd (.var .T)) (.add (.neg (.num 16818599999999999 21)) (.mul (.rd (.var .T)) (.add (.num 25136700000000001 25) (.mul (.neg (.num 14720799999999999 29)) (.rd (.var .T))))))))))),
  .ite (.rd (.var .T)) (.num 1000 0) (.arr .cp 50) (.mul (.num 41297824509398289 15) (.add (.sub (.num 51523099999999999 16) (.num 1 0)) (.mul (.rd (.var .T)) (.add (.num 99791299999999999 18) (.mul (.rd (.var .T)) (.add (.neg (.num 18063500000000001 21)) (.mul (.rd (.var .T)) (.add (.neg (.num 418435 13)) (.mul (.num 22278599999999999 27) (.rd (.var .T))))))))))) (.mul (.num 41297824509398289 15) (.add (.sub (.num 29201899999999998 15) (.num 1 0)) (.mul (.rd (.var .T)) (.add (.num 51591699999999997 18) (.mul (.rd (.var .T)) (.add (.neg (.num 15732699999999999 21)) (.mul (.rd (.var .T)) (.add (.num 23030600000000001 25) (.mul (.neg (.num 13264 17)) (.rd (.var .T))))))))))),
  .ite (.rd (.var .T)) (.num 1000 0) (.arr .cp 51) (.mul (.num 35634208224384466 15) (.add (.sub (.num 48197200000000001 17) (.num 1 0)) (.mul (.rd (.var .T)) (.add (.num 14502000000000001 17) (.mul (.rd (.var .T)) (.add (.neg (.num 99930800000000002 21)) (.mul (.rd (.var .T)) (.add (.num 260422 13) (.mul (.num 119358 17) (.rd (.var .T))))))))))) (.mul (.num 35634208224384466 15) (.add (.sub (.num 35090699999999998 15) (.num 1 0)) (.mul (.rd (.var .T)) (.add (.num 51059 6) (.mul (.rd (.var .T)) (.add (.neg (.num 15434499999999999 21)) (.mul (.rd (.var .T)) (.add (.num 22462699999999999 25) (.mul (.neg (.num 12890100000000001 29)) (.rd (.var .T))))))))))),
  .ite (.rd (.var .T)) (.num 1000 0) (.arr .cp 52) (.mul (.num 38435802925248602 15) (.add (.sub (.num 88073300000000003 16) (.num 1 0)) (.mul (.rd (.var .T)) (.add (.num 65062300000000003 18) (.mul (.rd (.var .T)) (.add (.num 69505799999999994 21) (.mul (.rd (.var .T)) (.add (.neg (.num 12690500000000001 23)) (.mul (.num 51099100000000001 27) (.rd (.var .T))))))))))) (.mul (.num 38435802925248602 15) (.add (.sub (.num 23673100000000002 15) (.num 1 0)) (.mul (.rd (.var .T)) (.add (.num 61639199999999998 18) (.mul (.rd (.var .T)) (.add (.neg (.num 209836 10)) (.mul (.rd (.var .T)) (.add (.num 33316600000000001 25) (.mul (.neg (.num 20358999999999999 29)) (.rd (.var .T))))))))))),
  .ite (.rd (.var .T)) (.num 1000 0) (.arr .cp 53) (.mul (.num 29680218594762238 14) (.add (.sub (.num 32986770000000001 16) (.num 1 0)) (.mul (.rd (.var .T)) (.add (.num 14082404 10) (.mul (.rd (.var .T)) (.add (.neg (.num 39632219999999998 22)) (.mul (.rd (.var .T)) (.add (.num 56415150000000002 25) (.mul (.neg (.num 24448539999999999 28)) (.rd (.var .T))))))))))) (.mul (.num 29680218594762238 14) (.add (.sub (.num 29266399999999999 16) (.num 1 0)) (.mul (.rd (.var .T)) (.add (.num 14879768000000001 19) (.mul (.rd (.var .T)) (.add (.neg (.num 56847600000000001 23)) (.mul (.rd (.var .T)) (.add (.num 10097038 17) (.mul (.neg (.num 67533509999999998 31)) (.rd (.var .T)))))))))))]

/-- utilities/mechanisms/yao/lib/src/sparse_multiplier.c:3-58 -/
def sparseMultiplier : List CStmt := [
  .set (.arr .dy 0) (.add (.add (.add (.add (.add (.add (.add (.add (.add (.add (.add (.add (.add (.add (.add (.add (.add (.add (.add (.add (.add (.add (.add (.add (.add (.add (.add (.add (.add (.add (.add (.add (.add (.add (.add (.add (.add (.add (.add (.add (.add (.add (.add (.add (.add (.add (.add (.add (.add (.add (.add (.add (.add (.mul (.rd (.arr .jac 0)) (.rd (.arr .y 0))) (.mul (.rd (.arr .jac 54)) (.rd (.arr .y 1)))) (.mul (.rd (.arr .jac 108)) (.rd (.arr .y 2)))) (.mul (.rd (.arr .jac 162)) (.rd (.arr .y 3)))) (.mul (.rd (.arr .jac 216)) (.rd (.arr .y 4)))) (.mul (.rd (.arr .jac 270)) (.rd (.arr .y 5)))) (.mul (.rd (.arr .jac 324)) (.rd (.arr .y 6)))) (.mul (.rd (.arr .jac 378)) (.rd (.arr .y 7)))) (.mul (.rd (.arr .jac 432)) (.rd (.arr .y 8)))) (.mul (.rd (.arr .jac 486)) (.rd (.arr .y 9)))) (.mul (.rd (.arr .jac 540)) (.rd (.arr .y 10)))) (.mul (.rd (.arr .jac 594)) (.rd (.arr .y 11)))) (.mul (.rd (.arr .jac 648)) (.rd (.arr .y 12)))) (.mul (.rd (.arr .jac 702)) (.rd (.arr .y 13)))) (.mul (.rd (.arr .jac 756)) (.rd (.arr .y 14)))) (.mul (.rd (.arr .jac 810)) (.rd (.arr .y 15)))) (.mul (.rd (.arr .jac 864)) (.rd (.arr .y 16)))) (.mul (.rd (.arr .jac 918)) (.rd (.arr .y 17)))) (.mul (.rd (.arr .jac 972)) (.rd (.arr .y 18)))) (.mul (.rd (.arr .jac 1026)) (.rd (.arr .y 19)))) (.mul (.rd (.arr .jac 1080)) (.rd (.arr .y 20)))) (.mul (.rd (.arr .jac 1134)) (.rd (.arr .y 21)))) (.mul (.rd (.arr .jac 1188)) (.rd (.arr .y 22)))) (.mul (.rd (.arr .jac 1242)) (.rd (.arr .y 23)))) (.mul (.rd (.arr .jac 1296)) (.rd (.arr .y 24)))) (.mul (.rd (.arr .jac 1350)) (.rd (.arr .y 25)))) (.mul (.rd (.arr .jac 1404)) (.rd (.arr .y 26)))) (.mul (.rd (.arr .jac 1458)) (.rd (.arr .y 27)))) (.mul (.rd (.arr .jac 1512)) (.rd (.arr .y 28)))) (.mul (.rd (.arr .jac 1566)) (.rd (.arr .y 29)))) (.mul (.rd (.arr .jac 1620)) (.rd (.arr .y 30)))) (.mul (.rd (.arr .jac 1674)) (.rd (.arr .y 31)))) (.mul (.rd (.arr .jac 1728)) (.rd (.arr .y 32)))) (.mul (.rd (.arr .jac 1782)) (.rd (.arr .y 33)))) (.mul (.rd (.arr .jac 1836)) (.rd (.arr .y 34)))) (.mul (.rd (.arr .jac 1890)) (.rd (.arr .y 35)))) (.mul (.rd (.arr .jac 1944)) (.rd (.arr .y 36)))) (.mul (.rd (.arr .jac 1998)) (.rd (.arr .y 37)))) (.mul (.rd (.arr .jac 2052)) (.rd (.arr .y 38)))) (.mul (.rd (.arr .jac 2106)) (.rd (.arr .y 39)))) (.mul (.rd (.arr .jac 2160)) (.rd (.arr .y 40)))) (.mul (.rd (.arr .jac 2214)) (.rd (.arr .y 41)))) (.mul (.rd (.arr .jac 2268)) (.rd (.arr .y 42)))) (.mul (.rd (.arr .jac 2322)) (.rd (.arr .y 43)))) (.mul (.rd (.arr .jac 2376)) (.rd (.arr .y 44)))) (.mul (.rd (.arr .jac 2430)) (.rd (.arr .y 45)))) (.mul (.rd (.arr .jac 2484)) (.rd (.arr .y 46)))) (.mul (.rd (.arr .jac 2538)) (.rd (.arr .y 47)))) (.mul (.rd (.arr .jac 2592)) (.rd (.arr .y 48)))) (.mul (.rd (.arr .jac 2646)) (.rd (.arr .y 49)))) (.mul (.rd (.arr .jac 2700)) (.rd (.arr .y 50)))) (.mul (.rd (.arr .jac 2754)) (.rd (.arr .y 51)))) (.mul (.rd (.arr .jac 2808)) (.rd (.arr .y 52)))) (.mul (.rd (.arr .jac 2862)) (.rd (.arr .y 53)))),
  .set (.arr .dy 1) (.add (.add (.add (.add (.add (.add (.add (.add (.add (.add (.add (.add (.add (.add (.add (.add (.add (.add (.add (.add (.add (.add (.add (.add (.add (.add (.add (.add (.add (.add (.add (.add (.add (.add (.add (.add (.add (.add (.add (.add (.add (.add (.add (.add (.add (.add (.add (.add (.add (.add (.add (.add (.add (.mul (.rd (.arr .jac 1)) (.rd (.arr .y 0))) (.mul (.rd (.arr .jac 55)) (.rd (.arr .y 1)))) (.mul (.rd (.arr .jac 109)) (.rd (.arr .y 2)))) (.mul (.rd (.arr .jac 163)) (.rd (.arr .y 3)))) (.mul (.rd (.arr .jac 217)) (.rd (.arr .y 4)))) (.mul (.rd (.arr .jac 271)) (.rd (.arr .y 5)))) (.mul (.rd (.arr .jac 325)) (.rd (.arr .y 6)))) (.mul (.rd (.arr .jac 379)) (.rd (.arr .y 7)))) (.mul (.rd (.arr .jac 433)) (.rd (.arr .y 8)))) (.mul (.rd (.arr .jac 487)) (.rd (.arr .y 9)))) (.mul (.rd (.arr .jac 541)) (.rd (.arr .y 10)))) (.mul (.rd (.arr .jac 595)) (.rd (.arr .y 11)))) (.mul (.rd (.arr .jac 649)) (.rd (.arr .y 12)))) (.mul (.rd (.arr .jac 703)) (.rd (.arr .y 13)))) (.mul (.rd (.arr .jac 757)) (.rd (.arr .y 14)))) (.mul (.rd (.arr .jac 811)) (.rd (.arr .y 15)))) (.mul (.rd (.arr .jac 865)) (.rd (.arr .y 16)))) (.mul (.rd (.arr .jac 919)) (.rd (.arr .y 17)))) (.mul (.rd (.arr .jac 973)) (.rd (.arr .y 18)))) (.mul (.rd (.arr .jac 1027)) (.rd (.arr .y 19)))) (.mul (.rd (.arr .jac 1081)) (.rd (.arr .y 20)))) (.mul (.rd (.arr .jac 1135)) (.rd (.arr .y 21)))) (.mul (.rd (.arr .jac 1189)) (.rd (.arr .y 22)))) (.mul (.rd (.arr .jac 1243)) (.rd (.arr .y 23)))) (.mul (.rd (.arr .jac 1297)) (.rd (.arr .y 24)))) (.mul (.rd (.arr .jac 1351)) (.rd (.arr .y 25)))) (.mul (.rd (.arr .jac 1405)) (.rd (.arr .y 26)))) (.mul (.rd (.arr .jac 1459)) (.rd (.arr .y 27)))) (.mul (.rd (.arr .jac 1513)) (.rd (.arr .y 28)))) (.mul (.rd (.arr .jac 1567)) (.rd (.arr .y 29)))) (.mul (.rd (.arr .jac 1621)) (.rd (.arr .y 30)))) (.mul (.rd (.arr .jac 1675)) (.rd (.arr .y 31)))) (.mul (.rd (.arr .jac 1729)) (.rd (.arr .y 32)))) (.mul (.rd (.arr .jac 1783)) (.rd (.arr .y 33)))) (.mul (.rd (.arr .jac 1837)) (.rd (.arr .y 34)))) (.mul (.rd (.arr .jac 1891)) (.rd (.arr .y 35)))) (.mul (.rd (.arr .jac 1945)) (.rd (.arr .y 36)))) (.mul (.rd (.arr .jac 1999)) (.rd (.arr .y 37)))) (.mul (.rd (.arr .jac 2053)) (.rd (.arr .y 38)))) (.mul (.rd (.arr .jac 2107)) (.rd (.arr .y 39)))) (.mul (.rd (.arr .jac 2161)) (.rd (.arr .y 40)))) (.mul (.rd (.arr .jac 2215)) (.rd (.arr .y 41)))) (.mul (.rd (.arr .jac 2269)) (.rd (.arr .y 42)))) (.mul (.rd (.arr .jac 2323)) (.rd (.arr .y 43)))) (.mul (.rd (.arr .jac 2377)) (.rd (.arr .y 44)))) (.mul (.rd (.arr .jac 2431)) (.rd (.arr .y 45)))) (.mul (.rd (.arr .jac 2485)) (.rd (.arr .y 46)))) (.mul (.rd (.arr .jac 2539)) (.rd (.arr .y 47)))) (.mul (.rd (.arr .jac 2593)) (.rd (.arr .y 48)))) (.mul (.rd (.arr .jac 2647)) (.rd (.arr .y 49)))) (.mul (.rd (.arr .jac 2701)) (.rd (.arr .y 50)))) (.mul (.rd (.arr .jac 2755)) (.rd (.arr .y 51)))) (.mul (.rd (.arr .jac 2809)) (.rd (.arr .y 52)))) (.mul (.rd (.arr .jac 2863)) (.rd (.arr .y 53)))),
  .set (.arr .dy 2) (.add (.add (.add (.add (.add (.add (.add (.add (.add (.add (.add (.add (.add (.add (.add (.add (.add (.add (.add (.add (.add (.add (.add (.add (.add (.add (.add (.add (.add (.add (.add (.add (.add (.add (.add (.add (.add (.add (.add (.add (.add (.add (.add (.add (.add (.add (.add (.add (.add (.add (.add (.add (.add (.mul (.rd (.arr .jac 2)) (.rd (.arr .y 0))) (.mul (.rd (.arr .jac 56)) (.rd (.arr .y 1)))) (.mul (.rd (.arr .jac 110)) (.rd (.arr .y 2)))) (.mul (.rd (.arr .jac 164)) (.rd (.arr .y 3)))) (.mul (.rd (.arr .jac 218)) (.rd (.arr .y 4)))) (.mul (.rd (.arr .jac 272)) (.rd (.arr .y 5)))) (.mul (.rd (.arr .jac 326)) (.rd (.arr .y 6)))) (.mul (.rd (.arr .jac 380)) (.rd (.arr .y 7)))) (.mul (.rd (.arr .jac 434)) (.rd (.arr .y 8)))) (.mul (.rd (.arr .jac 488)) (.rd (.arr .y 9)))) (.mul (.rd (.arr .jac 542)) (.rd (.arr .y 10)))) (.mul (.rd (.arr .jac 596)) (.rd (.arr .y 11)))) (.mul (.rd (.arr .jac 650)) (.rd (.arr .y 12)))) (.mul (.rd (.arr .jac 704)) (.rd (.arr .y 13)))) (.mul (.rd (.arr .jac 758)) (.rd (.arr .y 14)))) (.mul (.rd (.arr .jac 812)) (.rd (.arr .y 15)))) (.mul (.rd (.arr .jac 866)) (.rd (.arr .y 16)))) (.mul (.rd (.arr .jac 920)) (.rd (.arr .y 17)))) (.mul (.rd (.arr .jac 974)) (.rd (.arr .y 18)))) (.mul (.rd (.arr .jac 1028)) (.rd (.arr .y 19)))) (.mul (.rd (.arr .jac 1082)) (.rd (.arr .y 20)))) (.mul (.rd (.arr .jac 1136)) (.rd (.arr .y 21)))) (.mul (.rd (.arr .jac 1190)) (.rd (.arr .y 22)))) (.mul (.rd (.arr .jac 1244)) (.rd (.arr .y 23)))) (.mul (.rd (.arr .jac 1298)) (.rd (.arr .y 24)))) (.mul (.rd (.arr .jac 1352)) (.rd (.arr .y 25)))) (.mul (.rd (.arr .jac 1406)) (.rd (.arr .y 26)))) (.mul (.rd (.arr .jac 1460)) (.rd (.arr .y 27)))) (.mul (.rd (.arr .jac 1514)) (.rd (.arr .y 28)))) (.mul (.rd (.arr .jac 1568)) (.rd (.arr .y 29)))) (.mul (.rd (.arr .jac 1622)) (.rd (.arr .y 30)))) (.mul (.rd (.arr .jac 1676)) (.rd (.arr .y 31)))) (.mul (.rd (.arr .jac 1730)) (.rd (.arr .y 32)))) (.mul (.rd (.arr .jac 1784)) (.rd (.arr .y 33)))) (.mul (.rd (.arr .jac 1838)) (.rd (.arr .y 34)))) (.mul (.rd (.arr .jac 1892)) (.rd (.arr .y 35)))) (.mul (.rd (.arr .jac 1946)) (.rd (.arr .y 36)))) (.mul (.rd (.arr .jac 2000)) (.rd (.arr .y 37)))) (.mul (.rd (.arr .jac 2054)) (.rd (.arr .y 38)))) (.mul (.rd (.arr .jac 2108)) (.rd (.arr .y 39)))) (.mul (.rd (.arr .jac 2162)) (.rd (.arr .y 40)))) (.mul (.rd (.arr .jac 2216)) (.rd (.arr .y 41)))) (.mul (.rd (.arr .jac 2270)) (.rd (.arr .y 42)))) (.mul (.rd (.arr .jac 2324)) (.rd (.arr .y 43)))) (.mul (.rd (.arr .jac 2378)) (.rd (.arr .y 44)))) (.mul (.rd (.arr .jac 2432)) (.rd (.arr .y 45)))) (.mul (.rd (.arr .jac 2486)) (.rd (.arr .y 46)))) (.mul (.rd (.arr .jac 2540)) (.rd (.arr .y 47)))) (.mul (.rd (.arr .jac 2594)) (.rd (.arr .y 48)))) (.mul (.rd (.arr .jac 2648)) (.rd (.arr .y 49)))) (.mul (.rd (.arr .jac 2702)) (.rd (.arr .y 50)))) (.mul (.rd (.arr .jac 2756)) (.rd (.arr .y 51)))) (.mul (.rd (.arr .jac 2810)) (.rd (.arr .y 52)))) (.mul (.rd (.arr .jac 2864)) (.rd (.arr .y 53)))),
  .set (.arr .dy 3) (.add (.add (.add (.add (.add (.add (.add (.add (.add (.add (.add (.add (.add (.add (.add (.add (.add (.add (.add (.add (.add (.add (.add (.add (.add (.add (.add (.add (.add (.add (.add (.add (.add (.add (.add (.add (.add (.add (.add (.add (.add (.add (.add (.add (.add (.add (.add (.add (.add (.add (.add (.add (.add (.mul (.rd (.arr .jac 3)) (.rd (.arr .y 0))) (.mul (.rd (.arr .jac 57)) (.rd (.arr .y 1)))) (.mul (.rd (.arr .jac 111)) (.rd (.arr .y 2)))) (.mul (.rd (.arr .jac 165)) (.rd (.arr .y 3)))) (.mul (.rd (.arr .jac 219)) (.rd (.arr .y 4)))) (.mul (.rd (.arr .jac 273)) (.rd (.arr .y 5)))) (.mul (.rd (.arr .jac 327)) (.rd (.arr .y 6)))) (.mul (.rd (.arr .jac 381)) (.rd (.arr .y 7)))) (.mul (.rd (.arr .jac 435)) (.rd (.arr .y 8)))) (.mul (.rd (.arr .jac 489)) (.rd (.arr .y 9)))) (.mul (.rd (.arr .jac 543)) (.rd (.arr .y 10)))) (.mul (.rd (.arr .jac 597)) (.rd (.arr .y 11)))) (.mul (.rd (.arr .jac 651)) (.rd (.arr .y 12)))) (.mul (.rd (.arr .jac 705)) (.rd (.arr .y 13)))) (.mul (.rd (.arr .jac 759)) (.rd (.arr .y 14)))) (.mul (.rd (.arr .jac 813)) (.rd (.arr .y 15)))) (.mul (.rd (.arr .jac 867)) (.rd (.arr .y 16)))) (.mul (.rd (.arr .jac 921)) (.rd (.arr .y 17)))) (.mul (.rd (.arr .jac 975)) (.rd (.arr .y 18)))) (.mul (.rd (.arr .jac 1029)) (.rd (.arr .y 19)))) (.mul (.rd (.arr .jac 1083)) (.rd (.arr .y 20)))) (.mul (.rd (.arr .jac 1137)) (.rd (.arr .y 21)))) (.mul (.rd (.arr .jac 1191)) (.rd (.arr .y 22)))) (.mul (.rd (.arr .jac 1245)) (.rd (.arr .y 23)))) (.mul (.rd (.arr .jac 1299)) (.rd (.arr .y 24)))) (.mul (.rd (.arr .jac 1353)) (.rd (.arr .y 25)))) (.mul (.rd (.arr .jac 1407)) (.rd (.arr .y 26)))) (.mul (.rd (.arr .jac 1461)) (.rd (.arr .y 27)))) (.mul (.rd (.arr .jac 1515)) (.rd (.arr .y 28)))) (.mul (.rd (.arr .jac 1569)) (.rd (.arr .y 29)))) (.mul (.rd (.arr .jac 1623)) (.rd (.arr .y 30)))) (.mul (.rd (.arr .jac 1677)) (.rd (.arr .y 31)))) (.mul (.rd (.arr .jac 1731)) (.rd (.arr .y 32)))) (.mul (.rd (.arr .jac 1785)) (.rd (.arr .y 33)))) (.mul (.rd (.arr .jac 1839)) (.rd (.arr .y 34)))) (.mul (.rd (.arr .jac 1893)) (.rd (.arr .y 35)))) (.mul (.rd (.arr .jac 1947)) (.rd (.arr .y 36)))) (.mul (.rd (.arr .jac 2001)) (.rd (.arr .y 37)))) (.mul (.rd (.arr .jac 2055)) (.rd (.arr .y 38)))) (.mul (.rd (.arr .jac 2109)) (.rd (.arr .y 39)))) (.mul (.rd (.arr .jac 2163)) (.rd (.arr .y 40)))) (.mul (.rd (.arr .jac 2217)) (.rd (.arr .y 41)))) (.mul (.rd (.arr .jac 2271)) (.rd (.arr .y 42)))) (.mul (.rd (.arr .jac 2325)) (.rd (.arr .y 43)))) (.mul (.rd (.arr .jac 2379)) (.rd (.arr .y 44)))) (.mul (.rd (.arr .jac 2433)) (.rd (.arr .y 45)))) (.mul (.rd (.arr .jac 2487)) (.rd (.arr .y 46)))) (.mul (.rd (.arr .jac 2541)) (.rd (.arr .y 47)))) (.mul (.rd (.arr .jac 2595)) (.rd (.arr .y 48)))) (.mul (.rd (.arr .jac 2649)) (.rd (.arr .y 49)))) (.mul (.rd (.arr .jac 2703)) (.rd (.arr .y 50)))) (.mul (.rd (.arr .jac 2757)) (.rd (.arr .y 51)))) (.mul (.rd (.arr .jac 2811)) (.rd (.arr .y 52)))) (.mul (.rd (.arr .jac 2865)) (.rd (.arr .y 53)))),
  .set (.arr .dy 4) (.add (.add (.add (.add (.add (.add (.add (.add (.add (.add (.add (.add (.add (.add (.add (.add (.add (.add (.add (.add (.add (.add (.add (.add (.add (.add (.add (.add (.add (.add (.add (.add (.add (.add (.add (.add (.add (.add (.add (.add (.add (.add (.add (.add (.add (.add (.add (.add (.add (.add (.add (.add (.add (.mul (.rd (.arr .jac 4)) (.rd (.arr .y 0))) (.mul (.rd (.arr .jac 58)) (.rd (.arr .y 1)))) (.mul (.rd (.arr .jac 112)) (.rd (.arr .y 2)))) (.mul (.rd (.arr .jac 166)) (.rd (.arr .y 3)))) (.mul (.rd (.arr .jac 220)) (.rd (.arr .y 4)))) (.mul (.rd (.arr .jac 274)) (.rd (.arr .y 5)))) (.mul (.rd (.arr .jac 328)) (.rd (.arr .y 6)))) (.mul (.rd (.arr .jac 382)) (.rd (.arr .y 7)))) (.mul (.rd (.arr .jac 436)) (.rd (.arr .y 8)))) (.mul (.rd (.arr .jac 490)) (.rd (.arr .y 9)))) (.mul (.rd (.arr .jac 544)) (.rd (.arr .y 10)))) (.mul (.rd (.arr .jac 598)) (.rd (.arr .y 11)))) (.mul (.rd (.arr .jac 652)) (.rd (.arr .y 12)))) (.mul (.rd (.arr .jac 706)) (.rd (.arr .y 13)))) (.mul (.rd (.arr .jac 760)) (.rd (.arr .y 14)))) (.mul (.rd (.arr .jac 814)) (.rd (.arr .y 15)))) (.mul (.rd (.arr .jac 868)) (.rd (.arr .y 16)))) (.mul (.rd (.arr .jac 922)) (.rd (.arr .y 17)))) (.mul (.rd (.arr .jac 976)) (.rd (.arr .y 18)))) (.mul (.rd (.arr .jac 1030)) (.rd (.arr .y 19)))) (.mul (.rd (.arr .jac 1084)) (.rd (.arr .y 20)))) (.mul (.rd (.arr .jac 1138)) (.rd (.arr .y 21)))) (.mul (.rd (.arr .jac 1192)) (.rd (.arr .y 22)))) (.mul (.rd (.arr .jac 1246)) (.rd (.arr .y 23)))) (.mul (.rd (.arr .jac 1300)) (.rd (.arr .y 24)))) (.mul (.rd (.arr .jac 1354)) (.rd (.arr .y 25)))) (.mul (.rd (.arr .jac 1408)) (.rd (.arr .y 26)))) (.mul (.rd (.arr .jac 1462)) (.rd (.arr .y 27)))) (.mul (.rd (.arr .jac 1516)) (.rd (.arr .y 28)))) (.mul (.rd (.arr .jac 1570)) (.rd (.arr .y 29)))) (.mul (.rd (.arr .jac 1624)) (.rd (.arr .y 30)))) (.mul (.rd (.arr .jac 1678)) (.rd (.arr .y 31)))) (.mul (.rd (.arr .jac 1732)) (.rd (.arr .y 32)))) (.mul (.rd (.arr .jac 1786)) (.rd (.arr .y 33)))) (.mul (.rd (.arr .jac 1840)) (.rd (.arr .y 34)))) (.mul (.rd (.arr .jac 1894)) (.rd (.arr .y 35)))) (.mul (.rd (.arr .jac 1948)) (.rd (.arr .y 36)))) (.mul (.rd (.arr .jac 2002)) (.rd (.arr .y 37)))) (.mul (.rd (.arr .jac 2056)) (.rd (.arr .y 38)))) (.mul (.rd (.arr .jac 2110)) (.rd (.arr .y 39)))) (.mul (.rd (.arr .jac 2164)) (.rd (.arr .y 40)))) (.mul (.rd (.arr .jac 2218)) (.rd (.arr .y 41)))) (.mul (.rd (.arr .jac 2272)) (.rd (.arr .y 42)))) (.mul (.rd (.arr .jac 2326)) (.rd (.arr .y 43)))) (.mul (.rd (.arr .jac 2380)) (.rd (.arr .y 44)))) (.mul (.rd (.arr .jac 2434)) (.rd (.arr .y 45)))) (.mul (.rd (.arr .jac 2488)) (.rd (.arr .y 46)))) (.mul (.rd (.arr .jac 2542)) (.rd (.arr .y 47)))) (.mul (.rd (.arr .jac 2596)) (.rd (.arr .y 48)))) (.mul (.rd (.arr .jac 2650)) (.rd (.arr .y 49)))) (.mul (.rd (.arr .jac 2704)) (.rd (.arr .y 50)))) (.mul (.rd (.arr .jac 2758)) (.rd (.arr .y 51)))) (.mul (.rd (.arr .jac 2812)) (.rd (.arr .y 52)))) (.mul (.rd (.arr .jac 2866)) (.rd (.arr .y 53)))),
  .set (.arr .dy 5) (.add (.add (.add (.add (.add (.add (.add (.add (.add (.add (.add (.add (.add (.add (.add (.add (.add (.add (.add (.add (.add (.add (.add (.add (.add (.add (.add (.add (.add (.add (.add (.add (.add (.add (.add (.add (.add (.add (.add (.add (.add (.add (.add (.add (.add (.add (.add (.add (.add (.add (.add (.add (.add (.mul (.rd (.arr .jac 5)) (.rd (.arr .y 0))) (.mul (.rd (.arr .jac 59)) (.rd (.arr .y 1)))) (.mul (.rd (.arr .jac 113)) (.rd (.arr .y 2)))) (.mul (.rd (.arr .jac 167)) (.rd (.arr .y 3)))) (.mul (.rd (.arr .jac 221)) (.rd (.arr .y 4)))) (.mul (.rd (.arr .jac 275)) (.rd (.arr .y 5)))) (.mul (.rd (.arr .jac 329)) (.rd (.arr .y 6)))) (.mul (.rd (.arr .jac 383)) (.rd (.arr .y 7)))) (.mul (.rd (.arr .jac 437)) (.rd (.arr .y 8)))) (.mul (.rd (.arr .jac 491)) (.rd (.arr .y 9)))) (.mul (.rd (.arr .jac 545)) (.rd (.arr .y 10)))) (.mul (.rd (.arr .jac 599)) (.rd (.arr .y 11)))) (.mul (.rd (.arr .jac 653)) (.rd (.arr .y 12)))) (.mul (.rd (.arr .jac 707)) (.rd (.arr .y 13)))) (.mul (.rd (.arr .jac 761)) (.rd (.arr .y 14)))) (.mul (.rd (.arr .jac 815)) (.rd (.arr .y 15)))) (.mul (.rd (.arr .jac 869)) (.rd (.arr .y 16)))) (.mul (.rd (.arr .jac 923)) (.rd (.arr .y 17)))) (.mul (.rd (.arr .jac 977)) (.rd (.arr .y 18)))) (.mul (.rd (.arr .jac 1031)) (.rd (.arr .y 19)))) (.mul (.rd (.arr .jac 1085)) (.rd (.arr .y 20)))) (.mul (.rd (.arr .jac 1139)) (.rd (.arr .y 21)))) (.mul (.rd (.arr .jac 1193)) (.rd (.arr .y 22)))) (.mul (.rd (.arr .jac 1247)) (.rd (.arr .y 23)))) (.mul (.rd (.arr .jac 1301)) (.rd (.arr .y 24)))) (.mul (.rd (.arr .jac 1355)) (.rd (.arr .y 25)))) (.mul (.rd (.arr .jac 1409)) (.rd (.arr .y 26)))) (.mul (.rd (.arr .jac 1463)) (.rd (.arr .y 27)))) (.mul (.rd (.arr .jac 1517)) (.rd (.arr .y 28)))) (.mul (.rd (.arr .jac 1571)) (.rd (.arr .y 29)))) (.mul (.rd (.arr .jac 1625)) (.rd (.arr .y 30)))) (.mul (.rd (.arr .jac 1679)) (.rd (.arr .y 31)))) (.mul (.rd (.arr .jac 1733)) (.rd (.arr .y 32)))) (.mul (.rd (.arr .jac 1787)) (.rd (.arr .y 33)))) (.mul (.rd (.arr .jac 1841)) (.rd (.arr .y 34)))) (.mul (.rd (.arr .jac 1895)) (.rd (.arr .y 35)))) (.mul (.rd (.arr .jac 1949)) (.rd (.arr .y 36)))) (.mul (.rd (.arr .jac 2003)) (.rd (.arr .y 37)))) (.mul (.rd (.arr .jac 2057)) (.rd (.arr .y 38)))) (.mul (.rd (.arr .jac 2111)) (.rd (.arr .y 39)))) (.mul (.rd (.arr .jac 2165)) (.rd (.arr .y 40)))) (.mul (.rd (.arr .jac 2219)) (.rd (.arr .y 41)))) (.mul (.rd (.arr .jac 2273)) (.rd (.arr .y 42)))) (.mul (.rd (.arr .jac 2327)) (.rd (.arr .y 43)))) (.mul (.rd (.arr .jac 2381)) (.rd (.arr .y 44)))) (.mul (.rd (.arr .jac 2435)) (.rd (.arr .y 45)))) (.mul (.rd (.arr .jac 2489)) (.rd (.arr .y 46)))) (.mul (.rd (.arr .jac 2543)) (.rd (.arr .y 47)))) (.mul (.rd (.arr .jac 2597)) (.rd (.arr .y 48)))) (.mul (.rd (.arr .jac 2651)) (.rd (.arr .y 49)))) (.mul (.rd (.arr .jac 2705)) (.rd (.arr .y 50)))) (.mul (.rd (.arr .jac 2759)) (.rd (.arr .y 51)))) (.mul (.rd (.arr .jac 2813)) (.rd (.arr .y 52)))) (.mul (.rd (.arr .jac 2867)) (.rd (.arr .y 53)))),
  .set (.arr .dy 6) (.add (.add (.add (.add (.add (.add (.add (.add (.add (.add (.add (.add (.add (.add (.add (.add (.add (.add (.add (.add (.add (.add (.add (.add (.add (.add (.add (.add (.add (.add (.add (.add (.add (.add (.add (.add (.add (.add (.add (.add (.add (.add (.add (.add (.add (.add (.add (.add (.add (.add (.add (.add (.add (.mul (.rd (.arr .jac 6)) (.rd (.arr .y 0))) (.mul (.rd (.arr .jac 60)) (.rd (.arr .y 1)))) (.mul (.rd (.arr .jac 114)) (.rd (.arr .y 2)))) (.mul (.rd (.arr .jac 168)) (.rd (.arr .y 3)))) (.mul (.rd (.arr .jac 222)) (.rd (.arr .y 4)))) (.mul (.rd (.arr .jac 276)) (.rd (.arr .y 5)))) (.mul (.rd (.arr .jac 330)) (.rd (.arr .y 6)))) (.mul (.rd (.arr .jac 384)) (.rd (.arr .y 7)))) (.mul (.rd (.arr .jac 438)) (.rd (.arr .y 8)))) (.mul (.rd (.arr .jac 492)) (.rd (.arr .y 9)))) (.mul (.rd (.arr .jac 546)) (.rd (.arr .y 10)))) (.mul (.rd (.arr .jac 600)) (.rd (.arr .y 11)))) (.mul (.rd (.arr .jac 654)) (.rd (.arr .y 12)))) (.mul (.rd (.arr .jac 708)) (.rd (.arr .y 13)))) (.mul (.rd (.arr .jac 762)) (.rd (.arr .y 14)))) (.mul (.rd (.arr .jac 816)) (.rd (.arr .y 15)))) (.mul (.rd (.arr .jac 870)) (.rd (.arr .y 16)))) (.mul (.rd (.arr .jac 924)) (.rd (.arr .y 17)))) (.mul (.rd (.arr .jac 978)) (.rd (.arr .y 18)))) (.mul (.rd (.arr .jac 1032)) (.rd (.arr .y 19)))) (.mul (.rd (.arr .jac 1086)) (.rd (.arr .y 20)))) (.mul (.rd (.arr .jac 1140)) (.rd (.arr .y 21)))) (.mul (.rd (.arr .jac 1194)) (.rd (.arr .y 22)))) (.mul (.rd (.arr .jac 1248)) (.rd (.arr .y 23)))) (.mul (.rd (.arr .jac 1302)) (.rd (.arr .y 24)))) (.mul (.rd (.arr .jac 1356)) (.rd (.arr .y 25)))) (.mul (.rd (.arr .jac 1410)) (.rd (.arr .y 26)))) (.mul (.rd (.arr .jac 1464)) (.rd (.arr .y 27)))) (.mul (.rd (.arr .jac 1518)) (.rd (.arr .y 28)))) (.mul (.rd (.arr .jac 1572)) (.rd (.arr .y 29)))) (.mul (.rd (.arr .jac 1626)) (.rd (.arr .y 30)))) (.mul (.rd (.arr .jac 1680)) (.rd (.arr .y 31)))) (.mul (.rd (.arr .jac 1734)) (.rd (.arr .y 32)))) (.mul (.rd (.arr .jac 1788)) (.rd (.arr .y 33)))) (.mul (.rd (.arr .jac 1842)) (.rd (.arr .y 34)))) (.mul (.rd (.arr .jac 1896)) (.rd (.arr .y 35)))) (.mul (.rd (.arr .jac 1950)) (.rd (.arr .y 36)))) (.mul (.rd (.arr .jac 2004)) (.rd (.arr .y 37)))) (.mul (.rd (.arr .jac 2058)) (.rd (.arr .y 38)))) (.mul (.rd (.arr .jac 2112)) (.rd (.arr .y 39)))) (.mul (.rd (.arr .jac 2166)) (.rd (.arr .y 40)))) (.mul (.rd (.arr .jac 2220)) (.rd (.arr .y 41)))) (.mul (.rd (.arr .jac 2274)) (.rd (.arr .y 42)))) (.mul (.rd (.arr .jac 2328)) (.rd (.arr .y 43)))) (.mul (.rd (.arr .jac 2382)) (.rd (.arr .y 44)))) (.mul (.rd (.arr .jac 2436)) (.rd (.arr .y 45)))) (.mul (.rd (.arr .jac 2490)) (.rd (.arr .y 46)))) (.mul (.rd (.arr .jac 2544)) (.rd (.arr .y 47)))) (.mul (.rd (.arr .jac 2598)) (.rd (.arr .y 48)))) (.mul (.rd (.arr .jac 2652)) (.rd (.arr .y 49)))) (.mul (.rd (.arr .jac 2706)) (.rd (.arr .y 50)))) (.mul (.rd (.arr .jac 2760)) (.rd (.arr .y 51)))) (.mul (.rd (.arr .jac 2814)) (.rd (.arr .y 52)))) (.mul (.rd (.arr .jac 2868)) (.rd (.arr .y 53)))),
  .set (.arr .dy 7) (.add (.add (.add (.add (.add (.add (.add (.add (.add (.add (.add (.add (.add (.add (.add (.add (.add (.add (.add (.add (.add (.add (.add (.add (.add (.add (.add (.add (.add (.add (.add (.add (.add (.add (.add (.add (.add (.add (.add (.add (.add (.add (.add (.add (.add (.add (.add (.add (.add (.add (.add (.add (.add (.mul (.rd (.arr .jac 7)) (.rd (.arr .y 0))) (.mul (.rd (.arr .jac 61)) (.rd (.arr .y 1)))) (.mul (.rd (.arr .jac 115)) (.rd (.arr .y 2)))) (.mul (.rd (.arr .jac 169)) (.rd (.arr .y 3)))) (.mul (.rd (.arr .jac 223)) (.rd (.arr .y 4)))) (.mul (.rd (.arr .jac 277)) (.rd (.arr .y 5)))) (.mul (.rd (.arr .jac 331)) (.rd (.arr .y 6)))) (.mul (.rd (.arr .jac 385)) (.rd (.arr .y 7)))) (.mul (.rd (.arr .jac 439)) (.rd (.arr .y 8)))) (.mul (.rd (.arr .jac 493)) (.rd (.arr .y 9)))) (.mul (.rd (.arr .jac 547)) (.rd (.arr .y 10)))) (.mul (.rd (.arr .jac 601)) (.rd (.arr .y 11)))) (.mul (.rd (.arr .jac 655)) (.rd (.arr .y 12)))) (.mul (.rd (.arr .jac 709)) (.rd (.arr .y 13)))) (.mul (.rd (.arr .jac 763)) (.rd (.arr .y 14)))) (.mul (.rd (.arr .jac 817)) (.rd (.arr .y 15)))) (.mul (.rd (.arr .jac 871)) (.rd (.arr .y 16)))) (.mul (.rd (.arr .jac 925)) (.rd (.arr .y 17)))) (.mul (.rd (.arr .jac 979)) (.rd (.arr .y 18)))) (.mul (.rd (.arr .jac 1033)) (.rd (.arr .y 19)))) (.mul (.rd (.arr .jac 1087)) (.rd (.arr .y 20)))) (.mul (.rd (.arr .jac 1141)) (.rd (.arr .y 21)))) (.mul (.rd (.arr .jac 1195)) (.rd (.arr .y 22)))) (.mul (.rd (.arr .jac 1249)) (.rd (.arr .y 23)))) (.mul (.rd (.arr .jac 1303)) (.rd (.arr .y 24)))) (.mul (.rd (.arr .jac 1357)) (.rd (.arr .y 25)))) (.mul (.rd (.arr .jac 1411)) (.rd (.arr .y 26)))) (.mul (.rd (.arr .jac 1465)) (.rd (.arr .y 27)))) (.mul (.rd (.arr .jac 1519)) (.rd (.arr .y 28)))) (.mul (.rd (.arr .jac 1573)) (.rd (.arr .y 29)))) (.mul (.rd (.arr .jac 1627)) (.rd (.arr .y 30)))) (.mul (.rd (.arr .jac 1681)) (.rd (.arr .y 31)))) (.mul (.rd (.arr .jac 1735)) (.rd (.arr .y 32)))) (.mul (.rd (.arr .jac 1789)) (.rd (.arr .y 33)))) (.mul (.rd (.arr .jac 1843)) (.rd (.arr .y 34)))) (.mul (.rd (.arr .jac 1897)) (.rd (.arr .y 35)))) (.mul (.rd (.arr .jac 1951)) (.rd (.arr .y 36)))) (.mul (.rd (.arr .jac 2005)) (.rd (.arr .y 37)))) (.mul (.rd (.arr .jac 2059)) (.rd (.arr .y 38)))) (.mul (.rd (.arr .jac 2113)) (.rd (.arr .y 39)))) (.mul (.rd (.arr .jac 2167)) (.rd (.arr .y 40)))) (.mul (.rd (.arr .jac 2221)) (.rd (.arr .y 41)))) (.mul (.rd (.arr .jac 2275)) (.rd (.arr .y 42)))) (.mul (.rd (.arr .jac 2329)) (.rd (.arr .y 43)))) (.mul (.rd (.arr .jac 2383)) (.rd (.arr .y 44)))) (.mul (.rd (.arr .jac 2437)) (.rd (.arr .y 45)))) (.mul (.rd (.arr .jac 2491)) (.rd (.arr .y 46)))) (.mul (.rd (.arr .jac 2545)) (.rd (.arr .y 47)))) (.mul (.rd (.arr .jac 2599)) (.rd (.arr .y 48)))) (.mul (.rd (.arr .jac 2653)) (.rd (.arr .y 49)))) (.mul (.rd (.arr .jac 2707)) (.rd (.arr .y 50)))) (.mul (.rd (.arr .jac 2761)) (.rd (.arr .y 51)))) (.mul (.rd (.arr .jac 2815)) (.rd (.arr .y 52)))) (.mul (.rd (.arr .jac 2869)) (.rd (.arr .y 53)))),
  .set (.arr .dy 8) (.add (.add (.add (.add (.add (.add (.add (.add (.add (.add (.add (.add (.add (.add (.add (.add (.add (.add (.add (.add (.add (.add (.add (.add (.add (.add (.add (.add (.add (.add (.add (.add (.add (.add (.add (.add (.add (.add (.add (.add (.add (.add (.add (.add (.add (.add (.add (.add (.add (.add (.add (.add (.add (.mul (.rd (.arr .jac 8)) (.rd (.arr .y 0))) (.mul (.rd (.arr .jac 62)) (.rd (.arr .y 1)))) (.mul (.rd (.arr .jac 116)) (.rd (.arr .y 2)))) (.mul (.rd (.arr .jac 170)) (.rd (.arr .y 3)))) (.mul (.rd (.arr .jac 224)) (.rd (.arr .y 4)))) (.mul (.rd (.arr .jac 278)) (.rd (.arr .y 5)))) (.mul (.rd (.arr .jac 332)) (.rd (.arr .y 6)))) (.mul (.rd (.arr .jac 386)) (.rd (.arr .y 7)))) (.mul (.rd (.arr .jac 440)) (.rd (.arr .y 8)))) (.mul (.rd (.arr .jac 494)) (.rd (.arr .y 9)))) (.mul (.rd (.arr .jac 548)) (.rd (.arr .y 10)))) (.mul (.rd (.arr .jac 602)) (.rd (.arr .y 11)))) (.mul (.rd (.arr .jac 656)) (.rd (.arr .y 12)))) (.mul (.rd (.arr .jac 710)) (.rd (.arr .y 13)))) (.mul (.rd (.arr .jac 764)) (.rd (.arr .y 14)))) (.mul (.rd (.arr .jac 818)) (.rd (.arr .y 15)))) (.mul (.rd (.arr .jac 872)) (.rd (.arr .y 16)))) (.mul (.rd (.arr .jac 926)) (.rd (.arr .y 17)))) (.mul (.rd (.arr .jac 980)) (.rd (.arr .y 18)))) (.mul (.rd (.arr .jac 1034)) (.rd (.arr .y 19)))) (.mul (.rd (.arr .jac 1088)) (.rd (.arr .y 20)))) (.mul (.rd (.arr .jac 1142)) (.rd (.arr .y 21)))) (.mul (.rd (.arr .jac 1196)) (.rd (.arr .y 22)))) (.mul (.rd (.arr .jac 1250)) (.rd (.arr .y 23)))) (.mul (.rd (.arr .jac 1304)) (.rd (.arr .y 24)))) (.mul (.rd (.arr .jac 1358)) (.rd (.arr .y 25)))) (.mul (.rd (.arr .jac 1412)) (.rd (.arr .y 26)))) (.mul (.rd (.arr .jac 1466)) (.rd (.arr .y 27)))) (.mul (.rd (.arr .jac 1520)) (.rd (.arr .y 28)))) (.mul (.rd (.arr .jac 1574)) (.rd (.arr .y 29)))) (.mul (.rd (.arr .jac 1628)) (.rd (.arr .y 30)))) (.mul (.rd (.arr .jac 1682)) (.rd (.arr .y 31)))) (.mul (.rd (.arr .jac 1736)) (.rd (.arr .y 32)))) (.mul (.rd (.arr .jac 1790)) (.rd (.arr .y 33)))) (.mul (.rd (.arr .jac 1844)) (.rd (.arr .y 34)))) (.mul (.rd (.arr .jac 1898)) (.rd (.arr .y 35)))) (.mul (.rd (.arr .jac 1952)) (.rd (.arr .y 36)))) (.mul (.rd (.arr .jac 2006)) (.rd (.arr .y 37)))) (.mul (.rd (.arr .jac 2060)) (.rd (.arr .y 38)))) (.mul (.rd (.arr .jac 2114)) (.rd (.arr .y 39)))) (.mul (.rd (.arr .jac 2168)) (.rd (.arr .y 40)))) (.mul (.rd (.arr .jac 2222)) (.rd (.arr .y 41)))) (.mul (.rd (.arr .jac 2276)) (.rd (.arr .y 42)))) (.mul (.rd (.arr .jac 2330)) (.rd (.arr .y 43)))) (.mul (.rd (.arr .jac 2384)) (.rd (.arr .y 44)))) (.mul (.rd (.arr .jac 2438)) (.rd (.arr .y 45)))) (.mul (.rd (.arr .jac 2492)) (.rd (.arr .y 46)))) (.mul (.rd (.arr .jac 2546)) (.rd (.arr .y 47)))) (.mul (.rd (.arr .jac 2600)) (.rd (.arr .y 48)))) (.mul (.rd (.arr .jac 2654)) (.rd (.arr .y 49)))) (.mul (.rd (.arr .jac 2708)) (.rd (.arr .y 50)))) (.mul (.rd (.arr .jac 2762)) (.rd (.arr .y 51)))) (.mul (.rd (.arr .jac 2816)) (.rd (.arr .y 52)))) (.mul (.rd (.arr .jac 2870)) (.rd (.arr .y 53)))),
  .set (.arr .dy 9) (.add (.add (.add (.add (.add (.add (.add (.add (.add (.add (.add (.add (.add (.add (.add (.add (.add (.add (.add (.add (.add (.add (.add (.add (.add (.add (.add (.add (.add (.add (.add (.add (.add (.add (.add (.add (.add (.add (.add (.add (.add (.add (.add (.add (.add (.add (.add (.add (.add (.add (.add (.add (.add (.mul (.rd (.arr .jac 9)) (.rd (.arr .y 0))) (.mul (.rd (.arr .jac 63)) (.rd (.arr .y 1)))) (.mul (.rd (.arr .jac 117)) (.rd (.arr .y 2)))) (.mul (.rd (.arr .jac 171)) (.rd (.arr .y 3)))) (.mul (.rd (.arr .jac 225)) (.rd (.arr .y 4)))) (.mul (.rd (.arr .jac 279)) (.rd (.arr .y 5)))) (.mul (.rd (.arr .jac 333)) (.rd (.arr .y 6)))) (.mul (.rd (.arr .jac 387)) (.rd (.arr .y 7)))) (.mul (.rd (.arr .jac 441)) (.rd (.arr .y 8)))) (.mul (.rd (.arr .jac 495)) (.rd (.arr .y 9)))) (.mul (.rd (.arr .jac 549)) (.rd (.arr .y 10)))) (.mul (.rd (.arr .jac 603)) (.rd (.arr .y 11)))) (.mul (.rd (.arr .jac 657)) (.rd (.arr .y 12)))) (.mul (.rd (.arr .jac 711)) (.rd (.arr .y 13)))) (.mul (.rd (.arr .jac 765)) (.rd (.arr .y 14)))) (.mul (.rd (.arr .jac 819)) (.rd (.arr .y 15)))) (.mul (.rd (.arr .jac 873)) (.rd (.arr .y 16)))) (.mul (.rd (.arr .jac 927)) (.rd (.arr .y 17)))) (.mul (.rd (.arr .jac 981)) (.rd (.arr .y 18)))) (.mul (.rd (.arr .jac 1035)) (.rd (.arr .y 19)))) (.mul (.rd (.arr .jac 1089)) (.rd (.arr .y 20)))) (.mul (.rd (.arr .jac 1143)) (.rd (.arr .y 21)))) (.mul (.rd (.arr .jac 1197)) (.rd (.arr .y 22)))) (.mul (.rd (.arr .jac 1251)) (.rd (.arr .y 23)))) (.mul (.rd (.arr .jac 1305)) (.rd (.arr .y 24)))) (.mul (.rd (.arr .jac 1359)) (.rd (.arr .y 25)))) (.mul (.rd (.arr .jac 1413)) (.rd (.arr .y 26)))) (.mul (.rd (.arr .jac 1467)) (.rd (.arr .y 27)))) (.mul (.rd (.arr .jac 1521)) (.rd (.arr .y 28)))) (.mul (.rd (.arr .jac 1575)) (.rd (.arr .y 29)))) (.mul (.rd (.arr .jac 1629)) (.rd (.arr .y 30)))) (.mul (.rd (.arr .jac 1683)) (.rd (.arr .y 31)))) (.mul (.rd (.arr .jac 1737)) (.rd (.arr .y 32)))) (.mul (.rd (.arr .jac 1791)) (.rd (.arr .y 33)))) (.mul (.rd (.arr .jac 1845)) (.rd (.arr .y 34)))) (.mul (.rd (.arr .jac 1899)) (.rd (.arr .y 35)))) (.mul (.rd (.arr .jac 1953)) (.rd (.arr .y 36)))) (.mul (.rd (.arr .jac 2007)) (.rd (.arr .y 37)))) (.mul (.rd (.arr .jac 2061)) (.rd (.arr .y 38)))) (.mul (.rd (.arr .jac 2115)) (.rd (.arr .y 39)))) (.mul (.rd (.arr .jac 2169)) (.rd (.arr .y 40)))) (.mul (.rd (.arr .jac 2223)) (.rd (.arr .y 41)))) (.mul (.rd (.arr .jac 2277)) (.rd (.arr .y 42)))) (.mul (.rd (.arr .jac 2331)) (.rd (.arr .y 43)))) (.mul (.rd (.arr .jac 2385)) (.rd (.arr .y 44)))) (.mul (.rd (.arr .jac 2439)) (.rd (.arr .y 45)))) (.mul (.rd (.arr .jac 2493)) (.rd (.arr .y 46)))) (.mul (.rd (.arr .jac 2547)) (.rd (.arr .y 47)))) (.mul (.rd (.arr .jac 2601)) (.rd (.arr .y 48)))) (.mul (.rd (.arr .jac 2655)) (.rd (.arr .y 49)))) (.mul (.rd (.arr .jac 2709)) (.rd (.arr .y 50)))) (.mul (.rd (.arr .jac 2763)) (.rd (.arr .y 51)))) (.mul (.rd (.arr .jac 2817)) (.rd (.arr .y 52)))) (.mul (.rd (.arr .jac 2871)) (.rd (.arr .y 53)))),
  .set (.arr .dy 10) (.add (.add (.add (.add (.add (.add (.add (.add (.add (.add (.add (.add (.add (.add (.add (.add (.add (.add (.add (.add (.add (.add (.add (.add (.add (.add (.add (.add (.add (.add (.add (.add (.add (.add (.add (.add (.add (.add (.add (.add (.add (.add (.add (.add (.add (.add (.add (.add (.add (.add (.add (.add (.add (.mul (.rd (.arr .jac 10)) (.rd (.arr .y 0))) (.mul (.rd (.arr .jac 64)) (.rd (.arr .y 1)))) (.mul (.rd (.arr .jac 118)) (.rd (.arr .y 2)))) (.mul (.rd (.arr .jac 172)) (.rd (.arr .y 3)))) (.mul (.rd (.arr .jac 226)) (.rd (.arr .y 4)))) (.mul (.rd (.arr .jac 280)) (.rd (.arr .y 5)))) (.mul (.rd (.arr .jac 334)) (.rd (.arr .y 6)))) (.mul (.rd (.arr .jac 388)) (.rd (.arr .y 7)))) (.mul (.rd (.arr .jac 442)) (.rd (.arr .y 8)))) (.mul (.rd (.arr .jac 496)) (.rd (.arr .y 9)))) (.mul (.rd (.arr .jac 550)) (.rd (.arr .y 10)))) (.mul (.rd (.arr .jac 604)) (.rd (.arr .y 11)))) (.mul (.rd (.arr .jac 658)) (.rd (.arr .y 12)))) (.mul (.rd (.arr .jac 712)) (.rd (.arr .y 13)))) (.mul (.rd (.arr .jac 766)) (.rd (.arr .y 14)))) (.mul (.rd (.arr .jac 820)) (.rd (.arr .y 15)))) (.mul (.rd (.arr .jac 874)) (.rd (.arr .y 16)))) (.mul (.rd (.arr .jac 928)) (.rd (.arr .y 17)))) (.mul (.rd (.arr .jac 982)) (.rd (.arr .y 18)))) (.mul (.rd (.arr .jac 1036)) (.rd (.arr .y 19)))) (.mul (.rd (.arr .jac 1090)) (.rd (.arr .y 20)))) (.mul (.rd (.arr .jac 1144)) (.rd (.arr .y 21)))) (.mul (.rd (.arr .jac 1198)) (.rd (.arr .y 22)))) (.mul (.rd (.arr .jac 1252)) (.rd (.arr .y 23)))) (.mul (.rd (.arr .jac 1306)) (.rd (.arr .y 24)))) (.mul (.rd (.arr .jac 1360)) (.rd (.arr .y 25)))) (.mul (.rd (.arr .jac 1414)) (.rd (.arr .y 26)))) (.mul (.rd (.arr .jac 1468)) (.rd (.arr .y 27)))) (.mul (.rd (.arr .jac 1522)) (.rd (.arr .y 28)))) (.mul (.rd (.arr .jac 1576)) (.rd (.arr .y 29)))) (.mul (.rd (.arr .jac 1630)) (.rd (.arr .y 30)))) (.mul (.rd (.arr .jac 1684)) (.rd (.arr .y 31)))) (.mul (.rd (.arr .jac 1738)) (.rd (.arr .y 32)))) (.mul (.rd (.arr .jac 1792)) (.rd (.arr .y 33)))) (.mul (.rd (.arr .jac 1846)) (.rd (.arr .y 34)))) (.mul (.rd (.arr .jac 1900)) (.rd (.arr .y 35)))) (.mul (.rd (.arr .jac 1954)) (.rd (.arr .y 36)))) (.mul (.rd (.arr .jac 2008)) (.rd (.arr .y 37)))) (.mul (.rd (.arr .jac 2062)) (.rd (.arr .y 38)))) (.mul (.rd (.arr .jac 2116)) (.rd (.arr .y 39)))) (.mul (.rd (.arr .jac 2170)) (.rd (.arr .y 40)))) (.mul (.rd (.arr .jac 2224)) (.rd (.arr .y 41)))) (.mul (.rd (.arr .jac 2278)) (.rd (.arr .y 42)))) (.mul (.rd (.arr .jac 2332)) (.rd (.arr .y 43)))) (.mul (.rd (.arr .jac 2386)) (.rd (.arr .y 44)))) (.mul (.rd (.arr .jac 2440)) (.rd (.arr .y 45)))) (.mul (.rd (.arr .jac 2494)) (.rd (.arr .y 46)))) (.mul (.rd (.arr .jac 2548)) (.rd (.arr .y 47)))) (.mul (.rd (.arr .jac 2602)) (.rd (.arr .y 48)))) (.mul (.rd (.arr .jac 2656)) (.rd (.arr .y 49)))) (.mul (.rd (.arr .jac 2710)) (.rd (.arr .y 50)))) (.mul (.rd (.arr .jac 2764)) (.rd (.arr .y 51)))) (.mul (.rd (.arr .jac 2818)) (.rd (.arr .y 52)))) (.mul (.rd (.arr .jac 2872)) (.rd (.arr .y 53)))),
  .set (.arr .dy 11) (.add (.add (.add (.add (.add (.add (.add (.add (.add (.add (.add (.add (.add (.add (.add (.add (.add (.add (.add (.add (.add (.add (.add (.add (.add (.add (.add (.add (.add (.add (.add (.add (.add (.add (.add (.add (.add (.add (.add (.add (.add (.add (.add (.add (.add (.add (.add (.add (.add (.add (.add (.add (.add (.mul (.rd (.arr .jac 11)) (.rd (.arr .y 0))) (.mul (.rd (.arr .jac 65)) (.rd (.arr .y 1)))) (.mul (.rd (.arr .jac 119)) (.rd (.arr .y 2)))) (.mul (.rd (.arr .jac 173)) (.rd (.arr .y 3)))) (.mul (.rd (.arr .jac 227)) (.rd (.arr .y 4)))) (.mul (.rd (.arr .jac 281)) (.rd (.arr .y 5)))) (.mul (.rd (.arr .jac 335)) (.rd (.arr .y 6)))) (.mul (.rd (.arr .jac 389)) (.rd (.arr .y 7)))) (.mul (.rd (.arr .jac 443)) (.rd (.arr .y 8)))) (.mul (.rd (.arr .jac 497)) (.rd (.arr .y 9)))) (.mul (.rd (.arr .jac 551)) (.rd (.arr .y 10)))) (.mul (.rd (.arr .jac 605)) (.rd (.arr .y 11)))) (.mul (.rd (.arr .jac 659)) (.rd (.arr .y 12)))) (.mul (.rd (.arr .jac 713)) (.rd (.arr .y 13)))) (.mul (.rd (.arr .jac 767)) (.rd (.arr .y 14)))) (.mul (.rd (.arr .jac 821)) (.rd (.arr .y 15)))) (.mul (.rd (.arr .jac 875)) (.rd (.arr .y 16)))) (.mul (.rd (.arr .jac 929)) (.rd (.arr .y 17)))) (.mul (.rd (.arr .jac 983)) (.rd (.arr .y 18)))) (.mul (.rd (.arr .jac 1037)) (.rd (.arr .y 19)))) (.mul (.rd (.arr .jac 1091)) (.rd (.arr .y 20)))) (.mul (.rd (.arr .jac 1145)) (.rd (.arr .y 21)))) (.mul (.rd (.arr .jac 1199)) (.rd (.arr .y 22)))) (.mul (.rd (.arr .jac 1253)) (.rd (.arr .y 23)))) (.mul (.rd (.arr .jac 1307)) (.rd (.arr .y 24)))) (.mul (.rd (.arr .jac 1361)) (.rd (.arr .y 25)))) (.mul (.rd (.arr .jac 1415)) (.rd (.arr .y 26)))) (.mul (.rd (.arr .jac 1469)) (.rd (.arr .y 27)))) (.mul (.rd (.arr .jac 1523)) (.rd (.arr .y 28)))) (.mul (.rd (.arr .jac 1577)) (.rd (.arr .y 29)))) (.mul (.rd (.arr .jac 1631)) (.rd (.arr .y 30)))) (.mul (.rd (.arr .jac 1685)) (.rd (.arr .y 31)))) (.mul (.rd (.arr .jac 1739)) (.rd (.arr .y 32)))) (.mul (.rd (.arr .jac 1793)) (.rd (.arr .y 33)))) (.mul (.rd (.arr .jac 1847)) (.rd (.arr .y 34)))) (.mul (.rd (.arr .jac 1901)) (.rd (.arr .y 35)))) (.mul (.rd (.arr .jac 1955)) (.rd (.arr .y 36)))) (.mul (.rd (.arr .jac 2009)) (.rd (.arr .y 37)))) (.mul (.rd (.arr .jac 2063)) (.rd (.arr .y 38)))) (.mul (.rd (.arr .jac 2117)) (.rd (.arr .y 39)))) (.mul (.rd (.arr .jac 2171)) (.rd (.arr .y 40)))) (.mul (.rd (.arr .jac 2225)) (.rd (.arr .y 41)))) (.mul (.rd (.arr .jac 2279)) (.rd (.arr .y 42)))) (.mul (.rd (.arr .jac 2333)) (.rd (.arr .y 43)))) (.mul (.rd (.arr .jac 2387)) (.rd (.arr .y 44)))) (.mul (.rd (.arr .jac 2441)) (.rd (.arr .y 45)))) (.mul (.rd (.arr .jac 2495)) (.rd (.arr .y 46)))) (.mul (.rd (.arr .jac 2549)) (.rd (.arr .y 47)))) (.mul (.rd (.arr .jac 2603)) (.rd (.arr .y 48)))) (.mul (.rd (.arr .jac 2657)) (.rd (.arr .y 49)))) (.mul (.rd (.arr .jac 2711)) (.rd (.arr .y 50)))) (.mul (.rd (.arr .jac 2765)) (.rd (.arr .y 51)))) (.mul (.rd (.arr .jac 2819)) (.rd (.arr .y 52)))) (.mul (.rd (.arr .jac 2873)) (.rd (.arr .y 53)))),
  .set (.arr .dy 12) (.add (.add (.add (.add (.add (.add (.add (.add (.add (.add (.add (.add (.add (.add (.add (.add (.add (.add (.add (.add (.add (.add (.add (.add (.add (.add (.add (.add (.add (.add (.add (.add (.add (.add (.add (.add (.add (.add (.add (.add (.add (.add (.add (.add (.add (.add (.add (.add (.add (.add (.add (.add (.add (.mul (.rd (.arr .jac 12)) (.rd (.arr .y 0))) (.mul (.rd (.arr .jac 66)) (.rd (.arr .y 1)))) (.mul (.rd (.arr .jac 120)) (.rd (.arr .y 2)))) (.mul (.rd (.arr .jac 174)) (.rd (.arr .y 3)))) (.mul (.rd (.arr .jac 228)) (.rd (.arr .y 4)))) (.mul (.rd (.arr .jac 282)) (.rd (.arr .y 5)))) (.mul (.rd (.arr .jac 336)) (.rd (.arr .y 6)))) (.mul (.rd (.arr .jac 390)) (.rd (.arr .y 7)))) (.mul (.rd (.arr .jac 444)) (.rd (.arr .y 8)))) (.mul (.rd (.arr .jac 498)) (.rd (.arr .y 9)))) (.mul (.rd (.arr .jac 552)) (.rd (.arr .y 10)))) (.mul (.rd (.arr .jac 606)) (.rd (.arr .y 11)))) (.mul (.rd (.arr .jac 660)) (.rd (.arr .y 12)))) (.mul (.rd (.arr .jac 714)) (.rd (.arr .y 13)))) (.mul (.rd (.arr .jac 768)) (.rd (.arr .y 14)))) (.mul (.rd (.arr .jac 822)) (.rd (.arr .y 15)))) (.mul (.rd (.arr .jac 876)) (.rd (.arr .y 16)))) (.mul (.rd (.arr .jac 930)) (.rd (.arr .y 17)))) (.mul (.rd (.arr .jac 984)) (.rd (.arr .y 18)))) (.mul (.rd (.arr .jac 1038)) (.rd (.arr .y 19)))) (.mul (.rd (.arr .jac 1092)) (.rd (.arr .y 20)))) (.mul (.rd (.arr .jac 1146)) (.rd (.arr .y 21)))) (.mul (.rd (.arr .jac 1200)) (.rd (.arr .y 22)))) (.mul (.rd (.arr .jac 1254)) (.rd (.arr .y 23)))) (.mul (.rd (.arr .jac 1308)) (.rd (.arr .y 24)))) (.mul (.rd (.arr .jac 1362)) (.rd (.arr .y 25)))) (.mul (.rd (.arr .jac 1416)) (.rd (.arr .y 26)))) (.mul (.rd (.arr .jac 1470)) (.rd (.arr .y 27)))) (.mul (.rd (.arr .jac 1524)) (.rd (.arr .y 28)))) (.mul (.rd (.arr .jac 1578)) (.rd (.arr .y 29)))) (.mul (.rd (.arr .jac 1632)) (.rd (.arr .y 30)))) (.mul (.rd (.arr .jac 1686)) (.rd (.arr .y 31)))) (.mul (.rd (.arr .jac 1740)) (.rd (.arr .y 32)))) (.mul (.rd (.arr .jac 1794)) (.rd (.arr .y 33)))) (.mul (.rd (.arr .jac 1848)) (.rd (.arr .y 34)))) (.mul (.rd (.arr .jac 1902)) (.rd (.arr .y 35)))) (.mul (.rd (.arr .jac 1956)) (.rd (.arr .y 36)))) (.mul (.rd (.arr .jac 2010)) (.rd (.arr .y 37)))) (.mul (.rd (.arr .jac 2064)) (.rd (.arr .y 38)))) (.mul (.rd (.arr .jac 2118)) (.rd (.arr .y 39)))) (.mul (.rd (.arr .jac 2172)) (.rd (.arr .y 40)))) (.mul (.rd (.arr .jac 2226)) (.rd (.arr .y 41)))) (.mul (.rd (.arr .jac 2280)) (.rd (.arr .y 42)))) (.mul (.rd (.arr .jac 2334)) (.rd (.arr .y 43)))) (.mul (.rd (.arr .jac 2388)) (.rd (.arr .y 44)))) (.mul (.rd (.arr .jac 2442)) (.rd (.arr .y 45)))) (.mul (.rd (.arr .jac 2496)) (.rd (.arr .y 46)))) (.mul (.rd (.arr .jac 2550)) (.rd (.arr .y 47)))) (.mul (.rd (.arr .jac 2604)) (.rd (.arr .y 48)))) (.mul (.rd (.arr .jac 2658)) (.rd (.arr .y 49)))) (.mul (.rd (.arr .jac 2712)) (.rd (.arr .y 50)))) (.mul (.rd (.arr .jac 2766)) (.rd (.arr .y 51)))) (.mul (.rd (.arr .jac 2820)) (.rd (.arr .y 52)))) (.mul (.rd (.arr .jac 2874)) (.rd (.arr .y 53)))),
  .set (.arr .dy 13) (.add (.add (.add (.add (.add (.add (.add (.add (.add (.add (.add (.add (.add (.add (.add (.add (.add (.add (.add (.add (.add (.add (.add (.add (.add (.add (.add (.add (.add (.add (.add (.add (.add (.add (.add (.add (.add (.add (.add (.add (.add (.add (.add (.add (.add (.add (.add (.add (.add (.add (.add (.add (.add (.mul (.rd (.arr .jac 13)) (.rd (.arr .y 0))) (.mul (.rd (.arr .jac 67)) (.rd (.arr .y 1)))) (.mul (.rd (.arr .jac 121)) (.rd (.arr .y 2)))) (.mul (.rd (.arr .jac 175)) (.rd (.arr .y 3)))) (.mul (.rd (.arr .jac 229)) (.rd (.arr .y 4)))) (.mul (.rd (.arr .jac 283)) (.rd (.arr .y 5)))) (.mul (.rd (.arr .jac 337)) (.rd (.arr .y 6)))) (.mul (.rd (.arr .jac 391)) (.rd (.arr .y 7)))) (.mul (.rd (.arr .jac 445)) (.rd (.arr .y 8)))) (.mul (.rd (.arr .jac 499)) (.rd (.arr .y 9)))) (.mul (.rd (.arr .jac 553)) (.rd (.arr .y 10)))) (.mul (.rd (.arr .jac 607)) (.rd (.arr .y 11)))) (.mul (.rd (.arr .jac 661)) (.rd (.arr .y 12)))) (.mul (.rd (.arr .jac 715)) (.rd (.arr .y 13)))) (.mul (.rd (.arr .jac 769)) (.rd (.arr .y 14)))) (.mul (.rd (.arr .jac 823)) (.rd (.arr .y 15)))) (.mul (.rd (.arr .jac 877)) (.rd (.arr .y 16)))) (.mul (.rd (.arr .jac 931)) (.rd (.arr .y 17)))) (.mul (.rd (.arr .jac 985)) (.rd (.arr .y 18)))) (.mul (.rd (.arr .jac 1039)) (.rd (.arr .y 19)))) (.mul (.rd (.arr .jac 1093)) (.rd (.arr .y 20)))) (.mul (.rd (.arr .jac 1147)) (.rd (.arr .y 21)))) (.mul (.rd (.arr .jac 1201)) (.rd (.arr .y 22)))) (.mul (.rd (.arr .jac 1255)) (.rd (.arr .y 23)))) (.mul (.rd (.arr .jac 1309)) (.rd (.arr .y 24)))) (.mul (.rd (.arr .jac 1363)) (.rd (.arr .y 25)))) (.mul (.rd (.arr .jac 1417)) (.rd (.arr .y 26)))) (.mul (.rd (.arr .jac 1471)) (.rd (.arr .y 27)))) (.mul (.rd (.arr .jac 1525)) (.rd (.arr .y 28)))) (.mul (.rd (.arr .jac 1579)) (.rd (.arr .y 29)))) (.mul (.rd (.arr .jac 1633)) (.rd (.arr .y 30)))) (.mul (.rd (.arr .jac 1687)) (.rd (.arr .y 31)))) (.mul (.rd (.arr .jac 1741)) (.rd (.arr .y 32)))) (.mul (.rd (.arr .jac 1795)) (.rd (.arr .y 33)))) (.mul (.rd (.arr .jac 1849)) (.rd (.arr .y 34)))) (.mul (.rd (.arr .jac 1903)) (.rd (.arr .y 35)))) (.mul (.rd (.arr .jac 1957)) (.rd (.arr .y 36)))) (.mul (.rd (.arr .jac 2011)) (.rd (.arr .y 37)))) (.mul (.rd (.arr .jac 2065)) (.rd (.arr .y 38)))) (.mul (.rd (.arr .jac 2119)) (.rd (.arr .y 39)))) (.mul (.rd (.arr .jac 2173)) (.rd (.arr .y 40)))) (.mul (.rd (.arr .jac 2227)) (.rd (.arr .y 41)))) (.mul (.rd (.arr .jac 2281)) (.rd (.arr .y 42)))) (.mul (.rd (.arr .jac 2335)) (.rd (.arr .y 43)))) (.mul (.rd (.arr .jac 2389)) (.rd (.arr .y 44)))) (.mul (.rd (.arr .jac 2443)) (.rd (.arr .y 45)))) (.mul (.rd (.arr .jac 2497)) (.rd (.arr .y 46)))) (.mul (.rd (.arr .jac 2551)) (.rd (.arr .y 47)))) (.mul (.rd (.arr .jac 2605)) (.rd (.arr .y 48)))) (.mul (.rd (.arr .jac 2659)) (.rd (.arr .y 49)))) (.mul (.rd (.arr .jac 2713)) (.rd (.arr .y 50)))) (.mul (.rd (.arr .jac 2767)) (.rd (.arr .y 51)))) (.mul (.rd (.arr .jac 2821)) (.rd (.arr .y 52)))) (.mul (.rd (.arr .jac 2875)) (.rd (.arr .y 53)))),
  .set (.arr .dy 14) (.add (.add (.add (.add (.add (.add (.add (.add (.add (.add (.add (.add (.add (.add (.add (.add (.add (.add (.add (.add (.add (.add (.add (.add (.add (.add (.add (.add (.add (.add (.add (.add (.add (.add (.add (.add (.add (.add (.add (.add (.add (.add (.add (.add (.add (.add (.add (.add (.add (.add (.add (.add (.add (.mul (.rd (.arr .jac 14)) (.rd (.arr .y 0))) (.mul (.rd (.arr .jac 68)) (.rd (.arr .y 1)))) (.mul (.rd (.arr .jac 122)) (.rd (.arr .y 2)))) (.mul (.rd (.arr .jac 176)) (.rd (.arr .y 3)))) (.mul (.rd (.arr .jac 230)) (.rd (.arr .y 4)))) (.mul (.rd (.arr .jac 284)) (.rd (.arr .y 5)))) (.mul (.rd (.arr .jac 338)) (.rd (.arr .y 6)))) (.mul (.rd (.arr .jac 392)) (.rd (.arr .y 7)))) (.mul (.rd (.arr .jac 446)) (.rd (.arr .y 8)))) (.mul (.rd (.arr .jac 500)) (.rd (.arr .y 9)))) (.mul (.rd (.arr .jac 554)) (.rd (.arr .y 10)))) (.mul (.rd (.arr .jac 608)) (.rd (.arr .y 11)))) (.mul (.rd (.arr .jac 662)) (.rd (.arr .y 12)))) (.mul (.rd (.arr .jac 716)) (.rd (.arr .y 13)))) (.mul (.rd (.arr .jac 770)) (.rd (.arr .y 14)))) (.mul (.rd (.arr .jac 824)) (.rd (.arr .y 15)))) (.mul (.rd (.arr .jac 878)) (.rd (.arr .y 16)))) (.mul (.rd (.arr .jac 932)) (.rd (.arr .y 17)))) (.mul (.rd (.arr .jac 986)) (.rd (.arr .y 18)))) (.mul (.rd (.arr .jac 1040)) (.rd (.arr .y 19)))) (.mul (.rd (.arr .jac 1094)) (.rd (.arr .y 20)))) (.mul (.rd (.arr .jac 1148)) (.rd (.arr .y 21)))) (.mul (.rd (.arr .jac 1202)) (.rd (.arr .y 22)))) (.mul (.rd (.arr .jac 1256)) (.rd (.arr .y 23)))) (.mul (.rd (.arr .jac 1310)) (.rd (.arr .y 24)))) (.mul (.rd (.arr .jac 1364)) (.rd (.arr .y 25)))) (.mul (.rd (.arr .jac 1418)) (.rd (.arr .y 26)))) (.mul (.rd (.arr .jac 1472)) (.rd (.arr .y 27)))) (.mul (.rd (.arr .jac 1526)) (.rd (.arr .y 28)))) (.mul (.rd (.arr .jac 1580)) (.rd (.arr .y 29)))) (.mul (.rd (.arr .jac 1634)) (.rd (.arr .y 30)))) (.mul (.rd (.arr .jac 1688)) (.rd (.arr .y 31)))) (.mul (.rd (.arr .jac 1742)) (.rd (.arr .y 32)))) (.mul (.rd (.arr .jac 1796)) (.rd (.arr .y 33)))) (.mul (.rd (.arr .jac 1850)) (.rd (.arr .y 34)))) (.mul (.rd (.arr .jac 1904)) (.rd (.arr .y 35)))) (.mul (.rd (.arr .jac 1958)) (.rd (.arr .y 36)))) (.mul (.rd (.arr .jac 2012)) (.rd (.arr .y 37)))) (.mul (.rd (.arr .jac 2066)) (.rd (.arr .y 38)))) (.mul (.rd (.arr .jac 2120)) (.rd (.arr .y 39)))) (.mul (.rd (.arr .jac 2174)) (.rd (.arr .y 40)))) (.mul (.rd (.arr .jac 2228)) (.rd (.arr .y 41)))) (.mul (.rd (.arr .jac 2282)) (.rd (.arr .y 42)))) (.mul (.rd (.arr .jac 2336)) (.rd (.arr .y 43)))) (.mul (.rd (.arr .jac 2390)) (.rd (.arr .y 44)))) (.mul (.rd (.arr .jac 2444)) (.rd (.arr .y 45)))) (.mul (.rd (.arr .jac 2498)) (.rd (.arr .y 46)))) (.mul (.rd (.arr .jac 2552)) (.rd (.arr .y 47)))) (.mul (.rd (.arr .jac 2606)) (.rd (.arr .y 48)))) (.mul (.rd (.arr .jac 2660)) (.rd (.arr .y 49)))) (.mul (.rd (.arr .jac 2714)) (.rd (.arr .y 50)))) (.mul (.rd (.arr .jac 2768)) (.rd (.arr .y 51)))) (.mul (.rd (.arr .jac 2822)) (.rd (.arr .y 52)))) (.mul (.rd (.arr .jac 2876)) (.rd (.arr .y 53)))),
  .set (.arr .dy 15) (.add (.add (.add (.add (.add (.add (.add (.add (.add (.add (.add (.add (.add (.add (.add (.add (.add (.add (.add (.add (.add (.add (.add (.add (.add (.add (.add (.add (.add (.add (.add (.add (.add (.add (.add (.add (.add (.add (.add (.add (.add (.add (.add (.add (.add (.add (.add (.add (.add (.add (.add (.add (.add (.mul (.rd (.arr .jac 15)) (.rd (.arr .y 0))) (.mul (.rd (.arr .jac 69)) (.rd (.arr .y 1)))) (.mul (.rd (.arr .jac 123)) (.rd (.arr .y 2)))) (.mul (.rd (.arr .jac 177)) (.rd (.arr .y 3)))) (.mul (.rd (.arr .jac 231)) (.rd (.arr .y 4)))) (.mul (.rd (.arr .jac 285)) (.rd (.arr .y 5)))) (.mul (.rd (.arr .jac 339)) (.rd (.arr .y 6)))) (.mul (.rd (.arr .jac 393)) (.rd (.arr .y 7)))) (.mul (.rd (.arr .jac 447)) (.rd (.arr .y 8)))) (.mul (.rd (.arr .jac 501)) (.rd (.arr .y 9)))) (.mul (.rd (.arr .jac 555)) (.rd (.arr .y 10)))) (.mul (.rd (.arr .jac 609)) (.rd (.arr .y 11)))) (.mul (.rd (.arr .jac 663)) (.rd (.arr .y 12)))) (.mul (.rd (.arr .jac 717)) (.rd (.arr .y 13)))) (.mul (.rd (.arr .jac 771)) (.rd (.arr .y 14)))) (.mul (.rd (.arr .jac 825)) (.rd (.arr .y 15)))) (.mul (.rd (.arr .jac 879)) (.rd (.arr .y 16)))) (.mul (.rd (.arr .jac 933)) (.rd (.arr .y 17)))) (.mul (.rd (.arr .jac 987)) (.rd (.arr .y 18)))) (.mul (.rd (.arr .jac 1041)) (.rd (.arr .y 19)))) (.mul (.rd (.arr .jac 1095)) (.rd (.arr .y 20)))) (.mul (.rd (.arr .jac 1149)) (.rd (.arr .y 21)))) (.mul (.rd (.arr .jac 1203)) (.rd (.arr .y 22)))) (.mul (.rd (.arr .jac 1257)) (.rd (.arr .y 23)))) (.mul (.rd (.arr .jac 1311)) (.rd (.arr .y 24)))) (.mul (.rd (.arr .jac 1365)) (.rd (.arr .y 25)))) (.mul (.rd (.arr .jac 1419)) (.rd (.arr .y 26)))) (.mul (.rd (.arr .jac 1473)) (.rd (.arr .y 27)))) (.mul (.rd (.arr .jac 1527)) (.rd (.arr .y 28)))) (.mul (.rd (.arr .jac 1581)) (.rd (.arr .y 29)))) (.mul (.rd (.arr .jac 1635)) (.rd (.arr .y 30)))) (.mul (.rd (.arr .jac 1689)) (.rd (.arr .y 31)))) (.mul (.rd (.arr .jac 1743)) (.rd (.arr .y 32)))) (.mul (.rd (.arr .jac 1797)) (.rd (.arr .y 33)))) (.mul (.rd (.arr .jac 1851)) (.rd (.arr .y 34)))) (.mul (.rd (.arr .jac 1905)) (.rd (.arr .y 35)))) (.mul (.rd (.arr .jac 1959)) (.rd (.arr .y 36)))) (.mul (.rd (.arr .jac 2013)) (.rd (.arr .y 37)))) (.mul (.rd (.arr .jac 2067)) (.rd (.arr .y 38)))) (.mul (.rd (.arr .jac 2121)) (.rd (.arr .y 39)))) (.mul (.rd (.arr .jac 2175)) (.rd (.arr .y 40)))) (.mul (.rd (.arr .jac 2229)) (.rd (.arr .y 41)))) (.mul (.rd (.arr .jac 2283)) (.rd (.arr .y 42)))) (.mul (.rd (.arr .jac 2337)) (.rd (.arr .y 43)))) (.mul (.rd (.arr .jac 2391)) (.rd (.arr .y 44)))) (.mul (.rd (.arr .jac 2445)) (.rd (.arr .y 45)))) (.mul (.rd (.arr .jac 2499)) (.rd (.arr .y 46)))) (.mul (.rd (.arr .jac 2553)) (.rd (.arr .y 47)))) (.mul (.rd (.arr .jac 2607)) (.rd (.arr .y 48)))) (.mul (.rd (.arr .jac 2661)) (.rd (.arr .y 49)))) (.mul (.rd (.arr .jac 2715)) (.rd (.arr .y 50)))) (.mul (.rd (.arr .jac 2769)) (.rd (.arr .y 51)))) (.mul (.rd (.arr .jac 2823)) (.rd (.arr .y 52)))) (.mul (.rd (.arr .jac 2877)) (.rd (.arr .y 53)))),
  .set (.arr .dy 16) (.add (.add (.add (.add (.add (.add (.add (.add (.add (.add (.add (.add (.add (.add (.add (.add (.add (.add (.add (.add (.add (.add (.add (.add (.add (.add (.add (.add (.add (.add (.add (.add (.add (.add (.add (.add (.add (.add (.add (.add (.add (.add (.add (.add (.add (.add (.add (.add (.add (.add (.add (.add (.add (.mul (.rd (.arr .jac 16)) (.rd (.arr .y 0))) (.mul (.rd (.arr .jac 70)) (.rd (.arr .y 1)))) (.mul (.rd (.arr .jac 124)) (.rd (.arr .y 2)))) (.mul (.rd (.arr .jac 178)) (.rd (.arr .y 3)))) (.mul (.rd (.arr .jac 232)) (.rd (.arr .y 4)))) (.mul (.rd (.arr .jac 286)) (.rd (.arr .y 5)))) (.mul (.rd (.arr .jac 340)) (.rd (.arr .y 6)))) (.mul (.rd (.arr .jac 394)) (.rd (.arr .y 7)))) (.mul (.rd (.arr .jac 448)) (.rd (.arr .y 8)))) (.mul (.rd (.arr .jac 502)) (.rd (.arr .y 9)))) (.mul (.rd (.arr .jac 556)) (.rd (.arr .y 10)))) (.mul (.rd (.arr .jac 610)) (.rd (.arr .y 11)))) (.mul (.rd (.arr .jac 664)) (.rd (.arr .y 12)))) (.mul (.rd (.arr .jac 718)) (.rd (.arr .y 13)))) (.mul (.rd (.arr .jac 772)) (.rd (.arr .y 14)))) (.mul (.rd (.arr .jac 826)) (.rd (.arr .y 15)))) (.mul (.rd (.arr .jac 880)) (.rd (.arr .y 16)))) (.mul (.rd (.arr .jac 934)) (.rd (.arr .y 17)))) (.mul (.rd (.arr .jac 988)) (.rd (.arr .y 18)))) (.mul (.rd (.arr .jac 1042)) (.rd (.arr .y 19)))) (.mul (.rd (.arr .jac 1096)) (.rd (.arr .y 20)))) (.mul (.rd (.arr .jac 1150)) (.rd (.arr .y 21)))) (.mul (.rd (.arr .jac 1204)) (.rd (.arr .y 22)))) (.mul (.rd (.arr .jac 1258)) (.rd (.arr .y 23)))) (.mul (.rd (.arr .jac 1312)) (.rd (.arr .y 24)))) (.mul (.rd (.arr .jac 1366)) (.rd (.arr .y 25)))) (.mul (.rd (.arr .jac 1420)) (.rd (.arr .y 26)))) (.mul (.rd (.arr .jac 1474)) (.rd (.arr .y 27)))) (.mul (.rd (.arr .jac 1528)) (.rd (.arr .y 28)))) (.mul (.rd (.arr .jac 1582)) (.rd (.arr .y 29)))) (.mul (.rd (.arr .jac 1636)) (.rd (.arr .y 30)))) (.mul (.rd (.arr .jac 1690)) (.rd (.arr .y 31)))) (.mul (.rd (.arr .jac 1744)) (.rd (.arr .y 32)))) (.mul (.rd (.arr .jac 1798)) (.rd (.arr .y 33)))) (.mul (.rd (.arr .jac 1852)) (.rd (.arr .y 34)))) (.mul (.rd (.arr .jac 1906)) (.rd (.arr .y 35)))) (.mul (.rd (.arr .jac 1960)) (.rd (.arr .y 36)))) (.mul (.rd (.arr .jac 2014)) (.rd (.arr .y 37)))) (.mul (.rd (.arr .jac 2068)) (.rd (.arr .y 38)))) (.mul (.rd (.arr .jac 2122)) (.rd (.arr .y 39)))) (.mul (.rd (.arr .jac 2176)) (.rd (.arr .y 40)))) (.mul (.rd (.arr .jac 2230)) (.rd (.arr .y 41)))) (.mul (.rd (.arr .jac 2284)) (.rd (.arr .y 42)))) (.mul (.rd (.arr .jac 2338)) (.rd (.arr .y 43)))) (.mul (.rd (.arr .jac 2392)) (.rd (.arr .y 44)))) (.mul (.rd (.arr .jac 2446)) (.rd (.arr .y 45)))) (.mul (.rd (.arr .jac 2500)) (.rd (.arr .y 46)))) (.mul (.rd (.arr .jac 2554)) (.rd (.arr .y 47)))) (.mul (.rd (.arr .jac 2608)) (.rd (.arr .y 48)))) (.mul (.rd (.arr .jac 2662)) (.rd (.arr .y 49)))) (.mul (.rd (.arr .jac 2716)) (.rd (.arr .y 50)))) (.mul (.rd (.arr .jac 2770)) (.rd (.arr .y 51)))) (.mul (.rd (.arr .jac 2824)) (.rd (.arr .y 52)))) (.mul (.rd (.arr .jac 2878)) (.rd (.arr .y 53)))),
  .set (.arr .dy 17) (.add (.add (.add (.add (.add (.add (.add (.add (.add (.add (.add (.add (.add (.add (.add (.add (.add (.add (.add (.add (.add (.add (.add (.add (.add (.add (.add (.add (.add (.add (.add (.add (.add (.add (.add (.add (.add (.add (.add (.add (.add (.add (.add (.add (.add (.add (.add (.add (.add (.add (.add (.add (.add (.mul (.rd (.arr .jac 17)) (.rd (.arr .y 0))) (.mul (.rd (.arr .jac 71)) (.rd (.arr .y 1)))) (.mul (.rd (.arr .jac 125)) (.rd (.arr .y 2)))) (.mul (.rd (.arr .jac 179)) (.rd (.arr .y 3)))) (.mul (.rd (.arr .jac 233)) (.rd (.arr .y 4)))) (.mul (.rd (.arr .jac 287)) (.rd (.arr .y 5)))) (.mul (.rd (.arr .jac 341)) (.rd (.arr .y 6)))) (.mul (.rd (.arr .jac 395)) (.rd (.arr .y 7)))) (.mul (.rd (.arr .jac 449)) (.rd (.arr .y 8)))) (.mul (.rd (.arr .jac 503)) (.rd (.arr .y 9)))) (.mul (.rd (.arr .jac 557)) (.rd (.arr .y 10)))) (.mul (.rd (.arr .jac 611)) (.rd (.arr .y 11)))) (.mul (.rd (.arr .jac 665)) (.rd (.arr .y 12)))) (.mul (.rd (.arr .jac 719)) (.rd (.arr .y 13)))) (.mul (.rd (.arr .jac 773)) (.rd (.arr .y 14)))) (.mul (.rd (.arr .jac 827)) (.rd (.arr .y 15)))) (.mul (.rd (.arr .jac 881)) (.rd (.arr .y 16)))) (.mul (.rd (.arr .jac 935)) (.rd (.arr .y 17)))) (.mul (.rd (.arr .jac 989)) (.rd (.arr .y 18)))) (.mul (.rd (.arr .jac 1043)) (.rd (.arr .y 19)))) (.mul (.rd (.arr .jac 1097)) (.rd (.arr .y 20)))) (.mul (.rd (.arr .jac 1151)) (.rd (.arr .y 21)))) (.mul (.rd (.arr .jac 1205)) (.rd (.arr .y 22)))) (.mul (.rd (.arr .jac 1259)) (.rd (.arr .y 23)))) (.mul (.rd (.arr .jac 1313)) (.rd (.arr .y 24)))) (.mul (.rd (.arr .jac 1367)) (.rd (.arr .y 25)))) (.mul (.rd (.arr .jac 1421)) (.rd (.arr .y 26)))) (.mul (.rd (.arr .jac 1475)) (.rd (.arr .y 27)))) (.mul (.rd (.arr .jac 1529)) (.rd (.arr .y 28)))) (.mul (.rd (.arr .jac 1583)) (.rd (.arr .y 29)))) (.mul (.rd (.arr .jac 1637)) (.rd (.arr .y 30)))) (.mul (.rd (.arr .jac 1691)) (.rd (.arr .y 31)))) (.mul (.rd (.arr .jac 1745)) (.rd (.arr .y 32)))) (.mul (.rd (.arr .jac 1799)) (.rd (.arr .y 33)))) (.mul (.rd (.arr .jac 1853)) (.rd (.arr .y 34)))) (.mul (.rd (.arr .jac 1907)) (.rd (.arr .y 35)))) (.mul (.rd (.arr .jac 1961)) (.rd (.arr .y 36)))) (.mul (.rd (.arr .jac 2015)) (.rd (.arr .y 37)))) (.mul (.rd (.arr .jac 2069)) (.rd (.arr .y 38)))) (.mul (.rd (.arr .jac 2123)) (.rd (.arr .y 39)))) (.mul (.rd (.arr .jac 2177)) (.rd (.arr .y 40)))) (.mul (.rd (.arr .jac 2231)) (.rd (.arr .y 41)))) (.mul (.rd (.arr .jac 2285)) (.rd (.arr .y 42)))) (.mul (.rd (.arr .jac 2339)) (.rd (.arr .y 43)))) (.mul (.rd (.arr .jac 2393)) (.rd (.arr .y 44)))) (.mul (.rd (.arr .jac 2447)) (.rd (.arr .y 45)))) (.mul (.rd (.arr .jac 2501)) (.rd (.arr .y 46)))) (.mul (.rd (.arr .jac 2555)) (.rd (.arr .y 47)))) (.mul (.rd (.arr .jac 2609)) (.rd (.arr .y 48)))) (.mul (.rd (.arr .jac 2663)) (.rd (.arr .y 49)))) (.mul (.rd (.arr .jac 2717)) (.rd (.arr .y 50)))) (.mul (.rd (.arr .jac 2771)) (.rd (.arr .y 51)))) (.mul (.rd (.arr .jac 2825)) (.rd (.arr .y 52)))) (.mul (.rd (.arr .jac 2879)) (.rd (.arr .y 53)))),
  .set (.arr .dy 18) (.add (.add (.add (.add (.add (.add (.add (.add (.add (.add (.add (.add (.add (.add (.add (.add (.add (.add (.add (.add (.add (.add (.add (.add (.add (.add (.add (.add (.add (.add (.add (.add (.add (.add (.add (.add (.add (.add (.add (.add (.add (.add (.add (.add (.add (.add (.add (.add (.add (.add (.add (.add (.add (.mul (.rd (.arr .jac 18)) (.rd (.arr .y 0))) (.mul (.rd (.arr .jac 72)) (.rd (.arr .y 1)))) (.mul (.rd (.arr .jac 126)) (.rd (.arr .y 2)))) (.mul (.rd (.arr .jac 180)) (.rd (.arr .y 3)))) (.mul (.rd (.arr .jac 234)) (.rd (.arr .y 4)))) (.mul (.rd (.arr .jac 288)) (.rd (.arr .y 5)))) (.mul (.rd (.arr .jac 342)) (.rd (.arr .y 6)))) (.mul (.rd (.arr .jac 396)) (.rd (.arr .y 7)))) (.mul (.rd (.arr .jac 450)) (.rd (.arr .y 8)))) (.mul (.rd (.arr .jac 504)) (.rd (.arr .y 9)))) (.mul (.rd (.arr .jac 558)) (.rd (.arr .y 10)))) (.mul (.rd (.arr .jac 612)) (.rd (.arr .y 11)))) (.mul (.rd (.arr .jac 666)) (.rd (.arr .y 12)))) (.mul (.rd (.arr .jac 720)) (.rd (.arr .y 13)))) (.mul (.rd (.arr .jac 774)) (.rd (.arr .y 14)))) (.mul (.rd (.arr .jac 828)) (.rd (.arr .y 15)))) (.mul (.rd (.arr .jac 882)) (.rd (.arr .y 16)))) (.mul (.rd (.arr .jac 936)) (.rd (.arr .y 17)))) (.mul (.rd (.arr .jac 990)) (.rd (.arr .y 18)))) (.mul (.rd (.arr .jac 1044)) (.rd (.arr .y 19)))) (.mul (.rd (.arr .jac 1098)) (.rd (.arr .y 20)))) (.mul (.rd (.arr .jac 1152)) (.rd (.arr .y 21)))) (.mul (.rd (.arr .jac 1206)) (.rd (.arr .y 22)))) (.mul (.rd (.arr .jac 1260)) (.rd (.arr .y 23)))) (.mul (.rd (.arr .jac 1314)) (.rd (.arr .y 24)))) (.mul (.rd (.arr .jac 1368)) (.rd (.arr .y 25)))) (.mul (.rd (.arr .jac 1422)) (.rd (.arr .y 26)))) (.mul (.rd (.arr .jac 1476)) (.rd (.arr .y 27)))) (.mul (.rd (.arr .jac 1530)) (.rd (.arr .y 28)))) (.mul (.rd (.arr .jac 1584)) (.rd (.arr .y 29)))) (.mul (.rd (.arr .jac 1638)) (.rd (.arr .y 30)))) (.mul (.rd (.arr .jac 1692)) (.rd (.arr .y 31)))) (.mul (.rd (.arr .jac 1746)) (.rd (.arr .y 32)))) (.mul (.rd (.arr .jac 1800)) (.rd (.arr .y 33)))) (.mul (.rd (.arr .jac 1854)) (.rd (.arr .y 34)))) (.mul (.rd (.arr .jac 1908)) (.rd (.arr .y 35)))) (.mul (.rd (.arr .jac 1962)) (.rd (.arr .y 36)))) (.mul (.rd (.arr .jac 2016)) (.rd (.arr .y 37)))) (.mul (.rd (.arr .jac 2070)) (.rd (.arr .y 38)))) (.mul (.rd (.arr .jac 2124)) (.rd (.arr .y 39)))) (.mul (.rd (.arr .jac 2178)) (.rd (.arr .y 40)))) (.mul (.rd (.arr .jac 2232)) (.rd (.arr .y 41)))) (.mul (.rd (.arr .jac 2286)) (.rd (.arr .y 42)))) (.mul (.rd (.arr .jac 2340)) (.rd (.arr .y 43)))) (.mul (.rd (.arr .jac 2394)) (.rd (.arr .y 44)))) (.mul (.rd (.arr .jac 2448)) (.rd (.arr .y 45)))) (.mul (.rd (.arr .jac 2502)) (.rd (.arr .y 46)))) (.mul (.rd (.arr .jac 2556)) (.rd (.arr .y 47)))) (.mul (.rd (.arr .jac 2610)) (.rd (.arr .y 48)))) (.mul (.rd (.arr .jac 2664)) (.rd (.arr .y 49)))) (.mul (.rd (.arr .jac 2718)) (.rd (.arr .y 50)))) (.mul (.rd (.arr .jac 2772)) (.rd (.arr .y 51)))) (.mul (.rd (.arr .jac 2826)) (.rd (.arr .y 52)))) (.mul (.rd (.arr .jac 2880)) (.rd (.arr .y 53)))),
  .set (.arr .dy 19) (.add (.add (.add (.add (.add (.add (.add (.add (.add (.add (.add (.add (.add (.add (.add (.add (.add (.add (.add (.add (.add (.add (.add (.add (.add (.add (.add (.add (.add (.add (.add (.add (.add (.add (.add (.add (.add (.add (.add (.add (.add (.add (.add (.add (.add (.add (.add (.add (.add (.add (.add (.add (.add (.mul (.rd (.arr .jac 19)) (.rd (.arr .y 0))) (.mul (.rd (.arr .jac 73)) (.rd (.arr .y 1)))) (.mul (.rd (.arr .jac 127)) (.rd (.arr .y 2)))) (.mul (.rd (.arr .jac 181)) (.rd (.arr .y 3)))) (.mul (.rd (.arr .jac 235)) (.rd (.arr .y 4)))) (.mul (.rd (.arr .jac 289)) (.rd (.arr .y 5)))) (.mul (.rd (.arr .jac 343)) (.rd (.arr .y 6)))) (.mul (.rd (.arr .jac 397)) (.rd (.arr .y 7)))) (.mul (.rd (.arr .jac 451)) (.rd (.arr .y 8)))) (.mul (.rd (.arr .jac 505)) (.rd (.arr .y 9)))) (.mul (.rd (.arr .jac 559)) (.rd (.arr .y 10)))) (.mul (.rd (.arr .jac 613)) (.rd (.arr .y 11)))) (.mul (.rd (.arr .jac 667)) (.rd (.arr .y 12)))) (.mul (.rd (.arr .jac 721)) (.rd (.arr .y 13)))) (.mul (.rd (.arr .jac 775)) (.rd (.arr .y 14)))) (.mul (.rd (.arr .jac 829)) (.rd (.arr .y 15)))) (.mul (.rd (.arr .jac 883)) (.rd (.arr .y 16)))) (.mul (.rd (.arr .jac 937)) (.rd (.arr .y 17)))) (.mul (.rd (.arr .jac 991)) (.rd (.arr .y 18)))) (.mul (.rd (.arr .jac 1045)) (.rd (.arr .y 19)))) (.mul (.rd (.arr .jac 1099)) (.rd (.arr .y 20)))) (.mul (.rd (.arr .jac 1153)) (.rd (.arr .y 21)))) (.mul (.rd (.arr .jac 1207)) (.rd (.arr .y 22)))) (.mul (.rd (.arr .jac 1261)) (.rd (.arr .y 23)))) (.mul (.rd (.arr .jac 1315)) (.rd (.arr .y 24)))) (.mul (.rd (.arr .jac 1369)) (.rd (.arr .y 25)))) (.mul (.rd (.arr .jac 1423)) (.rd (.arr .y 26)))) (.mul (.rd (.arr .jac 1477)) (.rd (.arr .y 27)))) (.mul (.rd (.arr .jac 1531)) (.rd (.arr .y 28)))) (.mul (.rd (.arr .jac 1585)) (.rd (.arr .y 29)))) (.mul (.rd (.arr .jac 1639)) (.rd (.arr .y 30)))) (.mul (.rd (.arr .jac 1693)) (.rd (.arr .y 31)))) (.mul (.rd (.arr .jac 1747)) (.rd (.arr .y 32)))) (.mul (.rd (.arr .jac 1801)) (.rd (.arr .y 33)))) (.mul (.rd (.arr .jac 1855)) (.rd (.arr .y 34)))) (.mul (.rd (.arr .jac 1909)) (.rd (.arr .y 35)))) (.mul (.rd (.arr .jac 1963)) (.rd (.arr .y 36)))) (.mul (.rd (.arr .jac 2017)) (.rd (.arr .y 37)))) (.mul (.rd (.arr .jac 2071)) (.rd (.arr .y 38)))) (.mul (.rd (.arr .jac 2125)) (.rd (.arr .y 39)))) (.mul (.rd (.arr .jac 2179)) (.rd (.arr .y 40)))) (.mul (.rd (.arr .jac 2233)) (.rd (.arr .y 41)))) (.mul (.rd (.arr .jac 2287)) (.rd (.arr .y 42)))) (.mul (.rd (.arr .jac 2341)) (.rd (.arr .y 43)))) (.mul (.rd (.arr .jac 2395)) (.rd (.arr .y 44)))) (.mul (.rd (.arr .jac 2449)) (.rd (.arr .y 45)))) (.mul (.rd (.arr .jac 2503)) (.rd (.arr .y 46)))) (.mul (.rd (.arr .jac 2557)) (.rd (.arr .y 47)))) (.mul (.rd (.arr .jac 2611)) (.rd (.arr .y 48)))) (.mul (.rd (.arr .jac 2665)) (.rd (.arr .y 49)))) (.mul (.rd (.arr .jac 2719)) (.rd (.arr .y 50)))) (.mul (.rd (.arr .jac 2773)) (.rd (.arr .y 51)))) (.mul (.rd (.arr .jac 2827)) (.rd (.arr .y 52)))) (.mul (.rd (.arr .jac 2881)) (.rd (.arr .y 53)))),
  .set (.arr .dy 20) (.add (.add (.add (.add (.add (.add (.add (.add (.add (.add (.add (.add (.add (.add (.add (.add (.add (.add (.add (.add (.add (.add (.add (.add (.add (.add (.add (.add (.add (.add (.add (.add (.add (.add (.add (.add (.add (.add (.add (.add (.add (.add (.add (.add (.add (.add (.add (.add (.add (.add (.add (.add (.add (.mul (.rd (.arr .jac 20)) (.rd (.arr .y 0))) (.mul (.rd (.arr .jac 74)) (.rd (.arr .y 1)))) (.mul (.rd (.arr .jac 128)) (.rd (.arr .y 2)))) (.mul (.rd (.arr .jac 182)) (.rd (.arr .y 3)))) (.mul (.rd (.arr .jac 236)) (.rd (.arr .y 4)))) (.mul (.rd (.arr .jac 290)) (.rd (.arr .y 5)))) (.mul (.rd (.arr .jac 344)) (.rd (.arr .y 6)))) (.mul (.rd (.arr .jac 398)) (.rd (.arr .y 7)))) (.mul (.rd (.arr .jac 452)) (.rd (.arr .y 8)))) (.mul (.rd (.arr .jac 506)) (.rd (.arr .y 9)))) (.mul (.rd (.arr .jac 560)) (.rd (.arr .y 10)))) (.mul (.rd (.arr .jac 614)) (.rd (.arr .y 11)))) (.mul (.rd (.arr .jac 668)) (.rd (.arr .y 12)))) (.mul (.rd (.arr .jac 722)) (.rd (.arr .y 13)))) (.mul (.rd (.arr .jac 776)) (.rd (.arr .y 14)))) (.mul (.rd (.arr .jac 830)) (.rd (.arr .y 15)))) (.mul (.rd (.arr .jac 884)) (.rd (.arr .y 16)))) (.mul (.rd (.arr .jac 938)) (.rd (.arr .y 17)))) (.mul (.rd (.arr .jac 992)) (.rd (.arr .y 18)))) (.mul (.rd (.arr .jac 1046)) (.rd (.arr .y 19)))) (.mul (.rd (.arr .jac 1100)) (.rd (.arr .y 20)))) (.mul (.rd (.arr .jac 1154)) (.rd (.arr .y 21)))) (.mul (.rd (.arr .jac 1208)) (.rd (.arr .y 22)))) (.mul (.rd (.arr .jac 1262)) (.rd (.arr .y 23)))) (.mul (.rd (.arr .jac 1316)) (.rd (.arr .y 24)))) (.mul (.rd (.arr .jac 1370)) (.rd (.arr .y 25)))) (.mul (.rd (.arr .jac 1424)) (.rd (.arr .y 26)))) (.mul (.rd (.arr .jac 1478)) (.rd (.arr .y 27)))) (.mul (.rd (.arr .jac 1532)) (.rd (.arr .y 28)))) (.mul (.rd (.arr .jac 1586)) (.rd (.arr .y 29)))) (.mul (.rd (.arr .jac 1640)) (.rd (.arr .y 30)))) (.mul (.rd (.arr .jac 1694)) (.rd (.arr .y 31)))) (.mul (.rd (.arr .jac 1748)) (.rd (.arr .y 32)))) (.mul (.rd (.arr .jac 1802)) (.rd (.arr .y 33)))) (.mul (.rd (.arr .jac 1856)) (.rd (.arr .y 34)))) (.mul (.rd (.arr .jac 1910)) (.rd (.arr .y 35)))) (.mul (.rd (.arr .jac 1964)) (.rd (.arr .y 36)))) (.mul (.rd (.arr .jac 2018)) (.rd (.arr .y 37)))) (.mul (.rd (.arr .jac 2072)) (.rd (.arr .y 38)))) (.mul (.rd (.arr .jac 2126)) (.rd (.arr .y 39)))) (.mul (.rd (.arr .jac 2180)) (.rd (.arr .y 40)))) (.mul (.rd (.arr .jac 2234)) (.rd (.arr .y 41)))) (.mul (.rd (.arr .jac 2288)) (.rd (.arr .y 42)))) (.mul (.rd (.arr .jac 2342)) (.rd (.arr .y 43)))) (.mul (.rd (.arr .jac 2396)) (.rd (.arr .y 44)))) (.mul (.rd (.arr .jac 2450)) (.rd (.arr .y 45)))) (.mul (.rd (.arr .jac 2504)) (.rd (.arr .y 46)))) (.mul (.rd (.arr .jac 2558)) (.rd (.arr .y 47)))) (.mul (.rd (.arr .jac 2612)) (.rd (.arr .y 48)))) (.mul (.rd (.arr .jac 2666)) (.rd (.arr .y 49)))) (.mul (.rd (.arr .jac 2720)) (.rd (.arr .y 50)))) (.mul (.rd (.arr .jac 2774)) (.rd (.arr .y 51)))) (.mul (.rd (.arr .jac 2828)) (.rd (.arr .y 52)))) (.mul (.rd (.arr .jac 2882)) (.rd (.arr .y 53)))),
  .set (.arr .dy 21) (.add (.add (.add (.add (.add (.add (.add (.add (.add (.add (.add (.add (.add (.add (.add (.add (.add (.add (.add (.add (.add (.add (.add (.add (.add (.add (.add (.add (.add (.add (.add (.add (.add (.add (.add (.add (.add (.add (.add (.add (.add (.add (.add (.add (.add (.add (.add (.add (.add (.add (.add (.add (.add (.mul (.rd (.arr .jac 21)) (.rd (.arr .y 0))) (.mul (.rd (.arr .jac 75)) (.rd (.arr .y 1)))) (.mul (.rd (.arr .jac 129)) (.rd (.arr .y 2)))) (.mul (.rd (.arr .jac 183)) (.rd (.arr .y 3)))) (.mul (.rd (.arr .jac 237)) (.rd (.arr .y 4)))) (.mul (.rd (.arr .jac 291)) (.rd (.arr .y 5)))) (.mul (.rd (.arr .jac 345)) (.rd (.arr .y 6)))) (.mul (.rd (.arr .jac 399)) (.rd (.arr .y 7)))) (.mul (.rd (.arr .jac 453)) (.rd (.arr .y 8)))) (.mul (.rd (.arr .jac 507)) (.rd (.arr .y 9)))) (.mul (.rd (.arr .jac 561)) (.rd (.arr .y 10)))) (.mul (.rd (.arr .jac 615)) (.rd (.arr .y 11)))) (.mul (.rd (.arr .jac 669)) (.rd (.arr .y 12)))) (.mul (.rd (.arr .jac 723)) (.rd (.arr .y 13)))) (.mul (.rd (.arr .jac 777)) (.rd (.arr .y 14)))) (.mul (.rd (.arr .jac 831)) (.rd (.arr .y 15)))) (.mul (.rd (.arr .jac 885)) (.rd (.arr .y 16)))) (.mul (.rd (.arr .jac 939)) (.rd (.arr .y 17)))) (.mul (.rd (.arr .jac 993)) (.rd (.arr .y 18)))) (.mul (.rd (.arr .jac 1047)) (.rd (.arr .y 19)))) (.mul (.rd (.arr .jac 1101)) (.rd (.arr .y 20)))) (.mul (.rd (.arr .jac 1155)) (.rd (.arr .y 21)))) (.mul (.rd (.arr .jac 1209)) (.rd (.arr .y 22)))) (.mul (.rd (.arr .jac 1263)) (.rd (.arr .y 23)))) (.mul (.rd (.arr .jac 1317)) (.rd (.arr .y 24)))) (.mul (.rd (.arr .jac 1371)) (.rd (.arr .y 25)))) (.mul (.rd (.arr .jac 1425)) (.rd (.arr .y 26)))) (.mul (.rd (.arr .jac 1479)) (.rd (.arr .y 27)))) (.mul (.rd (.arr .jac 1533)) (.rd (.arr .y 28)))) (.mul (.rd (.arr .jac 1587)) (.rd (.arr .y 29)))) (.mul (.rd (.arr .jac 1641)) (.rd (.arr .y 30)))) (.mul (.rd (.arr .jac 1695)) (.rd (.arr .y 31)))) (.mul (.rd (.arr .jac 1749)) (.rd (.arr .y 32)))) (.mul (.rd (.arr .jac 1803)) (.rd (.arr .y 33)))) (.mul (.rd (.arr .jac 1857)) (.rd (.arr .y 34)))) (.mul (.rd (.arr .jac 1911)) (.rd (.arr .y 35)))) (.mul (.rd (.arr .jac 1965)) (.rd (.arr .y 36)))) (.mul (.rd (.arr .jac 2019)) (.rd (.arr .y 37)))) (.mul (.rd (.arr .jac 2073)) (.rd (.arr .y 38)))) (.mul (.rd (.arr .jac 2127)) (.rd (.arr .y 39)))) (.mul (.rd (.arr .jac 2181)) (.rd (.arr .y 40)))) (.mul (.rd (.arr .jac 2235)) (.rd (.arr .y 41)))) (.mul (.rd (.arr .jac 2289)) (.rd (.arr .y 42)))) (.mul (.rd (.arr .jac 2343)) (.rd (.arr .y 43)))) (.mul (.rd (.arr .jac 2397)) (.rd (.arr .y 44)))) (.mul (.rd (.arr .jac 2451)) (.rd (.arr .y 45)))) (.mul (.rd (.arr .jac 2505)) (.rd (.arr .y 46)))) (.mul (.rd (.arr .jac 2559)) (.rd (.arr .y 47)))) (.mul (.rd (.arr .jac 2613)) (.rd (.arr .y 48)))) (.mul (.rd (.arr .jac 2667)) (.rd (.arr .y 49)))) (.mul (.rd (.arr .jac 2721)) (.rd (.arr .y 50)))) (.mul (.rd (.arr .jac 2775)) (.rd (.arr .y 51)))) (.mul (.rd (.arr .jac 2829)) (.rd (.arr .y 52)))) (.mul (.rd (.arr .jac 2883)) (.rd (.arr .y 53)))),
  .set (.arr .dy 22) (.add (.add (.add (.add (.add (.add (.add (.add (.add (.add (.add (.add (.add (.add (.add (.add (.add (.add (.add (.add (.add (.add (.add (.add (.add (.add (.add (.add (.add (.add (.add (.add (.add (.add (.add (.add (.add (.add (.add (.add (.add (.add (.add (.add (.add (.add (.add (.add (.add (.add (.add (.add (.add (.mul (.rd (.arr .jac 22)) (.rd (.arr .y 0))) (.mul (.rd (.arr .jac 76)) (.rd (.arr .y 1)))) (.mul (.rd (.arr .jac 130)) (.rd (.arr .y 2)))) (.mul (.rd (.arr .jac 184)) (.rd (.arr .y 3)))) (.mul (.rd (.arr .jac 238)) (.rd (.arr .y 4)))) (.mul (.rd (.arr .jac 292)) (.rd (.arr .y 5)))) (.mul (.rd (.arr .jac 346)) (.rd (.arr .y 6)))) (.mul (.rd (.arr .jac 400)) (.rd (.arr .y 7)))) (.mul (.rd (.arr .jac 454)) (.rd (.arr .y 8)))) (.mul (.rd (.arr .jac 508)) (.rd (.arr .y 9)))) (.mul (.rd (.arr .jac 562)) (.rd (.arr .y 10)))) (.mul (.rd (.arr .jac 616)) (.rd (.arr .y 11)))) (.mul (.rd (.arr .jac 670)) (.rd (.arr .y 12)))) (.mul (.rd (.arr .jac 724)) (.rd (.arr .y 13)))) (.mul (.rd (.arr .jac 778)) (.rd (.arr .y 14)))) (.mul (.rd (.arr .jac 832)) (.rd (.arr .y 15)))) (.mul (.rd (.arr .jac 886)) (.rd (.arr .y 16)))) (.mul (.rd (.arr .jac 940)) (.rd (.arr .y 17)))) (.mul (.rd (.arr .jac 994)) (.rd (.arr .y 18)))) (.mul (.rd (.arr .jac 1048)) (.rd (.arr .y 19)))) (.mul (.rd (.arr .jac 1102)) (.rd (.arr .y 20)))) (.mul (.rd (.arr .jac 1156)) (.rd (.arr .y 21)))) (.mul (.rd (.arr .jac 1210)) (.rd (.arr .y 22)))) (.mul (.rd (.arr .jac 1264)) (.rd (.arr .y 23)))) (.mul (.rd (.arr .jac 1318)) (.rd (.arr .y 24)))) (.mul (.rd (.arr .jac 1372)) (.rd (.arr .y 25)))) (.mul (.rd (.arr .jac 1426)) (.rd (.arr .y 26)))) (.mul (.rd (.arr .jac 1480)) (.rd (.arr .y 27)))) (.mul (.rd (.arr .jac 1534)) (.rd (.arr .y 28)))) (.mul (.rd (.arr .jac 1588)) (.rd (.arr .y 29)))) (.mul (.rd (.arr .jac 1642)) (.rd (.arr .y 30)))) (.mul (.rd (.arr .jac 1696)) (.rd (.arr .y 31)))) (.mul (.rd (.arr .jac 1750)) (.rd (.arr .y 32)))) (.mul (.rd (.arr .jac 1804)) (.rd (.arr .y 33)))) (.mul (.rd (.arr .jac 1858)) (.rd (.arr .y 34)))) (.mul (.rd (.arr .jac 1912)) (.rd (.arr .y 35)))) (.mul (.rd (.arr .jac 1966)) (.rd (.arr .y 36)))) (.mul (.rd (.arr .jac 2020)) (.rd (.arr .y 37)))) (.mul (.rd (.arr .jac 2074)) (.rd (.arr .y 38)))) (.mul (.rd (.arr .jac 2128)) (.rd (.arr .y 39)))) (.mul (.rd (.arr .jac 2182)) (.rd (.arr .y 40)))) (.mul (.rd (.arr .jac 2236)) (.rd (.arr .y 41)))) (.mul (.rd (.arr .jac 2290)) (.rd (.arr .y 42)))) (.mul (.rd (.arr .jac 2344)) (.rd (.arr .y 43)))) (.mul (.rd (.arr .jac 2398)) (.rd (.arr .y 44)))) (.mul (.rd (.arr .jac 2452)) (.rd (.arr .y 45)))) (.mul (.rd (.arr .jac 2506)) (.rd (.arr .y 46)))) (.mul (.rd (.arr .jac 2560)) (.rd (.arr .y 47)))) (.mul (.rd (.arr .jac 2614)) (.rd (.arr .y 48)))) (.mul (.rd (.arr .jac 2668)) (.rd (.arr .y 49)))) (.mul (.rd (.arr .jac 2722)) (.rd (.arr .y 50)))) (.mul (.rd (.arr .jac 2776)) (.rd (.arr .y 51)))) (.mul (.rd (.arr .jac 2830)) (.rd (.arr .y 52)))) (.mul (.rd (.arr .jac 2884)) (.rd (.arr .y 53)))),
  .set (.arr .dy 23) (.add (.add (.add (.add (.add (.add (.add (.add (.add (.add (.add (.add (.add (.add (.add (.add (.add (.add (.add (.add (.add (.add (.add (.add (.add (.add (.add (.add (.add (.add (.add (.add (.add (.add (.add (.add (.add (.add (.add (.add (.add (.add (.add (.add (.add (.add (.add (.add (.add (.add (.add (.add (.add (.mul (.rd (.arr .jac 23)) (.rd (.arr .y 0))) (.mul (.rd (.arr .jac 77)) (.rd (.arr .y 1)))) (.mul (.rd (.arr .jac 131)) (.rd (.arr .y 2)))) (.mul (.rd (.arr .jac 185)) (.rd (.arr .y 3)))) (.mul (.rd (.arr .jac 239)) (.rd (.arr .y 4)))) (.mul (.rd (.arr .jac 293)) (.rd (.arr .y 5)))) (.mul (.rd (.arr .jac 347)) (.rd (.arr .y 6)))) (.mul (.rd (.arr .jac 401)) (.rd (.arr .y 7)))) (.mul (.rd (.arr .jac 455)) (.rd (.arr .y 8)))) (.mul (.rd (.arr .jac 509)) (.rd (.arr .y 9)))) (.mul (.rd (.arr .jac 563)) (.rd (.arr .y 10)))) (.mul (.rd (.arr .jac 617)) (.rd (.arr .y 11)))) (.mul (.rd (.arr .jac 671)) (.rd (.arr .y 12)))) (.mul (.rd (.arr .jac 725)) (.rd (.arr .y 13)))) (.mul (.rd (.arr .jac 779)) (.rd (.arr .y 14)))) (.mul (.rd (.arr .jac 833)) (.rd (.arr .y 15)))) (.mul (.rd (.arr .jac 887)) (.rd (.arr .y 16)))) (.mul (.rd (.arr .jac 941)) (.rd (.arr .y 17)))) (.mul (.rd (.arr .jac 995)) (.rd (.arr .y 18)))) (.mul (.rd (.arr .jac 1049)) (.rd (.arr .y 19)))) (.mul (.rd (.arr .jac 1103)) (.rd (.arr .y 20)))) (.mul (.rd (.arr .jac 1157)) (.rd (.arr .y 21)))) (.mul (.rd (.arr .jac 1211)) (.rd (.arr .y 22)))) (.mul (.rd (.arr .jac 1265)) (.rd (.arr .y 23)))) (.mul (.rd (.arr .jac 1319)) (.rd (.arr .y 24)))) (.mul (.rd (.arr .jac 1373)) (.rd (.arr .y 25)))) (.mul (.rd (.arr .jac 1427)) (.rd (.arr .y 26)))) (.mul (.rd (.arr .jac 1481)) (.rd (.arr .y 27)))) (.mul (.rd (.arr .jac 1535)) (.rd (.arr .y 28)))) (.mul (.rd (.arr .jac 1589)) (.rd (.arr .y 29)))) (.mul (.rd (.arr .jac 1643)) (.rd (.arr .y 30)))) (.mul (.rd (.arr .jac 1697)) (.rd (.arr .y 31)))) (.mul (.rd (.arr .jac 1751)) (.rd (.arr .y 32)))) (.mul (.rd (.arr .jac 1805)) (.rd (.arr .y 33)))) (.mul (.rd (.arr .jac 1859)) (.rd (.arr .y 34)))) (.mul (.rd (.arr .jac 1913)) (.rd (.arr .y 35)))) (.mul (.rd (.arr .jac 1967)) (.rd (.arr .y 36)))) (.mul (.rd (.arr .jac 2021)) (.rd (.arr .y 37)))) (.mul (.rd (.arr .jac 2075)) (.rd (.arr .y 38)))) (.mul (.rd (.arr .jac 2129)) (.rd (.arr .y 39)))) (.mul (.rd (.arr .jac 2183)) (.rd (.arr .y 40)))) (.mul (.rd (.arr .jac 2237)) (.rd (.arr .y 41)))) (.mul (.rd (.arr .jac 2291)) (.rd (.arr .y 42)))) (.mul (.rd (.arr .jac 2345)) (.rd (.arr .y 43)))) (.mul (.rd (.arr .jac 2399)) (.rd (.arr .y 44)))) (.mul (.rd (.arr .jac 2453)) (.rd (.arr .y 45)))) (.mul (.rd (.arr .jac 2507)) (.rd (.arr .y 46)))) (.mul (.rd (.arr .jac 2561)) (.rd (.arr .y 47)))) (.mul (.rd (.arr .jac 2615)) (.rd (.arr .y 48)))) (.mul (.rd (.arr .jac 2669)) (.rd (.arr .y 49)))) (.mul (.rd (.arr .jac 2723)) (.rd (.arr .y 50)))) (.mul (.rd (.arr .jac 2777)) (.rd (.arr .y 51)))) (.mul (.rd (.arr .jac 2831)) (.rd (.arr .y 52)))) (.mul (.rd (.arr .jac 2885)) (.rd (.arr .y 53)))),
  .set (.arr .dy 24) (.add (.add (.add (.add (.add (.add (.add (.add (.add (.add (.add (.add (.add (.add (.add (.add (.add (.add (.add (.add (.add (.add (.add (.add (.add (.add (.add (.add (.add (.add (.add (.add (.add (.add (.add (.add (.add (.add (.add (.add (.add (.add (.add (.add (.add (.add (.add (.add (.add (.add (.add (.add (.add (.mul (.rd (.arr .jac 24)) (.rd (.arr .y 0))) (.mul (.rd (.arr .jac 78)) (.rd (.arr .y 1)))) (.mul (.rd (.arr .jac 132)) (.rd (.arr .y 2)))) (.mul (.rd (.arr .jac 186)) (.rd (.arr .y 3)))) (.mul (.rd (.arr .jac 240)) (.rd (.arr .y 4)))) (.mul (.rd (.arr .jac 294)) (.rd (.arr .y 5)))) (.mul (.rd (.arr .jac 348)) (.rd (.arr .y 6)))) (.mul (.rd (.arr .jac 402)) (.rd (.arr .y 7)))) (.mul (.rd (.arr .jac 456)) (.rd (.arr .y 8)))) (.mul (.rd (.arr .jac 510)) (.rd (.arr .y 9)))) (.mul (.rd (.arr .jac 564)) (.rd (.arr .y 10)))) (.mul (.rd (.arr .jac 618)) (.rd (.arr .y 11)))) (.mul (.rd (.arr .jac 672)) (.rd (.arr .y 12)))) (.mul (.rd (.arr .jac 726)) (.rd (.arr .y 13)))) (.mul (.rd (.arr .jac 780)) (.rd (.arr .y 14)))) (.mul (.rd (.arr .jac 834)) (.rd (.arr .y 15)))) (.mul (.rd (.arr .jac 888)) (.rd (.arr .y 16)))) (.mul (.rd (.arr .jac 942)) (.rd (.arr .y 17)))) (.mul (.rd (.arr .jac 996)) (.rd (.arr .y 18)))) (.mul (.rd (.arr .jac 1050)) (.rd (.arr .y 19)))) (.mul (.rd (.arr .jac 1104)) (.rd (.arr .y 20)))) (.mul (.rd (.arr .jac 1158)) (.rd (.arr .y 21)))) (.mul (.rd (.arr .jac 1212)) (.rd (.arr .y 22)))) (.mul (.rd (.arr .jac 1266)) (.rd (.arr .y 23)))) (.mul (.rd (.arr .jac 1320)) (.rd (.arr .y 24)))) (.mul (.rd (.arr .jac 1374)) (.rd (.arr .y 25)))) (.mul (.rd (.arr .jac 1428)) (.rd (.arr .y 26)))) (.mul (.rd (.arr .jac 1482)) (.rd (.arr .y 27)))) (.mul (.rd (.arr .jac 1536)) (.rd (.arr .y 28)))) (.mul (.rd (.arr .jac 1590)) (.rd (.arr .y 29)))) (.mul (.rd (.arr .jac 1644)) (.rd (.arr .y 30)))) (.mul (.rd (.arr .jac 1698)) (.rd (.arr .y 31)))) (.mul (.rd (.arr .jac 1752)) (.rd (.arr .y 32)))) (.mul (.rd (.arr .jac 1806)) (.rd (.arr .y 33)))) (.mul (.rd (.arr .jac 1860)) (.rd (.arr .y 34)))) (.mul (.rd (.arr .jac 1914)) (.rd (.arr .y 35)))) (.mul (.rd (.arr .jac 1968)) (.rd (.arr .y 36)))) (.mul (.rd (.arr .jac 2022)) (.rd (.arr .y 37)))) (.mul (.rd (.arr .jac 2076)) (.rd (.arr .y 38)))) (.mul (.rd (.arr .jac 2130)) (.rd (.arr .y 39)))) (.mul (.rd (.arr .jac 2184)) (.rd (.arr .y 40)))) (.mul (.rd (.arr .jac 2238)) (.rd (.arr .y 41)))) (.mul (.rd (.arr .jac 2292)) (.rd (.arr .y 42)))) (.mul (.rd (.arr .jac 2346)) (.rd (.arr .y 43)))) (.mul (.rd (.arr .jac 2400)) (.rd (.arr .y 44)))) (.mul (.rd (.arr .jac 2454)) (.rd (.arr .y 45)))) (.mul (.rd (.arr .jac 2508)) (.rd (.arr .y 46)))) (.mul (.rd (.arr .jac 2562)) (.rd (.arr .y 47)))) (.mul (.rd (.arr .jac 2616)) (.rd (.arr .y 48)))) (.mul (.rd (.arr .jac 2670)) (.rd (.arr .y 49)))) (.mul (.rd (.arr .jac 2724)) (.rd (.arr .y 50)))) (.mul (.rd (.arr .jac 2778)) (.rd (.arr .y 51)))) (.mul (.rd (.arr .jac 2832)) (.rd (.arr .y 52)))) (.mul (.rd (.arr .jac 2886)) (.rd (.arr .y 53)))),
  .set (.arr .dy 25) (.add (.add (.add (.add (.add (.add (.add (.add (.add (.add (.add (.add (.add (.add (.add (.add (.add (.add (.add (.add (.add (.add (.add (.add (.add (.add (.add (.add (.add (.add (.add (.add (.add (.add (.add (.add (.add (.add (.add (.add (.add (.add (.add (.add (.add (.add (.add (.add (.add (.add (.add (.add (.add (.mul (.rd (.arr .jac 25)) (.rd (.arr .y 0))) (.mul (.rd (.arr .jac 79)) (.rd (.arr .y 1)))) (.mul (.rd (.arr .jac 133)) (.rd (.arr .y 2)))) (.mul (.rd (.arr .jac 187)) (.rd (.arr .y 3)))) (.mul (.rd (.arr .jac 241)) (.rd (.arr .y 4)))) (.mul (.rd (.arr .jac 295)) (.rd (.arr .y 5)))) (.mul (.rd (.arr .jac 349)) (.rd (.arr .y 6)))) (.mul (.rd (.arr .jac 403)) (.rd (.arr .y 7)))) (.mul (.rd (.arr .jac 457)) (.rd (.arr .y 8)))) (.mul (.rd (.arr .jac 511)) (.rd (.arr .y 9)))) (.mul (.rd (.arr .jac 565)) (.rd (.arr .y 10)))) (.mul (.rd (.arr .jac 619)) (.rd (.arr .y 11)))) (.mul (.rd (.arr .jac 673)) (.rd (.arr .y 12)))) (.mul (.rd (.arr .jac 727)) (.rd (.arr .y 13)))) (.mul (.rd (.arr .jac 781)) (.rd (.arr .y 14)))) (.mul (.rd (.arr .jac 835)) (.rd (.arr .y 15)))) (.mul (.rd (.arr .jac 889)) (.rd (.arr .y 16)))) (.mul (.rd (.arr .jac 943)) (.rd (.arr .y 17)))) (.mul (.rd (.arr .jac 997)) (.rd (.arr .y 18)))) (.mul (.rd (.arr .jac 1051)) (.rd (.arr .y 19)))) (.mul (.rd (.arr .jac 1105)) (.rd (.arr .y 20)))) (.mul (.rd (.arr .jac 1159)) (.rd (.arr .y 21)))) (.mul (.rd (.arr .jac 1213)) (.rd (.arr .y 22)))) (.mul (.rd (.arr .jac 1267)) (.rd (.arr .y 23)))) (.mul (.rd (.arr .jac 1321)) (.rd (.arr .y 24)))) (.mul (.rd (.arr .jac 1375)) (.rd (.arr .y 25)))) (.mul (.rd (.arr .jac 1429)) (.rd (.arr .y 26)))) (.mul (.rd (.arr .jac 1483)) (.rd (.arr .y 27)))) (.mul (.rd (.arr .jac 1537)) (.rd (.arr .y 28)))) (.mul (.rd (.arr .jac 1591)) (.rd (.arr .y 29)))) (.mul (.rd (.arr .jac 1645)) (.rd (.arr .y 30)))) (.mul (.rd (.arr .jac 1699)) (.rd (.arr .y 31)))) (.mul (.rd (.arr .jac 1753)) (.rd (.arr .y 32)))) (.mul (.rd (.arr .jac 1807)) (.rd (.arr .y 33)))) (.mul (.rd (.arr .jac 1861)) (.rd (.arr .y 34)))) (.mul (.rd (.arr .jac 1915)) (.rd (.arr .y 35)))) (.mul (.rd (.arr .jac 1969)) (.rd (.arr .y 36)))) (.mul (.rd (.arr .jac 2023)) (.rd (.arr .y 37)))) (.mul (.rd (.arr .jac 2077)) (.rd (.arr .y 38)))) (.mul (.rd (.arr .jac 2131)) (.rd (.arr .y 39)))) (.mul (.rd (.arr .jac 2185)) (.rd (.arr .y 40)))) (.mul (.rd (.arr .jac 2239)) (.rd (.arr .y 41)))) (.mul (.rd (.arr .jac 2293)) (.rd (.arr .y 42)))) (.mul (.rd (.arr .jac 2347)) (.rd (.arr .y 43)))) (.mul (.rd (.arr .jac 2401)) (.rd (.arr .y 44)))) (.mul (.rd (.arr .jac 2455)) (.rd (.arr .y 45)))) (.mul (.rd (.arr .jac 2509)) (.rd (.arr .y 46)))) (.mul (.rd (.arr .jac 2563)) (.rd (.arr .y 47)))) (.mul (.rd (.arr .jac 2617)) (.rd (.arr .y 48)))) (.mul (.rd (.arr .jac 2671)) (.rd (.arr .y 49)))) (.mul (.rd (.arr .jac 2725)) (.rd (.arr .y 50)))) (.mul (.rd (.arr .jac 2779)) (.rd (.arr .y 51)))) (.mul (.rd (.arr .jac 2833)) (.rd (.arr .y 52)))) (.mul (.rd (.arr .jac 2887)) (.rd (.arr .y 53)))),
  .set (.arr .dy 26) (.add (.add (.add (.add (.add (.add (.add (.add (.add (.add (.add (.add (.add (.add (.add (.add (.add (.add (.add (.add (.add (.add (.add (.add (.add (.add (.add (.add (.add (.add (.add (.add (.add (.add (.add (.add (.add (.add (.add (.add (.add (.add (.add (.add (.add (.add (.add (.add (.add (.add (.add (.add (.add (.mul (.rd (.arr .jac 26)) (.rd (.arr .y 0))) (.mul (.rd (.arr .jac 80)) (.rd (.arr .y 1)))) (.mul (.rd (.arr .jac 134)) (.rd (.arr .y 2)))) (.mul (.rd (.arr .jac 188)) (.rd (.arr .y 3)))) (.mul (.rd (.arr .jac 242)) (.rd (.arr .y 4)))) (.mul (.rd (.arr .jac 296)) (.rd (.arr .y 5)))) (.mul (.rd (.arr .jac 350)) (.rd (.arr .y 6)))) (.mul (.rd (.arr .jac 404)) (.rd (.arr .y 7)))) (.mul (.rd (.arr .jac 458)) (.rd (.arr .y 8)))) (.mul (.rd (.arr .jac 512)) (.rd (.arr .y 9)))) (.mul (.rd (.arr .jac 566)) (.rd (.arr .y 10)))) (.mul (.rd (.arr .jac 620)) (.rd (.arr .y 11)))) (.mul (.rd (.arr .jac 674)) (.rd (.arr .y 12)))) (.mul (.rd (.arr .jac 728)) (.rd (.arr .y 13)))) (.mul (.rd (.arr .jac 782)) (.rd (.arr .y 14)))) (.mul (.rd (.arr .jac 836)) (.rd (.arr .y 15)))) (.mul (.rd (.arr .jac 890)) (.rd (.arr .y 16)))) (.mul (.rd (.arr .jac 944)) (.rd (.arr .y 17)))) (.mul (.rd (.arr .jac 998)) (.rd (.arr .y 18)))) (.mul (.rd (.arr .jac 1052)) (.rd (.arr .y 19)))) (.mul (.rd (.arr .jac 1106)) (.rd (.arr .y 20)))) (.mul (.rd (.arr .jac 1160)) (.rd (.arr .y 21)))) (.mul (.rd (.arr .jac 1214)) (.rd (.arr .y 22)))) (.mul (.rd (.arr .jac 1268)) (.rd (.arr .y 23)))) (.mul (.rd (.arr .jac 1322)) (.rd (.arr .y 24)))) (.mul (.rd (.arr .jac 1376)) (.rd (.arr .y 25)))) (.mul (.rd (.arr .jac 1430)) (.rd (.arr .y 26)))) (.mul (.rd (.arr .jac 1484)) (.rd (.arr .y 27)))) (.mul (.rd (.arr .jac 1538)) (.rd (.arr .y 28)))) (.mul (.rd (.arr .jac 1592)) (.rd (.arr .y 29)))) (.mul (.rd (.arr .jac 1646)) (.rd (.arr .y 30)))) (.mul (.rd (.arr .jac 1700)) (.rd (.arr .y 31)))) (.mul (.rd (.arr .jac 1754)) (.rd (.arr .y 32)))) (.mul (.rd (.arr .jac 1808)) (.rd (.arr .y 33)))) (.mul (.rd (.arr .jac 1862)) (.rd (.arr .y 34)))) (.mul (.rd (.arr .jac 1916)) (.rd (.arr .y 35)))) (.mul (.rd (.arr .jac 1970)) (.rd (.arr .y 36)))) (.mul (.rd (.arr .jac 2024)) (.rd (.arr .y 37)))) (.mul (.rd (.arr .jac 2078)) (.rd (.arr .y 38)))) (.mul (.rd (.arr .jac 2132)) (.rd (.arr .y 39)))) (.mul (.rd (.arr .jac 2186)) (.rd (.arr .y 40)))) (.mul (.rd (.arr .jac 2240)) (.rd (.arr .y 41)))) (.mul (.rd (.arr .jac 2294)) (.rd (.arr .y 42)))) (.mul (.rd (.arr .jac 2348)) (.rd (.arr .y 43)))) (.mul (.rd (.arr .jac 2402)) (.rd (.arr .y 44)))) (.mul (.rd (.arr .jac 2456)) (.rd (.arr .y 45)))) (.mul (.rd (.arr .jac 2510)) (.rd (.arr .y 46)))) (.mul (.rd (.arr .jac 2564)) (.rd (.arr .y 47)))) (.mul (.rd (.arr .jac 2618)) (.rd (.arr .y 48)))) (.mul (.rd (.arr .jac 2672)) (.rd (.arr .y 49)))) (.mul (.rd (.arr .jac 2726)) (.rd (.arr .y 50)))) (.mul (.rd (.arr .jac 2780)) (.rd (.arr .y 51)))) (.mul (.rd (.arr .jac 2834)) (.rd (.arr .y 52)))) (.mul (.rd (.arr .jac 2888)) (.rd (.arr .y 53)))),
  .set (.arr .dy 27) (.add (.add (.add (.add (.add (.add (.add (.add (.add (.add (.add (.add (.add (.add (.add (.add (.add (.add (.add (.add (.add (.add (.add (.add (.add (.add (.add (.add (.add (.add (.add (.add (.add (.add (.add (.add (.add (.add (.add (.add (.add (.add (.add (.add (.add (.add (.add (.add (.add (.add (.add (.add (.add (.mul (.rd (.arr .jac 27)) (.rd (.arr .y 0))) (.mul (.rd (.arr .jac 81)) (.rd (.arr .y 1)))) (.mul (.rd (.arr .jac 135)) (.rd (.arr .y 2)))) (.mul (.rd (.arr .jac 189)) (.rd (.arr .y 3)))) (.mul (.rd (.arr .jac 243)) (.rd (.arr .y 4)))) (.mul (.rd (.arr .jac 297)) (.rd (.arr .y 5)))) (.mul (.rd (.arr .jac 351)) (.rd (.arr .y 6)))) (.mul (.rd (.arr .jac 405)) (.rd (.arr .y 7)))) (.mul (.rd (.arr .jac 459)) (.rd (.arr .y 8)))) (.mul (.rd (.arr .jac 513)) (.rd (.arr .y 9)))) (.mul (.rd (.arr .jac 567)) (.rd (.arr .y 10)))) (.mul (.rd (.arr .jac 621)) (.rd (.arr .y 11)))) (.mul (.rd (.arr .jac 675)) (.rd (.arr .y 12)))) (.mul (.rd (.arr .jac 729)) (.rd (.arr .y 13)))) (.mul (.rd (.arr .jac 783)) (.rd (.arr .y 14)))) (.mul (.rd (.arr .jac 837)) (.rd (.arr .y 15)))) (.mul (.rd (.arr .jac 891)) (.rd (.arr .y 16)))) (.mul (.rd (.arr .jac 945)) (.rd (.arr .y 17)))) (.mul (.rd (.arr .jac 999)) (.rd (.arr .y 18)))) (.mul (.rd (.arr .jac 1053)) (.rd (.arr .y 19)))) (.mul (.rd (.arr .jac 1107)) (.rd (.arr .y 20)))) (.mul (.rd (.arr .jac 1161)) (.rd (.arr .y 21)))) (.mul (.rd (.arr .jac 1215)) (.rd (.arr .y 22)))) (.mul (.rd (.arr .jac 1269)) (.rd (.arr .y 23)))) (.mul (.rd (.arr .jac 1323)) (.rd (.arr .y 24)))) (.mul (.rd (.arr .jac 1377)) (.rd (.arr .y 25)))) (.mul (.rd (.arr .jac 1431)) (.rd (.arr .y 26)))) (.mul (.rd (.arr .jac 1485)) (.rd (.arr .y 27)))) (.mul (.rd (.arr .jac 1539)) (.rd (.arr .y 28)))) (.mul (.rd (.arr .jac 1593)) (.rd (.arr .y 29)))) (.mul (.rd (.arr .jac 1647)) (.rd (.arr .y 30)))) (.mul (.rd (.arr .jac 1701)) (.rd (.arr .y 31)))) (.mul (.rd (.arr .jac 1755)) (.rd (.arr .y 32)))) (.mul (.rd (.arr .jac 1809)) (.rd (.arr .y 33)))) (.mul (.rd (.arr .jac 1863)) (.rd (.arr .y 34)))) (.mul (.rd (.arr .jac 1917)) (.rd (.arr .y 35)))) (.mul (.rd (.arr .jac 1971)) (.rd (.arr .y 36)))) (.mul (.rd (.arr .jac 2025)) (.rd (.arr .y 37)))) (.mul (.rd (.arr .jac 2079)) (.rd (.arr .y 38)))) (.mul (.rd (.arr .jac 2133)) (.rd (.arr .y 39)))) (.mul (.rd (.arr .jac 2187)) (.rd (.arr .y 40)))) (.mul (.rd (.arr .jac 2241)) (.rd (.arr .y 41)))) (.mul (.rd (.arr .jac 2295)) (.rd (.arr .y 42)))) (.mul (.rd (.arr .jac 2349)) (.rd (.arr .y 43)))) (.mul (.rd (.arr .jac 2403)) (.rd (.arr .y 44)))) (.mul (.rd (.arr .jac 2457)) (.rd (.arr .y 45)))) (.mul (.rd (.arr .jac 2511)) (.rd (.arr .y 46)))) (.mul (.rd (.arr .jac 2565)) (.rd (.arr .y 47)))) (.mul (.rd (.arr .jac 2619)) (.rd (.arr .y 48)))) (.mul (.rd (.arr .jac 2673)) (.rd (.arr .y 49)))) (.mul (.rd (.arr .jac 2727)) (.rd (.arr .y 50)))) (.mul (.rd (.arr .jac 2781)) (.rd (.arr .y 51)))) (.mul (.rd (.arr .jac 2835)) (.rd (.arr .y 52)))) (.mul (.rd (.arr .jac 2889)) (.rd (.arr .y 53)))),
  .set (.arr .dy 28) (.add (.add (.add (.add (.add (.add (.add (.add (.add (.add (.add (.add (.add (.add (.add (.add (.add (.add (.add (.add (.add (.add (.add (.add (.add (.add (.add (.add (.add (.add (.add (.add (.add (.add (.add (.add (.add (.add (.add (.add (.add (.add (.add (.add (.add (.add (.add (.add (.add (.add (.add (.add (.add (.mul (.rd (.arr .jac 28)) (.rd (.arr .y 0))) (.mul (.rd (.arr .jac 82)) (.rd (.arr .y 1)))) (.mul (.rd (.arr .jac 136)) (.rd (.arr .y 2)))) (.mul (.rd (.arr .jac 190)) (.rd (.arr .y 3)))) (.mul (.rd (.arr .jac 244)) (.rd (.arr .y 4)))) (.mul (.rd (.arr .jac 298)) (.rd (.arr .y 5)))) (.mul (.rd (.arr .jac 352)) (.rd (.arr .y 6)))) (.mul (.rd (.arr .jac 406)) (.rd (.arr .y 7)))) (.mul (.rd (.arr .jac 460)) (.rd (.arr .y 8)))) (.mul (.rd (.arr .jac 514)) (.rd (.arr .y 9)))) (.mul (.rd (.arr .jac 568)) (.rd (.arr .y 10)))) (.mul (.rd (.arr .jac 622)) (.rd (.arr .y 11)))) (.mul (.rd (.arr .jac 676)) (.rd (.arr .y 12)))) (.mul (.rd (.arr .jac 730)) (.rd (.arr .y 13)))) (.mul (.rd (.arr .jac 784)) (.rd (.arr .y 14)))) (.mul (.rd (.arr .jac 838)) (.rd (.arr .y 15)))) (.mul (.rd (.arr .jac 892)) (.rd (.arr .y 16)))) (.mul (.rd (.arr .jac 946)) (.rd (.arr .y 17)))) (.mul (.rd (.arr .jac 1000)) (.rd (.arr .y 18)))) (.mul (.rd (.arr .jac 1054)) (.rd (.arr .y 19)))) (.mul (.rd (.arr .jac 1108)) (.rd (.arr .y 20)))) (.mul (.rd (.arr .jac 1162)) (.rd (.arr .y 21)))) (.mul (.rd (.arr .jac 1216)) (.rd (.arr .y 22)))) (.mul (.rd (.arr .jac 1270)) (.rd (.arr .y 23)))) (.mul (.rd (.arr .jac 1324)) (.rd (.arr .y 24)))) (.mul (.rd (.arr .jac 1378)) (.rd (.arr .y 25)))) (.mul (.rd (.arr .jac 1432)) (.rd (.arr .y 26)))) (.mul (.rd (.arr .jac 1486)) (.rd (.arr .y 27)))) (.mul (.rd (.arr .jac 1540)) (.rd (.arr .y 28)))) (.mul (.rd (.arr .jac 1594)) (.rd (.arr .y 29)))) (.mul (.rd (.arr .jac 1648)) (.rd (.arr .y 30)))) (.mul (.rd (.arr .jac 1702)) (.rd (.arr .y 31)))) (.mul (.rd (.arr .jac 1756)) (.rd (.arr .y 32)))) (.mul (.rd (.arr .jac 1810)) (.rd (.arr .y 33)))) (.mul (.rd (.arr .jac 1864)) (.rd (.arr .y 34)))) (.mul (.rd (.arr .jac 1918)) (.rd (.arr .y 35)))) (.mul (.rd (.arr .jac 1972)) (.rd (.arr .y 36)))) (.mul (.rd (.arr .jac 2026)) (.rd (.arr .y 37)))) (.mul (.rd (.arr .jac 2080)) (.rd (.arr .y 38)))) (.mul (.rd (.arr .jac 2134)) (.rd (.arr .y 39)))) (.mul (.rd (.arr .jac 2188)) (.rd (.arr .y 40)))) (.mul (.rd (.arr .jac 2242)) (.rd (.arr .y 41)))) (.mul (.rd (.arr .jac 2296)) (.rd (.arr .y 42)))) (.mul (.rd (.arr .jac 2350)) (.rd (.arr .y 43)))) (.mul (.rd (.arr .jac 2404)) (.rd (.arr .y 44)))) (.mul (.rd (.arr .jac 2458)) (.rd (.arr .y 45)))) (.mul (.rd (.arr .jac 2512)) (.rd (.arr .y 46)))) (.mul (.rd (.arr .jac 2566)) (.rd (.arr .y 47)))) (.mul (.rd (.arr .jac 2620)) (.rd (.arr .y 48)))) (.mul (.rd (.arr .jac 2674)) (.rd (.arr .y 49)))) (.mul (.rd (.arr .jac 2728)) (.rd (.arr .y 50)))) (.mul (.rd (.arr .jac 2782)) (.rd (.arr .y 51)))) (.mul (.rd (.arr .jac 2836)) (.rd (.arr .y 52)))) (.mul (.rd (.arr .jac 2890)) (.rd (.arr .y 53)))),
  .set (.arr .dy 29) (.add (.add (.add (.add (.add (.add (.add (.add (.add (.add (.add (.add (.add (.add (.add (.add (.add (.add (.add (.add (.add (.add (.add (.add (.add (.add (.add (.add (.add (.add (.add (.add (.add (.add (.add (.add (.add (.add (.add (.add (.add (.add (.add (.add (.add (.add (.add (.add (.add (.add (.add (.add (.add (.mul (.rd (.arr .jac 29)) (.rd (.arr .y 0))) (.mul (.rd (.arr .jac 83)) (.rd (.arr .y 1)))) (.mul (.rd (.arr .jac 137)) (.rd (.arr .y 2)))) (.mul (.rd (.arr .jac 191)) (.rd (.arr .y 3)))) (.mul (.rd (.arr .jac 245)) (.rd (.arr .y 4)))) (.mul (.rd (.arr .jac 299)) (.rd (.arr .y 5)))) (.mul (.rd (.arr .jac 353)) (.rd (.arr .y 6)))) (.mul (.rd (.arr .jac 407)) (.rd (.arr .y 7)))) (.mul (.rd (.arr .jac 461)) (.rd (.arr .y 8)))) (.mul (.rd (.arr .jac 515)) (.rd (.arr .y 9)))) (.mul (.rd (.arr .jac 569)) (.rd (.arr .y 10)))) (.mul (.rd (.arr .jac 623)) (.rd (.arr .y 11)))) (.mul (.rd (.arr .jac 677)) (.rd (.arr .y 12)))) (.mul (.rd (.arr .jac 731)) (.rd (.arr .y 13)))) (.mul (.rd (.arr .jac 785)) (.rd (.arr .y 14)))) (.mul (.rd (.arr .jac 839)) (.rd (.arr .y 15)))) (.mul (.rd (.arr .jac 893)) (.rd (.arr .y 16)))) (.mul (.rd (.arr .jac 947)) (.rd (.arr .y 17)))) (.mul (.rd (.arr .jac 1001)) (.rd (.arr .y 18)))) (.mul (.rd (.arr .jac 1055)) (.rd (.arr .y 19)))) (.mul (.rd (.arr .jac 1109)) (.rd (.arr .y 20)))) (.mul (.rd (.arr .jac 1163)) (.rd (.arr .y 21)))) (.mul (.rd (.arr .jac 1217)) (.rd (.arr .y 22)))) (.mul (.rd (.arr .jac 1271)) (.rd (.arr .y 23)))) (.mul (.rd (.arr .jac 1325)) (.rd (.arr .y 24)))) (.mul (.rd (.arr .jac 1379)) (.rd (.arr .y 25)))) (.mul (.rd (.arr .jac 1433)) (.rd (.arr .y 26)))) (.mul (.rd (.arr .jac 1487)) (.rd (.arr .y 27)))) (.mul (.rd (.arr .jac 1541)) (.rd (.arr .y 28)))) (.mul (.rd (.arr .jac 1595)) (.rd (.arr .y 29)))) (.mul (.rd (.arr .jac 1649)) (.rd (.arr .y 30)))) (.mul (.rd (.arr .jac 1703)) (.rd (.arr .y 31)))) (.mul (.rd (.arr .jac 1757)) (.rd (.arr .y 32)))) (.mul (.rd (.arr .jac 1811)) (.rd (.arr .y 33)))) (.mul (.rd (.arr .jac 1865)) (.rd (.arr .y 34)))) (.mul (.rd (.arr .jac 1919)) (.rd (.arr .y 35)))) (.mul (.rd (.arr .jac 1973)) (.rd (.arr .y 36)))) (.mul (.rd (.arr .jac 2027)) (.rd (.arr .y 37)))) (.mul (.rd (.arr .jac 2081)) (.rd (.arr .y 38)))) (.mul (.rd (.arr .jac 2135)) (.rd (.arr .y 39)))) (.mul (.rd (.arr .jac 2189)) (.rd (.arr .y 40)))) (.mul (.rd (.arr .jac 2243)) (.rd (.arr .y 41)))) (.mul (.rd (.arr .jac 2297)) (.rd (.arr .y 42)))) (.mul (.rd (.arr .jac 2351)) (.rd (.arr .y 43)))) (.mul (.rd (.arr .jac 2405)) (.rd (.arr .y 44)))) (.mul (.rd (.arr .jac 2459)) (.rd (.arr .y 45)))) (.mul (.rd (.arr .jac 2513)) (.rd (.arr .y 46)))) (.mul (.rd (.arr .jac 2567)) (.rd (.arr .y 47)))) (.mul (.rd (.arr .jac 2621)) (.rd (.arr .y 48)))) (.mul (.rd (.arr .jac 2675)) (.rd (.arr .y 49)))) (.mul (.rd (.arr .jac 2729)) (.rd (.arr .y 50)))) (.mul (.rd (.arr .jac 2783)) (.rd (.arr .y 51)))) (.mul (.rd (.arr .jac 2837)) (.rd (.arr .y 52)))) (.mul (.rd (.arr .jac 2891)) (.rd (.arr .y 53)))),
  .set (.arr .dy 30) (.add (.add (.add (.add (.add (.add (.add (.add (.add (.add (.add (.add (.add (.add (.add (.add (.add (.add (.add (.add (.add (.add (.add (.add (.add (.add (.add (.add (.add (.add (.add (.add (.add (.add (.add (.add (.add (.add (.add (.add (.add (.add (.add (.add (.add (.add (.add (.add (.add (.add (.add (.add (.add (.mul (.rd (.arr .jac 30)) (.rd (.arr .y 0))) (.mul (.rd (.arr .jac 84)) (.rd (.arr .y 1)))) (.mul (.rd (.arr .jac 138)) (.rd (.arr .y 2)))) (.mul (.rd (.arr .jac 192)) (.rd (.arr .y 3)))) (.mul (.rd (.arr .jac 246)) (.rd (.arr .y 4)))) (.mul (.rd (.arr .jac 300)) (.rd (.arr .y 5)))) (.mul (.rd (.arr .jac 354)) (.rd (.arr .y 6)))) (.mul (.rd (.arr .jac 408)) (.rd (.arr .y 7)))) (.mul (.rd (.arr .jac 462)) (.rd (.arr .y 8)))) (.mul (.rd (.arr .jac 516)) (.rd (.arr .y 9)))) (.mul (.rd (.arr .jac 570)) (.rd (.arr .y 10)))) (.mul (.rd (.arr .jac 624)) (.rd (.arr .y 11)))) (.mul (.rd (.arr .jac 678)) (.rd (.arr .y 12)))) (.mul (.rd (.arr .jac 732)) (.rd (.arr .y 13)))) (.mul (.rd (.arr .jac 786)) (.rd (.arr .y 14)))) (.mul (.rd (.arr .jac 840)) (.rd (.arr .y 15)))) (.mul (.rd (.arr .jac 894)) (.rd (.arr .y 16)))) (.mul (.rd (.arr .jac 948)) (.rd (.arr .y 17)))) (.mul (.rd (.arr .jac 1002)) (.rd (.arr .y 18)))) (.mul (.rd (.arr .jac 1056)) (.rd (.arr .y 19)))) (.mul (.rd (.arr .jac 1110)) (.rd (.arr .y 20)))) (.mul (.rd (.arr .jac 1164)) (.rd (.arr .y 21)))) (.mul (.rd (.arr .jac 1218)) (.rd (.arr .y 22)))) (.mul (.rd (.arr .jac 1272)) (.rd (.arr .y 23)))) (.mul (.rd (.arr .jac 1326)) (.rd (.arr .y 24)))) (.mul (.rd (.arr .jac 1380)) (.rd (.arr .y 25)))) (.mul (.rd (.arr .jac 1434)) (.rd (.arr .y 26)))) (.mul (.rd (.arr .jac 1488)) (.rd (.arr .y 27)))) (.mul (.rd (.arr .jac 1542)) (.rd (.arr .y 28)))) (.mul (.rd (.arr .jac 1596)) (.rd (.arr .y 29)))) (.mul (.rd (.arr .jac 1650)) (.rd (.arr .y 30)))) (.mul (.rd (.arr .jac 1704)) (.rd (.arr .y 31)))) (.mul (.rd (.arr .jac 1758)) (.rd (.arr .y 32)))) (.mul (.rd (.arr .jac 1812)) (.rd (.arr .y 33)))) (.mul (.rd (.arr .jac 1866)) (.rd (.arr .y 34)))) (.mul (.rd (.arr .jac 1920)) (.rd (.arr .y 35)))) (.mul (.rd (.arr .jac 1974)) (.rd (.arr .y 36)))) (.mul (.rd (.arr .jac 2028)) (.rd (.arr .y 37)))) (.mul (.rd (.arr .jac 2082)) (.rd (.arr .y 38)))) (.mul (.rd (.arr .jac 2136)) (.rd (.arr .y 39)))) (.mul (.rd (.arr .jac 2190)) (.rd (.arr .y 40)))) (.mul (.rd (.arr .jac 2244)) (.rd (.arr .y 41)))) (.mul (.rd (.arr .jac 2298)) (.rd (.arr .y 42)))) (.mul (.rd (.arr .jac 2352)) (.rd (.arr .y 43)))) (.mul (.rd (.arr .jac 2406)) (.rd (.arr .y 44)))) (.mul (.rd (.arr .jac 2460)) (.rd (.arr .y 45)))) (.mul (.rd (.arr .jac 2514)) (.rd (.arr .y 46)))) (.mul (.rd (.arr .jac 2568)) (.rd (.arr .y 47)))) (.mul (.rd (.arr .jac 2622)) (.rd (.arr .y 48)))) (.mul (.rd (.arr .jac 2676)) (.rd (.arr .y 49)))) (.mul (.rd (.arr .jac 2730)) (.rd (.arr .y 50)))) (.mul (.rd (.arr .jac 2784)) (.rd (.arr .y 51)))) (.mul (.rd (.arr .jac 2838)) (.rd (.arr .y 52)))) (.mul (.rd (.arr .jac 2892)) (.rd (.arr .y 53)))),
  .set (.arr .dy 31) (.add (.add (.add (.add (.add (.add (.add (.add (.add (.add (.add (.add (.add (.add (.add (.add (.add (.add (.add (.add (.add (.add (.add (.add (.add (.add (.add (.add (.add (.add (.add (.add (.add (.add (.add (.add (.add (.add (.add (.add (.add (.add (.add (.add (.add (.add (.add (.add (.add (.add (.add (.add (.add (.mul (.rd (.arr .jac 31)) (.rd (.arr .y 0))) (.mul (.rd (.arr .jac 85)) (.rd (.arr .y 1)))) (.mul (.rd (.arr .jac 139)) (.rd (.arr .y 2)))) (.mul (.rd (.arr .jac 193)) (.rd (.arr .y 3)))) (.mul (.rd (.arr .jac 247)) (.rd (.arr .y 4)))) (.mul (.rd (.arr .jac 301)) (.rd (.arr .y 5)))) (.mul (.rd (.arr .jac 355)) (.rd (.arr .y 6)))) (.mul (.rd (.arr .jac 409)) (.rd (.arr .y 7)))) (.mul (.rd (.arr .jac 463)) (.rd (.arr .y 8)))) (.mul (.rd (.arr .jac 517)) (.rd (.arr .y 9)))) (.mul (.rd (.arr .jac 571)) (.rd (.arr .y 10)))) (.mul (.rd (.arr .jac 625)) (.rd (.arr .y 11)))) (.mul (.rd (.arr .jac 679)) (.rd (.arr .y 12)))) (.mul (.rd (.arr .jac 733)) (.rd (.arr .y 13)))) (.mul (.rd (.arr .jac 787)) (.rd (.arr .y 14)))) (.mul (.rd (.arr .jac 841)) (.rd (.arr .y 15)))) (.mul (.rd (.arr .jac 895)) (.rd (.arr .y 16)))) (.mul (.rd (.arr .jac 949)) (.rd (.arr .y 17)))) (.mul (.rd (.arr .jac 1003)) (.rd (.arr .y 18)))) (.mul (.rd (.arr .jac 1057)) (.rd (.arr .y 19)))) (.mul (.rd (.arr .jac 1111)) (.rd (.arr .y 20)))) (.mul (.rd (.arr .jac 1165)) (.rd (.arr .y 21)))) (.mul (.rd (.arr .jac 1219)) (.rd (.arr .y 22)))) (.mul (.rd (.arr .jac 1273)) (.rd (.arr .y 23)))) (.mul (.rd (.arr .jac 1327)) (.rd (.arr .y 24)))) (.mul (.rd (.arr .jac 1381)) (.rd (.arr .y 25)))) (.mul (.rd (.arr .jac 1435)) (.rd (.arr .y 26)))) (.mul (.rd (.arr .jac 1489)) (.rd (.arr .y 27)))) (.mul (.rd (.arr .jac 1543)) (.rd (.arr .y 28)))) (.mul (.rd (.arr .jac 1597)) (.rd (.arr .y 29)))) (.mul (.rd (.arr .jac 1651)) (.rd (.arr .y 30)))) (.mul (.rd (.arr .jac 1705)) (.rd (.arr .y 31)))) (.mul (.rd (.arr .jac 1759)) (.rd (.arr .y 32)))) (.mul (.rd (.arr .jac 1813)) (.rd (.arr .y 33)))) (.mul (.rd (.arr .jac 1867)) (.rd (.arr .y 34)))) (.mul (.rd (.arr .jac 1921)) (.rd (.arr .y 35)))) (.mul (.rd (.arr .jac 1975)) (.rd (.arr .y 36)))) (.mul (.rd (.arr .jac 2029)) (.rd (.arr .y 37)))) (.mul (.rd (.arr .jac 2083)) (.rd (.arr .y 38)))) (.mul (.rd (.arr .jac 2137)) (.rd (.arr .y 39)))) (.mul (.rd (.arr .jac 2191)) (.rd (.arr .y 40)))) (.mul (.rd (.arr .jac 2245)) (.rd (.arr .y 41)))) (.mul (.rd (.arr .jac 2299)) (.rd (.arr .y 42)))) (.mul (.rd (.arr .jac 2353)) (.rd (.arr .y 43)))) (.mul (.rd (.arr .jac 2407)) (.rd (.arr .y 44)))) (.mul (.rd (.arr .jac 2461)) (.rd (.arr .y 45)))) (.mul (.rd (.arr .jac 2515)) (.rd (.arr .y 46)))) (.mul (.rd (.arr .jac 2569)) (.rd (.arr .y 47)))) (.mul (.rd (.arr .jac 2623)) (.rd (.arr .y 48)))) (.mul (.rd (.arr .jac 2677)) (.rd (.arr .y 49)))) (.mul (.rd (.arr .jac 2731)) (.rd (.arr .y 50)))) (.mul (.rd (.arr .jac 2785)) (.rd (.arr .y 51)))) (.mul (.rd (.arr .jac 2839)) (.rd (.arr .y 52)))) (.mul (.rd (.arr .jac 2893)) (.rd (.arr .y 53)))),
  .set (.arr .dy 32) (.add (.add (.add (.add (.add (.add (.add (.add (.add (.add (.add (.add (.add (.add (.add (.add (.add (.add (.add (.add (.add (.add (.add (.add (.add (.add (.add (.add (.add (.add (.add (.add (.add (.add (.add (.add (.add (.add (.add (.add (.add (.add (.add (.add (.add (.add (.add (.add (.add (.add (.add (.add (.add (.mul (.rd (.arr .jac 32)) (.rd (.arr .y 0))) (.mul (.rd (.arr .jac 86)) (.rd (.arr .y 1)))) (.mul (.rd (.arr .jac 140)) (.rd (.arr .y 2)))) (.mul (.rd (.arr .jac 194)) (.rd (.arr .y 3)))) (.mul (.rd (.arr .jac 248)) (.rd (.arr .y 4)))) (.mul (.rd (.arr .jac 302)) (.rd (.arr .y 5)))) (.mul (.rd (.arr .jac 356)) (.rd (.arr .y 6)))) (.mul (.rd (.arr .jac 410)) (.rd (.arr .y 7)))) (.mul (.rd (.arr .jac 464)) (.rd (.arr .y 8)))) (.mul (.rd (.arr .jac 518)) (.rd (.arr .y 9)))) (.mul (.rd (.arr .jac 572)) (.rd (.arr .y 10)))) (.mul (.rd (.arr .jac 626)) (.rd (.arr .y 11)))) (.mul (.rd (.arr .jac 680)) (.rd (.arr .y 12)))) (.mul (.rd (.arr .jac 734)) (.rd (.arr .y 13)))) (.mul (.rd (.arr .jac 788)) (.rd (.arr .y 14)))) (.mul (.rd (.arr .jac 842)) (.rd (.arr .y 15)))) (.mul (.rd (.arr .jac 896)) (.rd (.arr .y 16)))) (.mul (.rd (.arr .jac 950)) (.rd (.arr .y 17)))) (.mul (.rd (.arr .jac 1004)) (.rd (.arr .y 18)))) (.mul (.rd (.arr .jac 1058)) (.rd (.arr .y 19)))) (.mul (.rd (.arr .jac 1112)) (.rd (.arr .y 20)))) (.mul (.rd (.arr .jac 1166)) (.rd (.arr .y 21)))) (.mul (.rd (.arr .jac 1220)) (.rd (.arr .y 22)))) (.mul (.rd (.arr .jac 1274)) (.rd (.arr .y 23)))) (.mul (.rd (.arr .jac 1328)) (.rd (.arr .y 24)))) (.mul (.rd (.arr .jac 1382)) (.rd (.arr .y 25)))) (.mul (.rd (.arr .jac 1436)) (.rd (.arr .y 26)))) (.mul (.rd (.arr .jac 1490)) (.rd (.arr .y 27)))) (.mul (.rd (.arr .jac 1544)) (.rd (.arr .y 28)))) (.mul (.rd (.arr .jac 1598)) (.rd (.arr .y 29)))) (.mul (.rd (.arr .jac 1652)) (.rd (.arr .y 30)))) (.mul (.rd (.arr .jac 1706)) (.rd (.arr .y 31)))) (.mul (.rd (.arr .jac 1760)) (.rd (.arr .y 32)))) (.mul (.rd (.arr .jac 1814)) (.rd (.arr .y 33)))) (.mul (.rd (.arr .jac 1868)) (.rd (.arr .y 34)))) (.mul (.rd (.arr .jac 1922)) (.rd (.arr .y 35)))) (.mul (.rd (.arr .jac 1976)) (.rd (.arr .y 36)))) (.mul (.rd (.arr .jac 2030)) (.rd (.arr .y 37)))) (.mul (.rd (.arr .jac 2084)) (.rd (.arr .y 38)))) (.mul (.rd (.arr .jac 2138)) (.rd (.arr .y 39)))) (.mul (.rd (.arr .jac 2192)) (.rd (.arr .y 40)))) (.mul (.rd (.arr .jac 2246)) (.rd (.arr .y 41)))) (.mul (.rd (.arr .jac 2300)) (.rd (.arr .y 42)))) (.mul (.rd (.arr .jac 2354)) (.rd (.arr .y 43)))) (.mul (.rd (.arr .jac 2408)) (.rd (.arr .y 44)))) (.mul (.rd (.arr .jac 2462)) (.rd (.arr .y 45)))) (.mul (.rd (.arr .jac 2516)) (.rd (.arr .y 46)))) (.mul (.rd (.arr .jac 2570)) (.rd (.arr .y 47)))) (.mul (.rd (.arr .jac 2624)) (.rd (.arr .y 48)))) (.mul (.rd (.arr .jac 2678)) (.rd (.arr .y 49)))) (.mul (.rd (.arr .jac 2732)) (.rd (.arr .y 50)))) (.mul (.rd (.arr .jac 2786)) (.rd (.arr .y 51)))) (.mul (.rd (.arr .jac 2840)) (.rd (.arr .y 52)))) (.mul (.rd (.arr .jac 2894)) (.rd (.arr .y 53)))),
  .set (.arr .dy 33) (.add (.add (.add (.add (.add (.add (.add (.add (.add (.add (.add (.add (.add (.add (.add (.add (.add (.add (.add (.add (.add (.add (.add (.add (.add (.add (.add (.add (.add (.add (.add (.add (.add (.add (.add (.add (.add (.add (.add (.add (.add (.add (.add (.add (.add (.add (.add (.add (.add (.add (.add (.add (.add (.mul (.rd (.arr .jac 33)) (.rd (.arr .y 0))) (.mul (.rd (.arr .jac 87)) (.rd (.arr .y 1)))) (.mul (.rd (.arr .jac 141)) (.rd (.arr .y 2)))) (.mul (.rd (.arr .jac 195)) (.rd (.arr .y 3)))) (.mul (.rd (.arr .jac 249)) (.rd (.arr .y 4)))) (.mul (.rd (.arr .jac 303)) (.rd (.arr .y 5)))) (.mul (.rd (.arr .jac 357)) (.rd (.arr .y 6)))) (.mul (.rd (.arr .jac 411)) (.rd (.arr .y 7)))) (.mul (.rd (.arr .jac 465)) (.rd (.arr .y 8)))) (.mul (.rd (.arr .jac 519)) (.rd (.arr .y 9)))) (.mul (.rd (.arr .jac 573)) (.rd (.arr .y 10)))) (.mul (.rd (.arr .jac 627)) (.rd (.arr .y 11)))) (.mul (.rd (.arr .jac 681)) (.rd (.arr .y 12)))) (.mul (.rd (.arr .jac 735)) (.rd (.arr .y 13)))) (.mul (.rd (.arr .jac 789)) (.rd (.arr .y 14)))) (.mul (.rd (.arr .jac 843)) (.rd (.arr .y 15)))) (.mul (.rd (.arr .jac 897)) (.rd (.arr .y 16)))) (.mul (.rd (.arr .jac 951)) (.rd (.arr .y 17)))) (.mul (.rd (.arr .jac 1005)) (.rd (.arr .y 18)))) (.mul (.rd (.arr .jac 1059)) (.rd (.arr .y 19)))) (.mul (.rd (.arr .jac 1113)) (.rd (.arr .y 20)))) (.mul (.rd (.arr .jac 1167)) (.rd (.arr .y 21)))) (.mul (.rd (.arr .jac 1221)) (.rd (.arr .y 22)))) (.mul (.rd (.arr .jac 1275)) (.rd (.arr .y 23)))) (.mul (.rd (.arr .jac 1329)) (.rd (.arr .y 24)))) (.mul (.rd (.arr .jac 1383)) (.rd (.arr .y 25)))) (.mul (.rd (.arr .jac 1437)) (.rd (.arr .y 26)))) (.mul (.rd (.arr .jac 1491)) (.rd (.arr .y 27)))) (.mul (.rd (.arr .jac 1545)) (.rd (.arr .y 28)))) (.mul (.rd (.arr .jac 1599)) (.rd (.arr .y 29)))) (.mul (.rd (.arr .jac 1653)) (.rd (.arr .y 30)))) (.mul (.rd (.arr .jac 1707)) (.rd (.arr .y 31)))) (.mul (.rd (.arr .jac 1761)) (.rd (.arr .y 32)))) (.mul (.rd (.arr .jac 1815)) (.rd (.arr .y 33)))) (.mul (.rd (.arr .jac 1869)) (.rd (.arr .y 34)))) (.mul (.rd (.arr .jac 1923)) (.rd (.arr .y 35)))) (.mul (.rd (.arr .jac 1977)) (.rd (.arr .y 36)))) (.mul (.rd (.arr .jac 2031)) (.rd (.arr .y 37)))) (.mul (.rd (.arr .jac 2085)) (.rd (.arr .y 38)))) (.mul (.rd (.arr .jac 2139)) (.rd (.arr .y 39)))) (.mul (.rd (.arr .jac 2193)) (.rd (.arr .y 40)))) (.mul (.rd (.arr .jac 2247)) (.rd (.arr .y 41)))) (.mul (.rd (.arr .jac 2301)) (.rd (.arr .y 42)))) (.mul (.rd (.arr .jac 2355)) (.rd (.arr .y 43)))) (.mul (.rd (.arr .jac 2409)) (.rd (.arr .y 44)))) (.mul (.rd (.arr .jac 2463)) (.rd (.arr .y 45)))) (.mul (.rd (.arr .jac 2517)) (.rd (.arr .y 46)))) (.mul (.rd (.arr .jac 2571)) (.rd (.arr .y 47)))) (.mul (.rd (.arr .jac 2625)) (.rd (.arr .y 48)))) (.mul (.rd (.arr .jac 2679)) (.rd (.arr .y 49)))) (.mul (.rd (.arr .jac 2733)) (.rd (.arr .y 50)))) (.mul (.rd (.arr .jac 2787)) (.rd (.arr .y 51)))) (.mul (.rd (.arr .jac 2841)) (.rd (.arr .y 52)))) (.mul (.rd (.arr .jac 2895)) (.rd (.arr .y 53)))),
  .set (.arr .dy 34) (.add (.add (.add (.add (.add (.add (.add (.add (.add (.add (.add (.add (.add (.add (.add (.add (.add (.add (.add (.add (.add (.add (.add (.add (.add (.add (.add (.add (.add (.add (.add (.add (.add (.add (.add (.add (.add (.add (.add (.add (.add (.add (.add (.add (.add (.add (.add (.add (.add (.add (.add (.add (.add (.mul (.rd (.arr .jac 34)) (.rd (.arr .y 0))) (.mul (.rd (.arr .jac 88)) (.rd (.arr .y 1)))) (.mul (.rd (.arr .jac 142)) (.rd (.arr .y 2)))) (.mul (.rd (.arr .jac 196)) (.rd (.arr .y 3)))) (.mul (.rd (.arr .jac 250)) (.rd (.arr .y 4)))) (.mul (.rd (.arr .jac 304)) (.rd (.arr .y 5)))) (.mul (.rd (.arr .jac 358)) (.rd (.arr .y 6)))) (.mul (.rd (.arr .jac 412)) (.rd (.arr .y 7)))) (.mul (.rd (.arr .jac 466)) (.rd (.arr .y 8)))) (.mul (.rd (.arr .jac 520)) (.rd (.arr .y 9)))) (.mul (.rd (.arr .jac 574)) (.rd (.arr .y 10)))) (.mul (.rd (.arr .jac 628)) (.rd (.arr .y 11)))) (.mul (.rd (.arr .jac 682)) (.rd (.arr .y 12)))) (.mul (.rd (.arr .jac 736)) (.rd (.arr .y 13)))) (.mul (.rd (.arr .jac 790)) (.rd (.arr .y 14)))) (.mul (.rd (.arr .jac 844)) (.rd (.arr .y 15)))) (.mul (.rd (.arr .jac 898)) (.rd (.arr .y 16)))) (.mul (.rd (.arr .jac 952)) (.rd (.arr .y 17)))) (.mul (.rd (.arr .jac 1006)) (.rd (.arr .y 18)))) (.mul (.rd (.arr .jac 1060)) (.rd (.arr .y 19)))) (.mul (.rd (.arr .jac 1114)) (.rd (.arr .y 20)))) (.mul (.rd (.arr .jac 1168)) (.rd (.arr .y 21)))) (.mul (.rd (.arr .jac 1222)) (.rd (.arr .y 22)))) (.mul (.rd (.arr .jac 1276)) (.rd (.arr .y 23)))) (.mul (.rd (.arr .jac 1330)) (.rd (.arr .y 24)))) (.mul (.rd (.arr .jac 1384)) (.rd (.arr .y 25)))) (.mul (.rd (.arr .jac 1438)) (.rd (.arr .y 26)))) (.mul (.rd (.arr .jac 1492)) (.rd (.arr .y 27)))) (.mul (.rd (.arr .jac 1546)) (.rd (.arr .y 28)))) (.mul (.rd (.arr .jac 1600)) (.rd (.arr .y 29)))) (.mul (.rd (.arr .jac 1654)) (.rd (.arr .y 30)))) (.mul (.rd (.arr .jac 1708)) (.rd (.arr .y 31)))) (.mul (.rd (.arr .jac 1762)) (.rd (.arr .y 32)))) (.mul (.rd (.arr .jac 1816)) (.rd (.arr .y 33)))) (.mul (.rd (.arr .jac 1870)) (.rd (.arr .y 34)))) (.mul (.rd (.arr .jac 1924)) (.rd (.arr .y 35)))) (.mul (.rd (.arr .jac 1978)) (.rd (.arr .y 36)))) (.mul (.rd (.arr .jac 2032)) (.rd (.arr .y 37)))) (.mul (.rd (.arr .jac 2086)) (.rd (.arr .y 38)))) (.mul (.rd (.arr .jac 2140)) (.rd (.arr .y 39)))) (.mul (.rd (.arr .jac 2194)) (.rd (.arr .y 40)))) (.mul (.rd (.arr .jac 2248)) (.rd (.arr .y 41)))) (.mul (.rd (.arr .jac 2302)) (.rd (.arr .y 42)))) (.mul (.rd (.arr .jac 2356)) (.rd (.arr .y 43)))) (.mul (.rd (.arr .jac 2410)) (.rd (.arr .y 44)))) (.mul (.rd (.arr .jac 2464)) (.rd (.arr .y 45)))) (.mul (.rd (.arr .jac 2518)) (.rd (.arr .y 46)))) (.mul (.rd (.arr .jac 2572)) (.rd (.arr .y 47)))) (.mul (.rd (.arr .jac 2626)) (.rd (.arr .y 48)))) (.mul (.rd (.arr .jac 2680)) (.rd (.arr .y 49)))) (.mul (.rd (.arr .jac 2734)) (.rd (.arr .y 50)))) (.mul (.rd (.arr .jac 2788)) (.rd (.arr .y 51)))) (.mul (.rd (.arr .jac 2842)) (.rd (.arr .y 52)))) (.mul (.rd (.arr .jac 2896)) (.rd (.arr .y 53)))),
  .set (.arr .dy 35) (.add (.add (.add (.add (.add (.add (.add (.add (.add (.add (.add (.add (.add (.add (.add (.add (.add (.add (.add (.add (.add (.add (.add (.add (.add (.add (.add (.add (.add (.add (.add (.add (.add (.add (.add (.add (.add (.add (.add (.add (.add (.add (.add (.add (.add (.add (.add (.add (.add (.add (.add (.add (.add (.mul (.rd (.arr .jac 35)) (.rd (.arr .y 0))) (.mul (.rd (.arr .jac 89)) (.rd (.arr .y 1)))) (.mul (.rd (.arr .jac 143)) (.rd (.arr .y 2)))) (.mul (.rd (.arr .jac 197)) (.rd (.arr .y 3)))) (.mul (.rd (.arr .jac 251)) (.rd (.arr .y 4)))) (.mul (.rd (.arr .jac 305)) (.rd (.arr .y 5)))) (.mul (.rd (.arr .jac 359)) (.rd (.arr .y 6)))) (.mul (.rd (.arr .jac 413)) (.rd (.arr .y 7)))) (.mul (.rd (.arr .jac 467)) (.rd (.arr .y 8)))) (.mul (.rd (.arr .jac 521)) (.rd (.arr .y 9)))) (.mul (.rd (.arr .jac 575)) (.rd (.arr .y 10)))) (.mul (.rd (.arr .jac 629)) (.rd (.arr .y 11)))) (.mul (.rd (.arr .jac 683)) (.rd (.arr .y 12)))) (.mul (.rd (.arr .jac 737)) (.rd (.arr .y 13)))) (.mul (.rd (.arr .jac 791)) (.rd (.arr .y 14)))) (.mul (.rd (.arr .jac 845)) (.rd (.arr .y 15)))) (.mul (.rd (.arr .jac 899)) (.rd (.arr .y 16)))) (.mul (.rd (.arr .jac 953)) (.rd (.arr .y 17)))) (.mul (.rd (.arr .jac 1007)) (.rd (.arr .y 18)))) (.mul (.rd (.arr .jac 1061)) (.rd (.arr .y 19)))) (.mul (.rd (.arr .jac 1115)) (.rd (.arr .y 20)))) (.mul (.rd (.arr .jac 1169)) (.rd (.arr .y 21)))) (.mul (.rd (.arr .jac 1223)) (.rd (.arr .y 22)))) (.mul (.rd (.arr .jac 1277)) (.rd (.arr .y 23)))) (.mul (.rd (.arr .jac 1331)) (.rd (.arr .y 24)))) (.mul (.rd (.arr .jac 1385)) (.rd (.arr .y 25)))) (.mul (.rd (.arr .jac 1439)) (.rd (.arr .y 26)))) (.mul (.rd (.arr .jac 1493)) (.rd (.arr .y 27)))) (.mul (.rd (.arr .jac 1547)) (.rd (.arr .y 28)))) (.mul (.rd (.arr .jac 1601)) (.rd (.arr .y 29)))) (.mul (.rd (.arr .jac 1655)) (.rd (.arr .y 30)))) (.mul (.rd (.arr .jac 1709)) (.rd (.arr .y 31)))) (.mul (.rd (.arr .jac 1763)) (.rd (.arr .y 32)))) (.mul (.rd (.arr .jac 1817)) (.rd (.arr .y 33)))) (.mul (.rd (.arr .jac 1871)) (.rd (.arr .y 34)))) (.mul (.rd (.arr .jac 1925)) (.rd (.arr .y 35)))) (.mul (.rd (.arr .jac 1979)) (.rd (.arr .y 36)))) (.mul (.rd (.arr .jac 2033)) (.rd (.arr .y 37)))) (.mul (.rd (.arr .jac 2087)) (.rd (.arr .y 38)))) (.mul (.rd (.arr .jac 2141)) (.rd (.arr .y 39)))) (.mul (.rd (.arr .jac 2195)) (.rd (.arr .y 40)))) (.mul (.rd (.arr .jac 2249)) (.rd (.arr .y 41)))) (.mul (.rd (.arr .jac 2303)) (.rd (.arr .y 42)))) (.mul (.rd (.arr .jac 2357)) (.rd (.arr .y 43)))) (.mul (.rd (.arr .jac 2411)) (.rd (.arr .y 44)))) (.mul (.rd (.arr .jac 2465)) (.rd (.arr .y 45)))) (.mul (.rd (.arr .jac 2519)) (.rd (.arr .y 46)))) (.mul (.rd (.arr .jac 2573)) (.rd (.arr .y 47)))) (.mul (.rd (.arr .jac 2627)) (.rd (.arr .y 48)))) (.mul (.rd (.arr .jac 2681)) (.rd (.arr .y 49)))) (.mul (.rd (.arr .jac 2735)) (.rd (.arr .y 50)))) (.mul (.rd (.arr .jac 2789)) (.rd (.arr .y 51)))) (.mul (.rd (.arr .jac 2843)) (.rd (.arr .y 52)))) (.mul (.rd (.arr .jac 2897)) (.rd (.arr .y 53)))),
  .set (.arr .dy 36) (.add (.add (.add (.add (.add (.add (.add (.add (.add (.add (.add (.add (.add (.add (.add (.add (.add (.add (.add (.add (.add (.add (.add (.add (.add (.add (.add (.add (.add (.add (.add (.add (.add (.add (.add (.add (.add (.add (.add (.add (.add (.add (.add (.add (.add (.add (.add (.add (.add (.add (.add (.add (.add (.mul (.rd (.arr .jac 36)) (.rd (.arr .y 0))) (.mul (.rd (.arr .jac 90)) (.rd (.arr .y 1)))) (.mul (.rd (.arr .jac 144)) (.rd (.arr .y 2)))) (.mul (.rd (.arr .jac 198)) (.rd (.arr .y 3)))) (.mul (.rd (.arr .jac 252)) (.rd (.arr .y 4)))) (.mul (.rd (.arr .jac 306)) (.rd (.arr .y 5)))) (.mul (.rd (.arr .jac 360)) (.rd (.arr .y 6)))) (.mul (.rd (.arr .jac 414)) (.rd (.arr .y 7)))) (.mul (.rd (.arr .jac 468)) (.rd (.arr .y 8)))) (.mul (.rd (.arr .jac 522)) (.rd (.arr .y 9)))) (.mul (.rd (.arr .jac 576)) (.rd (.arr .y 10)))) (.mul (.rd (.arr .jac 630)) (.rd (.arr .y 11)))) (.mul (.rd (.arr .jac 684)) (.rd (.arr .y 12)))) (.mul (.rd (.arr .jac 738)) (.rd (.arr .y 13)))) (.mul (.rd (.arr .jac 792)) (.rd (.arr .y 14)))) (.mul (.rd (.arr .jac 846)) (.rd (.arr .y 15)))) (.mul (.rd (.arr .jac 900)) (.rd (.arr .y 16)))) (.mul (.rd (.arr .jac 954)) (.rd (.arr .y 17)))) (.mul (.rd (.arr .jac 1008)) (.rd (.arr .y 18)))) (.mul (.rd (.arr .jac 1062)) (.rd (.arr .y 19)))) (.mul (.rd (.arr .jac 1116)) (.rd (.arr .y 20)))) (.mul (.rd (.arr .jac 1170)) (.rd (.arr .y 21)))) (.mul (.rd (.arr .jac 1224)) (.rd (.arr .y 22)))) (.mul (.rd (.arr .jac 1278)) (.rd (.arr .y 23)))) (.mul (.rd (.arr .jac 1332)) (.rd (.arr .y 24)))) (.mul (.rd (.arr .jac 1386)) (.rd (.arr .y 25)))) (.mul (.rd (.arr .jac 1440)) (.rd (.arr .y 26)))) (.mul (.rd (.arr .jac 1494)) (.rd (.arr .y 27)))) (.mul (.rd (.arr .jac 1548)) (.rd (.arr .y 28)))) (.mul (.rd (.arr .jac 1602)) (.rd (.arr .y 29)))) (.mul (.rd (.arr .jac 1656)) (.rd (.arr .y 30)))) (.mul (.rd (.arr .jac 1710)) (.rd (.arr .y 31)))) (.mul (.rd (.arr .jac 1764)) (.rd (.arr .y 32)))) (.mul (.rd (.arr .jac 1818)) (.rd (.arr .y 33)))) (.mul (.rd (.arr .jac 1872)) (.rd (.arr .y 34)))) (.mul (.rd (.arr .jac 1926)) (.rd (.arr .y 35)))) (.mul (.rd (.arr .jac 1980)) (.rd (.arr .y 36)))) (.mul (.rd (.arr .jac 2034)) (.rd (.arr .y 37)))) (.mul (.rd (.arr .jac 2088)) (.rd (.arr .y 38)))) (.mul (.rd (.arr .jac 2142)) (.rd (.arr .y 39)))) (.mul (.rd (.arr .jac 2196)) (.rd (.arr .y 40)))) (.mul (.rd (.arr .jac 2250)) (.rd (.arr .y 41)))) (.mul (.rd (.arr .jac 2304)) (.rd (.arr .y 42)))) (.mul (.rd (.arr .jac 2358)) (.rd (.arr .y 43)))) (.mul (.rd (.arr .jac 2412)) (.rd (.arr .y 44)))) (.mul (.rd (.arr .jac 2466)) (.rd (.arr .y 45)))) (.mul (.rd (.arr .jac 2520)) (.rd (.arr .y 46)))) (.mul (.rd (.arr .jac 2574)) (.rd (.arr .y 47)))) (.mul (.rd (.arr .jac 2628)) (.rd (.arr .y 48)))) (.mul (.rd (.arr .jac 2682)) (.rd (.arr .y 49)))) (.mul (.rd (.arr .jac 2736)) (.rd (.arr .y 50)))) (.mul (.rd (.arr .jac 2790)) (.rd (.arr .y 51)))) (.mul (.rd (.arr .jac 2844)) (.rd (.arr .y 52)))) (.mul (.rd (.arr .jac 2898)) (.rd (.arr .y 53)))),
  .set (.arr .dy 37) (.add (.add (.add (.add (.add (.add (.add (.add (.add (.add (.add (.add (.add (.add (.add (.add (.add (.add (.add (.add (.add (.add (.add (.add (.add (.add (.add (.add (.add (.add (.add (.add (.add (.add (.add (.add (.add (.add (.add (.add (.add (.add (.add (.add (.add (.add (.add (.add (.add (.add (.add (.add (.add (.mul (.rd (.arr .jac 37)) (.rd (.arr .y 0))) (.mul (.rd (.arr .jac 91)) (.rd (.arr .y 1)))) (.mul (.rd (.arr .jac 145)) (.rd (.arr .y 2)))) (.mul (.rd (.arr .jac 199)) (.rd (.arr .y 3)))) (.mul (.rd (.arr .jac 253)) (.rd (.arr .y 4)))) (.mul (.rd (.arr .jac 307)) (.rd (.arr .y 5)))) (.mul (.rd (.arr .jac 361)) (.rd (.arr .y 6)))) (.mul (.rd (.arr .jac 415)) (.rd (.arr .y 7)))) (.mul (.rd (.arr .jac 469)) (.rd (.arr .y 8)))) (.mul (.rd (.arr .jac 523)) (.rd (.arr .y 9)))) (.mul (.rd (.arr .jac 577)) (.rd (.arr .y 10)))) (.mul (.rd (.arr .jac 631)) (.rd (.arr .y 11)))) (.mul (.rd (.arr .jac 685)) (.rd (.arr .y 12)))) (.mul (.rd (.arr .jac 739)) (.rd (.arr .y 13)))) (.mul (.rd (.arr .jac 793)) (.rd (.arr .y 14)))) (.mul (.rd (.arr .jac 847)) (.rd (.arr .y 15)))) (.mul (.rd (.arr .jac 901)) (.rd (.arr .y 16)))) (.mul (.rd (.arr .jac 955)) (.rd (.arr .y 17)))) (.mul (.rd (.arr .jac 1009)) (.rd (.arr .y 18)))) (.mul (.rd (.arr .jac 1063)) (.rd (.arr .y 19)))) (.mul (.rd (.arr .jac 1117)) (.rd (.arr .y 20)))) (.mul (.rd (.arr .jac 1171)) (.rd (.arr .y 21)))) (.mul (.rd (.arr .jac 1225)) (.rd (.arr .y 22)))) (.mul (.rd (.arr .jac 1279)) (.rd (.arr .y 23)))) (.mul (.rd (.arr .jac 1333)) (.rd (.arr .y 24)))) (.mul (.rd (.arr .jac 1387)) (.rd (.arr .y 25)))) (.mul (.rd (.arr .jac 1441)) (.rd (.arr .y 26)))) (.mul (.rd (.arr .jac 1495)) (.rd (.arr .y 27)))) (.mul (.rd (.arr .jac 1549)) (.rd (.arr .y 28)))) (.mul (.rd (.arr .jac 1603)) (.rd (.arr .y 29)))) (.mul (.rd (.arr .jac 1657)) (.rd (.arr .y 30)))) (.mul (.rd (.arr .jac 1711)) (.rd (.arr .y 31)))) (.mul (.rd (.arr .jac 1765)) (.rd (.arr .y 32)))) (.mul (.rd (.arr .jac 1819)) (.rd (.arr .y 33)))) (.mul (.rd (.arr .jac 1873)) (.rd (.arr .y 34)))) (.mul (.rd (.arr .jac 1927)) (.rd (.arr .y 35)))) (.mul (.rd (.arr .jac 1981)) (.rd (.arr .y 36)))) (.mul (.rd (.arr .jac 2035)) (.rd (.arr .y 37)))) (.mul (.rd (.arr .jac 2089)) (.rd (.arr .y 38)))) (.mul (.rd (.arr .jac 2143)) (.rd (.arr .y 39)))) (.mul (.rd (.arr .jac 2197)) (.rd (.arr .y 40)))) (.mul (.rd (.arr .jac 2251)) (.rd (.arr .y 41)))) (.mul (.rd (.arr .jac 2305)) (.rd (.arr .y 42)))) (.mul (.rd (.arr .jac 2359)) (.rd (.arr .y 43)))) (.mul (.rd (.arr .jac 2413)) (.rd (.arr .y 44)))) (.mul (.rd (.arr .jac 2467)) (.rd (.arr .y 45)))) (.mul (.rd (.arr .jac 2521)) (.rd (.arr .y 46)))) (.mul (.rd (.arr .jac 2575)) (.rd (.arr .y 47)))) (.mul (.rd (.arr .jac 2629)) (.rd (.arr .y 48)))) (.mul (.rd (.arr .jac 2683)) (.rd (.arr .y 49)))) (.mul (.rd (.arr .jac 2737)) (.rd (.arr .y 50)))) (.mul (.rd (.arr .jac 2791)) (.rd (.arr .y 51)))) (.mul (.rd (.arr .jac 2845)) (.rd (.arr .y 52)))) (.mul (.rd (.arr .jac 2899)) (.rd (.arr .y 53)))),
  .set (.arr .dy 38) (.add (.add (.add (.add (.add (.add (.add (.add (.add (.add (.add (.add (.add (.add (.add (.add (.add (.add (.add (.add (.add (.add (.add (.add (.add (.add (.add (.add (.add (.add (.add (.add (.add (.add (.add (.add (.add (.add (.add (.add (.add (.add (.add (.add (.add (.add (.add (.add (.add (.add (.add (.add (.add (.mul (.rd (.arr .jac 38)) (.rd (.arr .y 0))) (.mul (.rd (.arr .jac 92)) (.rd (.arr .y 1)))) (.mul (.rd (.arr .jac 146)) (.rd (.arr .y 2)))) (.mul (.rd (.arr .jac 200)) (.rd (.arr .y 3)))) (.mul (.rd (.arr .jac 254)) (.rd (.arr .y 4)))) (.mul (.rd (.arr .jac 308)) (.rd (.arr .y 5)))) (.mul (.rd (.arr .jac 362)) (.rd (.arr .y 6)))) (.mul (.rd (.arr .jac 416)) (.rd (.arr .y 7)))) (.mul (.rd (.arr .jac 470)) (.rd (.arr .y 8)))) (.mul (.rd (.arr .jac 524)) (.rd (.arr .y 9)))) (.mul (.rd (.arr .jac 578)) (.rd (.arr .y 10)))) (.mul (.rd (.arr .jac 632)) (.rd (.arr .y 11)))) (.mul (.rd (.arr .jac 686)) (.rd (.arr .y 12)))) (.mul (.rd (.arr .jac 740)) (.rd (.arr .y 13)))) (.mul (.rd (.arr .jac 794)) (.rd (.arr .y 14)))) (.mul (.rd (.arr .jac 848)) (.rd (.arr .y 15)))) (.mul (.rd (.arr .jac 902)) (.rd (.arr .y 16)))) (.mul (.rd (.arr .jac 956)) (.rd (.arr .y 17)))) (.mul (.rd (.arr .jac 1010)) (.rd (.arr .y 18)))) (.mul (.rd (.arr .jac 1064)) (.rd (.arr .y 19)))) (.mul (.rd (.arr .jac 1118)) (.rd (.arr .y 20)))) (.mul (.rd (.arr .jac 1172)) (.rd (.arr .y 21)))) (.mul (.rd (.arr .jac 1226)) (.rd (.arr .y 22)))) (.mul (.rd (.arr .jac 1280)) (.rd (.arr .y 23)))) (.mul (.rd (.arr .jac 1334)) (.rd (.arr .y 24)))) (.mul (.rd (.arr .jac 1388)) (.rd (.arr .y 25)))) (.mul (.rd (.arr .jac 1442)) (.rd (.arr .y 26)))) (.mul (.rd (.arr .jac 1496)) (.rd (.arr .y 27)))) (.mul (.rd (.arr .jac 1550)) (.rd (.arr .y 28)))) (.mul (.rd (.arr .jac 1604)) (.rd (.arr .y 29)))) (.mul (.rd (.arr .jac 1658)) (.rd (.arr .y 30)))) (.mul (.rd (.arr .jac 1712)) (.rd (.arr .y 31)))) (.mul (.rd (.arr .jac 1766)) (.rd (.arr .y 32)))) (.mul (.rd (.arr .jac 1820)) (.rd (.arr .y 33)))) (.mul (.rd (.arr .jac 1874)) (.rd (.arr .y 34)))) (.mul (.rd (.arr .jac 1928)) (.rd (.arr .y 35)))) (.mul (.rd (.arr .jac 1982)) (.rd (.arr .y 36)))) (.mul (.rd (.arr .jac 2036)) (.rd (.arr .y 37)))) (.mul (.rd (.arr .jac 2090)) (.rd (.arr .y 38)))) (.mul (.rd (.arr .jac 2144)) (.rd (.arr .y 39)))) (.mul (.rd (.arr .jac 2198)) (.rd (.arr .y 40)))) (.mul (.rd (.arr .jac 2252)) (.rd (.arr .y 41)))) (.mul (.rd (.arr .jac 2306)) (.rd (.arr .y 42)))) (.mul (.rd (.arr .jac 2360)) (.rd (.arr .y 43)))) (.mul (.rd (.arr .jac 2414)) (.rd (.arr .y 44)))) (.mul (.rd (.arr .jac 2468)) (.rd (.arr .y 45)))) (.mul (.rd (.arr .jac 2522)) (.rd (.arr .y 46)))) (.mul (.rd (.arr .jac 2576)) (.rd (.arr .y 47)))) (.mul (.rd (.arr .jac 2630)) (.rd (.arr .y 48)))) (.mul (.rd (.arr .jac 2684)) (.rd (.arr .y 49)))) (.mul (.rd (.arr .jac 2738)) (.rd (.arr .y 50)))) (.mul (.rd (.arr .jac 2792)) (.rd (.arr .y 51)))) (.mul (.rd (.arr .jac 2846)) (.rd (.arr .y 52)))) (.mul (.rd (.arr .jac 2900)) (.rd (.arr .y 53)))),
  .set (.arr .dy 39) (.add (.add (.add (.add (.add (.add (.add (.add (.add (.add (.add (.add (.add (.add (.add (.add (.add (.add (.add (.add (.add (.add (.add (.add (.add (.add (.add (.add (.add (.add (.add (.add (.add (.add (.add (.add (.add (.add (.add (.add (.add (.add (.add (.add (.add (.add (.add (.add (.add (.add (.add (.add (.add (.mul (.rd (.arr .jac 39)) (.rd (.arr .y 0))) (.mul (.rd (.arr .jac 93)) (.rd (.arr .y 1)))) (.mul (.rd (.arr .jac 147)) (.rd (.arr .y 2)))) (.mul (.rd (.arr .jac 201)) (.rd (.arr .y 3)))) (.mul (.rd (.arr .jac 255)) (.rd (.arr .y 4)))) (.mul (.rd (.arr .jac 309)) (.rd (.arr .y 5)))) (.mul (.rd (.arr .jac 363)) (.rd (.arr .y 6)))) (.mul (.rd (.arr .jac 417)) (.rd (.arr .y 7)))) (.mul (.rd (.arr .jac 471)) (.rd (.arr .y 8)))) (.mul (.rd (.arr .jac 525)) (.rd (.arr .y 9)))) (.mul (.rd (.arr .jac 579)) (.rd (.arr .y 10)))) (.mul (.rd (.arr .jac 633)) (.rd (.arr .y 11)))) (.mul (.rd (.arr .jac 687)) (.rd (.arr .y 12)))) (.mul (.rd (.arr .jac 741)) (.rd (.arr .y 13)))) (.mul (.rd (.arr .jac 795)) (.rd (.arr .y 14)))) (.mul (.rd (.arr .jac 849)) (.rd (.arr .y 15)))) (.mul (.rd (.arr .jac 903)) (.rd (.arr .y 16)))) (.mul (.rd (.arr .jac 957)) (.rd (.arr .y 17)))) (.mul (.rd (.arr .jac 1011)) (.rd (.arr .y 18)))) (.mul (.rd (.arr .jac 1065)) (.rd (.arr .y 19)))) (.mul (.rd (.arr .jac 1119)) (.rd (.arr .y 20)))) (.mul (.rd (.arr .jac 1173)) (.rd (.arr .y 21)))) (.mul (.rd (.arr .jac 1227)) (.rd (.arr .y 22)))) (.mul (.rd (.arr .jac 1281)) (.rd (.arr .y 23)))) (.mul (.rd (.arr .jac 1335)) (.rd (.arr .y 24)))) (.mul (.rd (.arr .jac 1389)) (.rd (.arr .y 25)))) (.mul (.rd (.arr .jac 1443)) (.rd (.arr .y 26)))) (.mul (.rd (.arr .jac 1497)) (.rd (.arr .y 27)))) (.mul (.rd (.arr .jac 1551)) (.rd (.arr .y 28)))) (.mul (.rd (.arr .jac 1605)) (.rd (.arr .y 29)))) (.mul (.rd (.arr .jac 1659)) (.rd (.arr .y 30)))) (.mul (.rd (.arr .jac 1713)) (.rd (.arr .y 31)))) (.mul (.rd (.arr .jac 1767)) (.rd (.arr .y 32)))) (.mul (.rd (.arr .jac 1821)) (.rd (.arr .y 33)))) (.mul (.rd (.arr .jac 1875)) (.rd (.arr .y 34)))) (.mul (.rd (.arr .jac 1929)) (.rd (.arr .y 35)))) (.mul (.rd (.arr .jac 1983)) (.rd (.arr .y 36)))) (.mul (.rd (.arr .jac 2037)) (.rd (.arr .y 37)))) (.mul (.rd (.arr .jac 2091)) (.rd (.arr .y 38)))) (.mul (.rd (.arr .jac 2145)) (.rd (.arr .y 39)))) (.mul (.rd (.arr .jac 2199)) (.rd (.arr .y 40)))) (.mul (.rd (.arr .jac 2253)) (.rd (.arr .y 41)))) (.mul (.rd (.arr .jac 2307)) (.rd (.arr .y 42)))) (.mul (.rd (.arr .jac 2361)) (.rd (.arr .y 43)))) (.mul (.rd (.arr .jac 2415)) (.rd (.arr .y 44)))) (.mul (.rd (.arr .jac 2469)) (.rd (.arr .y 45)))) (.mul (.rd (.arr .jac 2523)) (.rd (.arr .y 46)))) (.mul (.rd (.arr .jac 2577)) (.rd (.arr .y 47)))) (.mul (.rd (.arr .jac 2631)) (.rd (.arr .y 48)))) (.mul (.rd (.arr .jac 2685)) (.rd (.arr .y 49)))) (.mul (.rd (.arr .jac 2739)) (.rd (.arr .y 50)))) (.mul (.rd (.arr .jac 2793)) (.rd (.arr .y 51)))) (.mul (.rd (.arr .jac 2847)) (.rd (.arr .y 52)))) (.mul (.rd (.arr .jac 2901)) (.rd (.arr .y 53)))),
  .set (.arr .dy 40) (.add (.add (.add (.add (.add (.add (.add (.add (.add (.add (.add (.add (.add (.add (.add (.add (.add (.add (.add (.add (.add (.add (.add (.add (.add (.add (.add (.add (.add (.add (.add (.add (.add (.add (.add (.add (.add (.add (.add (.add (.add (.add (.add (.add (.add (.add (.add (.add (.add (.add (.add (.add (.add (.mul (.rd (.arr .jac 40)) (.rd (.arr .y 0))) (.mul (.rd (.arr .jac 94)) (.rd (.arr .y 1)))) (.mul (.rd (.arr .jac 148)) (.rd (.arr .y 2)))) (.mul (.rd (.arr .jac 202)) (.rd (.arr .y 3)))) (.mul (.rd (.arr .jac 256)) (.rd (.arr .y 4)))) (.mul (.rd (.arr .jac 310)) (.rd (.arr .y 5)))) (.mul (.rd (.arr .jac 364)) (.rd (.arr .y 6)))) (.mul (.rd (.arr .jac 418)) (.rd (.arr .y 7)))) (.mul (.rd (.arr .jac 472)) (.rd (.arr .y 8)))) (.mul (.rd (.arr .jac 526)) (.rd (.arr .y 9)))) (.mul (.rd (.arr .jac 580)) (.rd (.arr .y 10)))) (.mul (.rd (.arr .jac 634)) (.rd (.arr .y 11)))) (.mul (.rd (.arr .jac 688)) (.rd (.arr .y 12)))) (.mul (.rd (.arr .jac 742)) (.rd (.arr .y 13)))) (.mul (.rd (.arr .jac 796)) (.rd (.arr .y 14)))) (.mul (.rd (.arr .jac 850)) (.rd (.arr .y 15)))) (.mul (.rd (.arr .jac 904)) (.rd (.arr .y 16)))) (.mul (.rd (.arr .jac 958)) (.rd (.arr .y 17)))) (.mul (.rd (.arr .jac 1012)) (.rd (.arr .y 18)))) (.mul (.rd (.arr .jac 1066)) (.rd (.arr .y 19)))) (.mul (.rd (.arr .jac 1120)) (.rd (.arr .y 20)))) (.mul (.rd (.arr .jac 1174)) (.rd (.arr .y 21)))) (.mul (.rd (.arr .jac 1228)) (.rd (.arr .y 22)))) (.mul (.rd (.arr .jac 1282)) (.rd (.arr .y 23)))) (.mul (.rd (.arr .jac 1336)) (.rd (.arr .y 24)))) (.mul (.rd (.arr .jac 1390)) (.rd (.arr .y 25)))) (.mul (.rd (.arr .jac 1444)) (.rd (.arr .y 26)))) (.mul (.rd (.arr .jac 1498)) (.rd (.arr .y 27)))) (.mul (.rd (.arr .jac 1552)) (.rd (.arr .y 28)))) (.mul (.rd (.arr .jac 1606)) (.rd (.arr .y 29)))) (.mul (.rd (.arr .jac 1660)) (.rd (.arr .y 30)))) (.mul (.rd (.arr .jac 1714)) (.rd (.arr .y 31)))) (.mul (.rd (.arr .jac 1768)) (.rd (.arr .y 32)))) (.mul (.rd (.arr .jac 1822)) (.rd (.arr .y 33)))) (.mul (.rd (.arr .jac 1876)) (.rd (.arr .y 34)))) (.mul (.rd (.arr .jac 1930)) (.rd (.arr .y 35)))) (.mul (.rd (.arr .jac 1984)) (.rd (.arr .y 36)))) (.mul (.rd (.arr .jac 2038)) (.rd (.arr .y 37)))) (.mul (.rd (.arr .jac 2092)) (.rd (.arr .y 38)))) (.mul (.rd (.arr .jac 2146)) (.rd (.arr .y 39)))) (.mul (.rd (.arr .jac 2200)) (.rd (.arr .y 40)))) (.mul (.rd (.arr .jac 2254)) (.rd (.arr .y 41)))) (.mul (.rd (.arr .jac 2308)) (.rd (.arr .y 42)))) (.mul (.rd (.arr .jac 2362)) (.rd (.arr .y 43)))) (.mul (.rd (.arr .jac 2416)) (.rd (.arr .y 44)))) (.mul (.rd (.arr .jac 2470)) (.rd (.arr .y 45)))) (.mul (.rd (.arr .jac 2524)) (.rd (.arr .y 46)))) (.mul (.rd (.arr .jac 2578)) (.rd (.arr .y 47)))) (.mul (.rd (.arr .jac 2632)) (.rd (.arr .y 48)))) (.mul (.rd (.arr .jac 2686)) (.rd (.arr .y 49)))) (.mul (.rd (.arr .jac 2740)) (.rd (.arr .y 50)))) (.mul (.rd (.arr .jac 2794)) (.rd (.arr .y 51)))) (.mul (.rd (.arr .jac 2848)) (.rd (.arr .y 52)))) (.mul (.rd (.arr .jac 2902)) (.rd (.arr .y 53)))),
  .set (.arr .dy 41) (.add (.add (.add (.add (.add (.add (.add (.add (.add (.add (.add (.add (.add (.add (.add (.add (.add (.add (.add (.add (.add (.add (.add (.add (.add (.add (.add (.add (.add (.add (.add (.add (.add (.add (.add (.add (.add (.add (.add (.add (.add (.add (.add (.add (.add (.add (.add (.add (.add (.add (.add (.add (.add (.mul (.rd (.arr .jac 41)) (.rd (.arr .y 0))) (.mul (.rd (.arr .jac 95)) (.rd (.arr .y 1)))) (.mul (.rd (.arr .jac 149)) (.rd (.arr .y 2)))) (.mul (.rd (.arr .jac 203)) (.rd (.arr .y 3)))) (.mul (.rd (.arr .jac 257)) (.rd (.arr .y 4)))) (.mul (.rd (.arr .jac 311)) (.rd (.arr .y 5)))) (.mul (.rd (.arr .jac 365)) (.rd (.arr .y 6)))) (.mul (.rd (.arr .jac 419)) (.rd (.arr .y 7)))) (.mul (.rd (.arr .jac 473)) (.rd (.arr .y 8)))) (.mul (.rd (.arr .jac 527)) (.rd (.arr .y 9)))) (.mul (.rd (.arr .jac 581)) (.rd (.arr .y 10)))) (.mul (.rd (.arr .jac 635)) (.rd (.arr .y 11)))) (.mul (.rd (.arr .jac 689)) (.rd (.arr .y 12)))) (.mul (.rd (.arr .jac 743)) (.rd (.arr .y 13)))) (.mul (.rd (.arr .jac 797)) (.rd (.arr .y 14)))) (.mul (.rd (.arr .jac 851)) (.rd (.arr .y 15)))) (.mul (.rd (.arr .jac 905)) (.rd (.arr .y 16)))) (.mul (.rd (.arr .jac 959)) (.rd (.arr .y 17)))) (.mul (.rd (.arr .jac 1013)) (.rd (.arr .y 18)))) (.mul (.rd (.arr .jac 1067)) (.rd (.arr .y 19)))) (.mul (.rd (.arr .jac 1121)) (.rd (.arr .y 20)))) (.mul (.rd (.arr .jac 1175)) (.rd (.arr .y 21)))) (.mul (.rd (.arr .jac 1229)) (.rd (.arr .y 22)))) (.mul (.rd (.arr .jac 1283)) (.rd (.arr .y 23)))) (.mul (.rd (.arr .jac 1337)) (.rd (.arr .y 24)))) (.mul (.rd (.arr .jac 1391)) (.rd (.arr .y 25)))) (.mul (.rd (.arr .jac 1445)) (.rd (.arr .y 26)))) (.mul (.rd (.arr .jac 1499)) (.rd (.arr .y 27)))) (.mul (.rd (.arr .jac 1553)) (.rd (.arr .y 28)))) (.mul (.rd (.arr .jac 1607)) (.rd (.arr .y 29)))) (.mul (.rd (.arr .jac 1661)) (.rd (.arr .y 30)))) (.mul (.rd (.arr .jac 1715)) (.rd (.arr .y 31)))) (.mul (.rd (.arr .jac 1769)) (.rd (.arr .y 32)))) (.mul (.rd (.arr .jac 1823)) (.rd (.arr .y 33)))) (.mul (.rd (.arr .jac 1877)) (.rd (.arr .y 34)))) (.mul (.rd (.arr .jac 1931)) (.rd (.arr .y 35)))) (.mul (.rd (.arr .jac 1985)) (.rd (.arr .y 36)))) (.mul (.rd (.arr .jac 2039)) (.rd (.arr .y 37)))) (.mul (.rd (.arr .jac 2093)) (.rd (.arr .y 38)))) (.mul (.rd (.arr .jac 2147)) (.rd (.arr .y 39)))) (.mul (.rd (.arr .jac 2201)) (.rd (.arr .y 40)))) (.mul (.rd (.arr .jac 2255)) (.rd (.arr .y 41)))) (.mul (.rd (.arr .jac 2309)) (.rd (.arr .y 42)))) (.mul (.rd (.arr .jac 2363)) (.rd (.arr .y 43)))) (.mul (.rd (.arr .jac 2417)) (.rd (.arr .y 44)))) (.mul (.rd (.arr .jac 2471)) (.rd (.arr .y 45)))) (.mul (.rd (.arr .jac 2525)) (.rd (.arr .y 46)))) (.mul (.rd (.arr .jac 2579)) (.rd (.arr .y 47)))) (.mul (.rd (.arr .jac 2633)) (.rd (.arr .y 48)))) (.mul (.rd (.arr .jac 2687)) (.rd (.arr .y 49)))) (.mul (.rd (.arr .jac 2741)) (.rd (.arr .y 50)))) (.mul (.rd (.arr .jac 2795)) (.rd (.arr .y 51)))) (.mul (.rd (.arr .jac 2849)) (.rd (.arr .y 52)))) (.mul (.rd (.arr .jac 2903)) (.rd (.arr .y 53)))),
  .set (.arr .dy 42) (.add (.add (.add (.add (.add (.add (.add (.add (.add (.add (.add (.add (.add (.add (.add (.add (.add (.add (.add (.add (.add (.add (.add (.add (.add (.add (.add (.add (.add (.add (.add (.add (.add (.add (.add (.add (.add (.add (.add (.add (.add (.add (.add (.add (.add (.add (.add (.add (.add (.add (.add (.add (.add (.mul (.rd (.arr .jac 42)) (.rd (.arr .y 0))) (.mul (.rd (.arr .jac 96)) (.rd (.arr .y 1)))) (.mul (.rd (.arr .jac 150)) (.rd (.arr .y 2)))) (.mul (.rd (.arr .jac 204)) (.rd (.arr .y 3)))) (.mul (.rd (.arr .jac 258)) (.rd (.arr .y 4)))) (.mul (.rd (.arr .jac 312)) (.rd (.arr .y 5)))) (.mul (.rd (.arr .jac 366)) (.rd (.arr .y 6)))) (.mul (.rd (.arr .jac 420)) (.rd (.arr .y 7)))) (.mul (.rd (.arr .jac 474)) (.rd (.arr .y 8)))) (.mul (.rd (.arr .jac 528)) (.rd (.arr .y 9)))) (.mul (.rd (.arr .jac 582)) (.rd (.arr .y 10)))) (.mul (.rd (.arr .jac 636)) (.rd (.arr .y 11)))) (.mul (.rd (.arr .jac 690)) (.rd (.arr .y 12)))) (.mul (.rd (.arr .jac 744)) (.rd (.arr .y 13)))) (.mul (.rd (.arr .jac 798)) (.rd (.arr .y 14)))) (.mul (.rd (.arr .jac 852)) (.rd (.arr .y 15)))) (.mul (.rd (.arr .jac 906)) (.rd (.arr .y 16)))) (.mul (.rd (.arr .jac 960)) (.rd (.arr .y 17)))) (.mul (.rd (.arr .jac 1014)) (.rd (.arr .y 18)))) (.mul (.rd (.arr .jac 1068)) (.rd (.arr .y 19)))) (.mul (.rd (.arr .jac 1122)) (.rd (.arr .y 20)))) (.mul (.rd (.arr .jac 1176)) (.rd (.arr .y 21)))) (.mul (.rd (.arr .jac 1230)) (.rd (.arr .y 22)))) (.mul (.rd (.arr .jac 1284)) (.rd (.arr .y 23)))) (.mul (.rd (.arr .jac 1338)) (.rd (.arr .y 24)))) (.mul (.rd (.arr .jac 1392)) (.rd (.arr .y 25)))) (.mul (.rd (.arr .jac 1446)) (.rd (.arr .y 26)))) (.mul (.rd (.arr .jac 1500)) (.rd (.arr .y 27)))) (.mul (.rd (.arr .jac 1554)) (.rd (.arr .y 28)))) (.mul (.rd (.arr .jac 1608)) (.rd (.arr .y 29)))) (.mul (.rd (.arr .jac 1662)) (.rd (.arr .y 30)))) (.mul (.rd (.arr .jac 1716)) (.rd (.arr .y 31)))) (.mul (.rd (.arr .jac 1770)) (.rd (.arr .y 32)))) (.mul (.rd (.arr .jac 1824)) (.rd (.arr .y 33)))) (.mul (.rd (.arr .jac 1878)) (.rd (.arr .y 34)))) (.mul (.rd (.arr .jac 1932)) (.rd (.arr .y 35)))) (.mul (.rd (.arr .jac 1986)) (.rd (.arr .y 36)))) (.mul (.rd (.arr .jac 2040)) (.rd (.arr .y 37)))) (.mul (.rd (.arr .jac 2094)) (.rd (.arr .y 38)))) (.mul (.rd (.arr .jac 2148)) (.rd (.arr .y 39)))) (.mul (.rd (.arr .jac 2202)) (.rd (.arr .y 40)))) (.mul (.rd (.arr .jac 2256)) (.rd (.arr .y 41)))) (.mul (.rd (.arr .jac 2310)) (.rd (.arr .y 42)))) (.mul (.rd (.arr .jac 2364)) (.rd (.arr .y 43)))) (.mul (.rd (.arr .jac 2418)) (.rd (.arr .y 44)))) (.mul (.rd (.arr .jac 2472)) (.rd (.arr .y 45)))) (.mul (.rd (.arr .jac 2526)) (.rd (.arr .y 46)))) (.mul (.rd (.arr .jac 2580)) (.rd (.arr .y 47)))) (.mul (.rd (.arr .jac 2634)) (.rd (.arr .y 48)))) (.mul (.rd (.arr .jac 2688)) (.rd (.arr .y 49)))) (.mul (.rd (.arr .jac 2742)) (.rd (.arr .y 50)))) (.mul (.rd (.arr .jac 2796)) (.rd (.arr .y 51)))) (.mul (.rd (.arr .jac 2850)) (.rd (.arr .y 52)))) (.mul (.rd (.arr .jac 2904)) (.rd (.arr .y 53)))),
  .set (.arr .dy 43) (.add (.add (.add (.add (.add (.add (.add (.add (.add (.add (.add (.add (.add (.add (.add (.add (.add (.add (.add (.add (.add (.add (.add (.add (.add (.add (.add (.add (.add (.add (.add (.add (.add (.add (.add (.add (.add (.add (.add (.add (.add (.add (.add (.add (.add (.add (.add (.add (.add (.add (.add (.add (.add (.mul (.rd (.arr .jac 43)) (.rd (.arr .y 0))) (.mul (.rd (.arr .jac 97)) (.rd (.arr .y 1)))) (.mul (.rd (.arr .jac 151)) (.rd (.arr .y 2)))) (.mul (.rd (.arr .jac 205)) (.rd (.arr .y 3)))) (.mul (.rd (.arr .jac 259)) (.rd (.arr .y 4)))) (.mul (.rd (.arr .jac 313)) (.rd (.arr .y 5)))) (.mul (.rd (.arr .jac 367)) (.rd (.arr .y 6)))) (.mul (.rd (.arr .jac 421)) (.rd (.arr .y 7)))) (.mul (.rd (.arr .jac 475)) (.rd (.arr .y 8)))) (.mul (.rd (.arr .jac 529)) (.rd (.arr .y 9)))) (.mul (.rd (.arr .jac 583)) (.rd (.arr .y 10)))) (.mul (.rd (.arr .jac 637)) (.rd (.arr .y 11)))) (.mul (.rd (.arr .jac 691)) (.rd (.arr .y 12)))) (.mul (.rd (.arr .jac 745)) (.rd (.arr .y 13)))) (.mul (.rd (.arr .jac 799)) (.rd (.arr .y 14)))) (.mul (.rd (.arr .jac 853)) (.rd (.arr .y 15)))) (.mul (.rd (.arr .jac 907)) (.rd (.arr .y 16)))) (.mul (.rd (.arr .jac 961)) (.rd (.arr .y 17)))) (.mul (.rd (.arr .jac 1015)) (.rd (.arr .y 18)))) (.mul (.rd (.arr .jac 1069)) (.rd (.arr .y 19)))) (.mul (.rd (.arr .jac 1123)) (.rd (.arr .y 20)))) (.mul (.rd (.arr .jac 1177)) (.rd (.arr .y 21)))) (.mul (.rd (.arr .jac 1231)) (.rd (.arr .y 22)))) (.mul (.rd (.arr .jac 1285)) (.rd (.arr .y 23)))) (.mul (.rd (.arr .jac 1339)) (.rd (.arr .y 24)))) (.mul (.rd (.arr .jac 1393)) (.rd (.arr .y 25)))) (.mul (.rd (.arr .jac 1447)) (.rd (.arr .y 26)))) (.mul (.rd (.arr .jac 1501)) (.rd (.arr .y 27)))) (.mul (.rd (.arr .jac 1555)) (.rd (.arr .y 28)))) (.mul (.rd (.arr .jac 1609)) (.rd (.arr .y 29)))) (.mul (.rd (.arr .jac 1663)) (.rd (.arr .y 30)))) (.mul (.rd (.arr .jac 1717)) (.rd (.arr .y 31)))) (.mul (.rd (.arr .jac 1771)) (.rd (.arr .y 32)))) (.mul (.rd (.arr .jac 1825)) (.rd (.arr .y 33)))) (.mul (.rd (.arr .jac 1879)) (.rd (.arr .y 34)))) (.mul (.rd (.arr .jac 1933)) (.rd (.arr .y 35)))) (.mul (.rd (.arr .jac 1987)) (.rd (.arr .y 36)))) (.mul (.rd (.arr .jac 2041)) (.rd (.arr .y 37)))) (.mul (.rd (.arr .jac 2095)) (.rd (.arr .y 38)))) (.mul (.rd (.arr .jac 2149)) (.rd (.arr .y 39)))) (.mul (.rd (.arr .jac 2203)) (.rd (.arr .y 40)))) (.mul (.rd (.arr .jac 2257)) (.rd (.arr .y 41)))) (.mul (.rd (.arr .jac 2311)) (.rd (.arr .y 42)))) (.mul (.rd (.arr .jac 2365)) (.rd (.arr .y 43)))) (.mul (.rd (.arr .jac 2419)) (.rd (.arr .y 44)))) (.mul (.rd (.arr .jac 2473)) (.rd (.arr .y 45)))) (.mul (.rd (.arr .jac 2527)) (.rd (.arr .y 46)))) (.mul (.rd (.arr .jac 2581)) (.rd (.arr .y 47)))) (.mul (.rd (.arr .jac 2635)) (.rd (.arr .y 48)))) (.mul (.rd (.arr .jac 2689)) (.rd (.arr .y 49)))) (.mul (.rd (.arr .jac 2743)) (.rd (.arr .y 50)))) (.mul (.rd (.arr .jac 2797)) (.rd (.arr .y 51)))) (.mul (.rd (.arr .jac 2851)) (.rd (.arr .y 52)))) (.mul (.rd (.arr .jac 2905)) (.rd (.arr .y 53)))),
  .set (.arr .dy 44) (.add (.add (.add (.add (.add (.add (.add (.add (.add (.add (.add (.add (.add (.add (.add (.add (.add (.add (.add (.add (.add (.add (.add (.add (.add (.add (.add (.add (.add (.add (.add (.add (.add (.add (.add (.add (.add (.add (.add (.add (.add (.add (.add (.add (.add (.add (.add (.add (.add (.add (.add (.add (.add (.mul (.rd (.arr .jac 44)) (.rd (.arr .y 0))) (.mul (.rd (.arr .jac 98)) (.rd (.arr .y 1)))) (.mul (.rd (.arr .jac 152)) (.rd (.arr .y 2)))) (.mul (.rd (.arr .jac 206)) (.rd (.arr .y 3)))) (.mul (.rd (.arr .jac 260)) (.rd (.arr .y 4)))) (.mul (.rd (.arr .jac 314)) (.rd (.arr .y 5)))) (.mul (.rd (.arr .jac 368)) (.rd (.arr .y 6)))) (.mul (.rd (.arr .jac 422)) (.rd (.arr .y 7)))) (.mul (.rd (.arr .jac 476)) (.rd (.arr .y 8)))) (.mul (.rd (.arr .jac 530)) (.rd (.arr .y 9)))) (.mul (.rd (.arr .jac 584)) (.rd (.arr .y 10)))) (.mul (.rd (.arr .jac 638)) (.rd (.arr .y 11)))) (.mul (.rd (.arr .jac 692)) (.rd (.arr .y 12)))) (.mul (.rd (.arr .jac 746)) (.rd (.arr .y 13)))) (.mul (.rd (.arr .jac 800)) (.rd (.arr .y 14)))) (.mul (.rd (.arr .jac 854)) (.rd (.arr .y 15)))) (.mul (.rd (.arr .jac 908)) (.rd (.arr .y 16)))) (.mul (.rd (.arr .jac 962)) (.rd (.arr .y 17)))) (.mul (.rd (.arr .jac 1016)) (.rd (.arr .y 18)))) (.mul (.rd (.arr .jac 1070)) (.rd (.arr .y 19)))) (.mul (.rd (.arr .jac 1124)) (.rd (.arr .y 20)))) (.mul (.rd (.arr .jac 1178)) (.rd (.arr .y 21)))) (.mul (.rd (.arr .jac 1232)) (.rd (.arr .y 22)))) (.mul (.rd (.arr .jac 1286)) (.rd (.arr .y 23)))) (.mul (.rd (.arr .jac 1340)) (.rd (.arr .y 24)))) (.mul (.rd (.arr .jac 1394)) (.rd (.arr .y 25)))) (.mul (.rd (.arr .jac 1448)) (.rd (.arr .y 26)))) (.mul (.rd (.arr .jac 1502)) (.rd (.arr .y 27)))) (.mul (.rd (.arr .jac 1556)) (.rd (.arr .y 28)))) (.mul (.rd (.arr .jac 1610)) (.rd (.arr .y 29)))) (.mul (.rd (.arr .jac 1664)) (.rd (.arr .y 30)))) (.mul (.rd (.arr .jac 1718)) (.rd (.arr .y 31)))) (.mul (.rd (.arr .jac 1772)) (.rd (.arr .y 32)))) (.mul (.rd (.arr .jac 1826)) (.rd (.arr .y 33)))) (.mul (.rd (.arr .jac 1880)) (.rd (.arr .y 34)))) (.mul (.rd (.arr .jac 1934)) (.rd (.arr .y 35)))) (.mul (.rd (.arr .jac 1988)) (.rd (.arr .y 36)))) (.mul (.rd (.arr .jac 2042)) (.rd (.arr .y 37)))) (.mul (.rd (.arr .jac 2096)) (.rd (.arr .y 38)))) (.mul (.rd (.arr .jac 2150)) (.rd (.arr .y 39)))) (.mul (.rd (.arr .jac 2204)) (.rd (.arr .y 40)))) (.mul (.rd (.arr .jac 2258)) (.rd (.arr .y 41)))) (.mul (.rd (.arr .jac 2312)) (.rd (.arr .y 42)))) (.mul (.rd (.arr .jac 2366)) (.rd (.arr .y 43)))) (.mul (.rd (.arr .jac 2420)) (.rd (.arr .y 44)))) (.mul (.rd (.arr .jac 2474)) (.rd (.arr .y 45)))) (.mul (.rd (.arr .jac 2528)) (.rd (.arr .y 46)))) (.mul (.rd (.arr .jac 2582)) (.rd (.arr .y 47)))) (.mul (.rd (.arr .jac 2636)) (.rd (.arr .y 48)))) (.mul (.rd (.arr .jac 2690)) (.rd (.arr .y 49)))) (.mul (.rd (.arr .jac 2744)) (.rd (.arr .y 50)))) (.mul (.rd (.arr .jac 2798)) (.rd (.arr .y 51)))) (.mul (.rd (.arr .jac 2852)) (.rd (.arr .y 52)))) (.mul (.rd (.arr .jac 2906)) (.rd (.arr .y 53)))),
  .set (.arr .dy 45) (.add (.add (.add (.add (.add (.add (.add (.add (.add (.add (.add (.add (.add (.add (.add (.add (.add (.add (.add (.add (.add (.add (.add (.add (.add (.add (.add (.add (.add (.add (.add (.add (.add (.add (.add (.add (.add (.add (.add (.add (.add (.add (.add (.add (.add (.add (.add (.add (.add (.add (.add (.add (.add (.mul (.rd (.arr .jac 45)) (.rd (.arr .y 0))) (.mul (.rd (.arr .jac 99)) (.rd (.arr .y 1)))) (.mul (.rd (.arr .jac 153)) (.rd (.arr .y 2)))) (.mul (.rd (.arr .jac 207)) (.rd (.arr .y 3)))) (.mul (.rd (.arr .jac 261)) (.rd (.arr .y 4)))) (.mul (.rd (.arr .jac 315)) (.rd (.arr .y 5)))) (.mul (.rd (.arr .jac 369)) (.rd (.arr .y 6)))) (.mul (.rd (.arr .jac 423)) (.rd (.arr .y 7)))) (.mul (.rd (.arr .jac 477)) (.rd (.arr .y 8)))) (.mul (.rd (.arr .jac 531)) (.rd (.arr .y 9)))) (.mul (.rd (.arr .jac 585)) (.rd (.arr .y 10)))) (.mul (.rd (.arr .jac 639)) (.rd (.arr .y 11)))) (.mul (.rd (.arr .jac 693)) (.rd (.arr .y 12)))) (.mul (.rd (.arr .jac 747)) (.rd (.arr .y 13)))) (.mul (.rd (.arr .jac 801)) (.rd (.arr .y 14)))) (.mul (.rd (.arr .jac 855)) (.rd (.arr .y 15)))) (.mul (.rd (.arr .jac 909)) (.rd (.arr .y 16)))) (.mul (.rd (.arr .jac 963)) (.rd (.arr .y 17)))) (.mul (.rd (.arr .jac 1017)) (.rd (.arr .y 18)))) (.mul (.rd (.arr .jac 1071)) (.rd (.arr .y 19)))) (.mul (.rd (.arr .jac 1125)) (.rd (.arr .y 20)))) (.mul (.rd (.arr .jac 1179)) (.rd (.arr .y 21)))) (.mul (.rd (.arr .jac 1233)) (.rd (.arr .y 22)))) (.mul (.rd (.arr .jac 1287)) (.rd (.arr .y 23)))) (.mul (.rd (.arr .jac 1341)) (.rd (.arr .y 24)))) (.mul (.rd (.arr .jac 1395)) (.rd (.arr .y 25)))) (.mul (.rd (.arr .jac 1449)) (.rd (.arr .y 26)))) (.mul (.rd (.arr .jac 1503)) (.rd (.arr .y 27)))) (.mul (.rd (.arr .jac 1557)) (.rd (.arr .y 28)))) (.mul (.rd (.arr .jac 1611)) (.rd (.arr .y 29)))) (.mul (.rd (.arr .jac 1665)) (.rd (.arr .y 30)))) (.mul (.rd (.arr .jac 1719)) (.rd (.arr .y 31)))) (.mul (.rd (.arr .jac 1773)) (.rd (.arr .y 32)))) (.mul (.rd (.arr .jac 1827)) (.rd (.arr .y 33)))) (.mul (.rd (.arr .jac 1881)) (.rd (.arr .y 34)))) (.mul (.rd (.arr .jac 1935)) (.rd (.arr .y 35)))) (.mul (.rd (.arr .jac 1989)) (.rd (.arr .y 36)))) (.mul (.rd (.arr .jac 2043)) (.rd (.arr .y 37)))) (.mul (.rd (.arr .jac 2097)) (.rd (.arr .y 38)))) (.mul (.rd (.arr .jac 2151)) (.rd (.arr .y 39)))) (.mul (.rd (.arr .jac 2205)) (.rd (.arr .y 40)))) (.mul (.rd (.arr .jac 2259)) (.rd (.arr .y 41)))) (.mul (.rd (.arr .jac 2313)) (.rd (.arr .y 42)))) (.mul (.rd (.arr .jac 2367)) (.rd (.arr .y 43)))) (.mul (.rd (.arr .jac 2421)) (.rd (.arr .y 44)))) (.mul (.rd (.arr .jac 2475)) (.rd (.arr .y 45)))) (.mul (.rd (.arr .jac 2529)) (.rd (.arr .y 46)))) (.mul (.rd (.arr .jac 2583)) (.rd (.arr .y 47)))) (.mul (.rd (.arr .jac 2637)) (.rd (.arr .y 48)))) (.mul (.rd (.arr .jac 2691)) (.rd (.arr .y 49)))) (.mul (.rd (.arr .jac 2745)) (.rd (.arr .y 50)))) (.mul (.rd (.arr .jac 2799)) (.rd (.arr .y 51)))) (.mul (.rd (.arr .jac 2853)) (.rd (.arr .y 52)))) (.mul (.rd (.arr .jac 2907)) (.rd (.arr .y 53)))),
  .set (.arr .dy 46) (.add (.add (.add (.add (.add (.add (.add (.add (.add (.add (.add (.add (.add (.add (.add (.add (.add (.add (.add (.add (.add (.add (.add (.add (.add (.add (.add (.add (.add (.add (.add (.add (.add (.add (.add (.add (.add (.add (.add (.add (.add (.add (.add (.add (.add (.add (.add (.add (.add (.add (.add (.add (.add (.mul (.rd (.arr .jac 46)) (.rd (.arr .y 0))) (.mul (.rd (.arr .jac 100)) (.rd (.arr .y 1)))) (.mul (.rd (.arr .jac 154)) (.rd (.arr .y 2)))) (.mul (.rd (.arr .jac 208)) (.rd (.arr .y 3)))) (.mul (.rd (.arr .jac 262)) (.rd (.arr .y 4)))) (.mul (.rd (.arr .jac 316)) (.rd (.arr .y 5)))) (.mul (.rd (.arr .jac 370)) (.rd (.arr .y 6)))) (.mul (.rd (.arr .jac 424)) (.rd (.arr .y 7)))) (.mul (.rd (.arr .jac 478)) (.rd (.arr .y 8)))) (.mul (.rd (.arr .jac 532)) (.rd (.arr .y 9)))) (.mul (.rd (.arr .jac 586)) (.rd (.arr .y 10)))) (.mul (.rd (.arr .jac 640)) (.rd (.arr .y 11)))) (.mul (.rd (.arr .jac 694)) (.rd (.arr .y 12)))) (.mul (.rd (.arr .jac 748)) (.rd (.arr .y 13)))) (.mul (.rd (.arr .jac 802)) (.rd (.arr .y 14)))) (.mul (.rd (.arr .jac 856)) (.rd (.arr .y 15)))) (.mul (.rd (.arr .jac 910)) (.rd (.arr .y 16)))) (.mul (.rd (.arr .jac 964)) (.rd (.arr .y 17)))) (.mul (.rd (.arr .jac 1018)) (.rd (.arr .y 18)))) (.mul (.rd (.arr .jac 1072)) (.rd (.arr .y 19)))) (.mul (.rd (.arr .jac 1126)) (.rd (.arr .y 20)))) (.mul (.rd (.arr .jac 1180)) (.rd (.arr .y 21)))) (.mul (.rd (.arr .jac 1234)) (.rd (.arr .y 22)))) (.mul (.rd (.arr .jac 1288)) (.rd (.arr .y 23)))) (.mul (.rd (.arr .jac 1342)) (.rd (.arr .y 24)))) (.mul (.rd (.arr .jac 1396)) (.rd (.arr .y 25)))) (.mul (.rd (.arr .jac 1450)) (.rd (.arr .y 26)))) (.mul (.rd (.arr .jac 1504)) (.rd (.arr .y 27)))) (.mul (.rd (.arr .jac 1558)) (.rd (.arr .y 28)))) (.mul (.rd (.arr .jac 1612)) (.rd (.arr .y 29)))) (.mul (.rd (.arr .jac 1666)) (.rd (.arr .y 30)))) (.mul (.rd (.arr .jac 1720)) (.rd (.arr .y 31)))) (.mul (.rd (.arr .jac 1774)) (.rd (.arr .y 32)))) (.mul (.rd (.arr .jac 1828)) (.rd (.arr .y 33)))) (.mul (.rd (.arr .jac 1882)) (.rd (.arr .y 34)))) (.mul (.rd (.arr .jac 1936)) (.rd (.arr .y 35)))) (.mul (.rd (.arr .jac 1990)) (.rd (.arr .y 36)))) (.mul (.rd (.arr .jac 2044)) (.rd (.arr .y 37)))) (.mul (.rd (.arr .jac 2098)) (.rd (.arr .y 38)))) (.mul (.rd (.arr .jac 2152)) (.rd (.arr .y 39)))) (.mul (.rd (.arr .jac 2206)) (.rd (.arr .y 40)))) (.mul (.rd (.arr .jac 2260)) (.rd (.arr .y 41)))) (.mul (.rd (.arr .jac 2314)) (.rd (.arr .y 42)))) (.mul (.rd (.arr .jac 2368)) (.rd (.arr .y 43)))) (.mul (.rd (.arr .jac 2422)) (.rd (.arr .y 44)))) (.mul (.rd (.arr .jac 2476)) (.rd (.arr .y 45)))) (.mul (.rd (.arr .jac 2530)) (.rd (.arr .y 46)))) (.mul (.rd (.arr .jac 2584)) (.rd (.arr .y 47)))) (.mul (.rd (.arr .jac 2638)) (.rd (.arr .y 48)))) (.mul (.rd (.arr .jac 2692)) (.rd (.arr .y 49)))) (.mul (.rd (.arr .jac 2746)) (.rd (.arr .y 50)))) (.mul (.rd (.arr .jac 2800)) (.rd (.arr .y 51)))) (.mul (.rd (.arr .jac 2854)) (.rd (.arr .y 52)))) (.mul (.rd (.arr .jac 2908)) (.rd (.arr .y 53)))),
  .set (.arr .dy 47) (.add (.add (.add (.add (.add (.add (.add (.add (.add (.add (.add (.add (.add (.add (.add (.add (.add (.add (.add (.add (.add (.add (.add (.add (.add (.add (.add (.add (.add (.add (.add (.add (.add (.add (.add (.add (.add (.add (.add (.add (.add (.add (.add (.add (.add (.add (.add (.add (.add (.add (.add (.add (.add (.mul (.rd (.arr .jac 47)) (.rd (.arr .y 0))) (.mul (.rd (.arr .jac 101)) (.rd (.arr .y 1)))) (.mul (.rd (.arr .jac 155)) (.rd (.arr .y 2)))) (.mul (.rd (.arr .jac 209)) (.rd (.arr .y 3)))) (.mul (.rd (.arr .jac 263)) (.rd (.arr .y 4)))) (.mul (.rd (.arr .jac 317)) (.rd (.arr .y 5)))) (.mul (.rd (.arr .jac 371)) (.rd (.arr .y 6)))) (.mul (.rd (.arr .jac 425)) (.rd (.arr .y 7)))) (.mul (.rd (.arr .jac 479)) (.rd (.arr .y 8)))) (.mul (.rd (.arr .jac 533)) (.rd (.arr .y 9)))) (.mul (.rd (.arr .jac 587)) (.rd (.arr .y 10)))) (.mul (.rd (.arr .jac 641)) (.rd (.arr .y 11)))) (.mul (.rd (.arr .jac 695)) (.rd (.arr .y 12)))) (.mul (.rd (.arr .jac 749)) (.rd (.arr .y 13)))) (.mul (.rd (.arr .jac 803)) (.rd (.arr .y 14)))) (.mul (.rd (.arr .jac 857)) (.rd (.arr .y 15)))) (.mul (.rd (.arr .jac 911)) (.rd (.arr .y 16)))) (.mul (.rd (.arr .jac 965)) (.rd (.arr .y 17)))) (.mul (.rd (.arr .jac 1019)) (.rd (.arr .y 18)))) (.mul (.rd (.arr .jac 1073)) (.rd (.arr .y 19)))) (.mul (.rd (.arr .jac 1127)) (.rd (.arr .y 20)))) (.mul (.rd (.arr .jac 1181)) (.rd (.arr .y 21)))) (.mul (.rd (.arr .jac 1235)) (.rd (.arr .y 22)))) (.mul (.rd (.arr .jac 1289)) (.rd (.arr .y 23)))) (.mul (.rd (.arr .jac 1343)) (.rd (.arr .y 24)))) (.mul (.rd (.arr .jac 1397)) (.rd (.arr .y 25)))) (.mul (.rd (.arr .jac 1451)) (.rd (.arr .y 26)))) (.mul (.rd (.arr .jac 1505)) (.rd (.arr .y 27)))) (.mul (.rd (.arr .jac 1559)) (.rd (.arr .y 28)))) (.mul (.rd (.arr .jac 1613)) (.rd (.arr .y 29)))) (.mul (.rd (.arr .jac 1667)) (.rd (.arr .y 30)))) (.mul (.rd (.arr .jac 1721)) (.rd (.arr .y 31)))) (.mul (.rd (.arr .jac 1775)) (.rd (.arr .y 32)))) (.mul (.rd (.arr .jac 1829)) (.rd (.arr .y 33)))) (.mul (.rd (.arr .jac 1883)) (.rd (.arr .y 34)))) (.mul (.rd (.arr .jac 1937)) (.rd (.arr .y 35)))) (.mul (.rd (.arr .jac 1991)) (.rd (.arr .y 36)))) (.mul (.rd (.arr .jac 2045)) (.rd (.arr .y 37)))) (.mul (.rd (.arr .jac 2099)) (.rd (.arr .y 38)))) (.mul (.rd (.arr .jac 2153)) (.rd (.arr .y 39)))) (.mul (.rd (.arr .jac 2207)) (.rd (.arr .y 40)))) (.mul (.rd (.arr .jac 2261)) (.rd (.arr .y 41)))) (.mul (.rd (.arr .jac 2315)) (.rd (.arr .y 42)))) (.mul (.rd (.arr .jac 2369)) (.rd (.arr .y 43)))) (.mul (.rd (.arr .jac 2423)) (.rd (.arr .y 44)))) (.mul (.rd (.arr .jac 2477)) (.rd (.arr .y 45)))) (.mul (.rd (.arr .jac 2531)) (.rd (.arr .y 46)))) (.mul (.rd (.arr .jac 2585)) (.rd (.arr .y 47)))) (.mul (.rd (.arr .jac 2639)) (.rd (.arr .y 48)))) (.mul (.rd (.arr .jac 2693)) (.rd (.arr .y 49)))) (.mul (.rd (.arr .jac 2747)) (.rd (.arr .y 50)))) (.mul (.rd (.arr .jac 2801)) (.rd (.arr .y 51)))) (.mul (.rd (.arr .jac 2855)) (.rd (.arr .y 52)))) (.mul (.rd (.arr .jac 2909)) (.rd (.arr .y 53)))),
  .set (.arr .dy 48) (.add (.add (.add (.add (.add (.add (.add (.add (.add (.add (.add (.add (.add (.add (.add (.add (.add (.add (.add (.add (.add (.add (.add (.add (.add (.add (.add (.add (.add (.add (.add (.add (.add (.add (.add (.add (.add (.add (.add (.add (.add (.add (.add (.add (.add (.add (.add (.add (.add (.add (.add (.add (.add (.mul (.rd (.arr .jac 48)) (.rd (.arr .y 0))) (.mul (.rd (.arr .jac 102)) (.rd (.arr .y 1)))) (.mul (.rd (.arr .jac 156)) (.rd (.arr .y 2)))) (.mul (.rd (.arr .jac 210)) (.rd (.arr .y 3)))) (.mul (.rd (.arr .jac 264)) (.rd (.arr .y 4)))) (.mul (.rd (.arr .jac 318)) (.rd (.arr .y 5)))) (.mul (.rd (.arr .jac 372)) (.rd (.arr .y 6)))) (.mul (.rd (.arr .jac 426)) (.rd (.arr .y 7)))) (.mul (.rd (.arr .jac 480)) (.rd (.arr .y 8)))) (.mul (.rd (.arr .jac 534)) (.rd (.arr .y 9)))) (.mul (.rd (.arr .jac 588)) (.rd (.arr .y 10)))) (.mul (.rd (.arr .jac 642)) (.rd (.arr .y 11)))) (.mul (.rd (.arr .jac 696)) (.rd (.arr .y 12)))) (.mul (.rd (.arr .jac 750)) (.rd (.arr .y 13)))) (.mul (.rd (.arr .jac 804)) (.rd (.arr .y 14)))) (.mul (.rd (.arr .jac 858)) (.rd (.arr .y 15)))) (.mul (.rd (.arr .jac 912)) (.rd (.arr .y 16)))) (.mul (.rd (.arr .jac 966)) (.rd (.arr .y 17)))) (.mul (.rd (.arr .jac 1020)) (.rd (.arr .y 18)))) (.mul (.rd (.arr .jac 1074)) (.rd (.arr .y 19)))) (.mul (.rd (.arr .jac 1128)) (.rd (.arr .y 20)))) (.mul (.rd (.arr .jac 1182)) (.rd (.arr .y 21)))) (.mul (.rd (.arr .jac 1236)) (.rd (.arr .y 22)))) (.mul (.rd (.arr .jac 1290)) (.rd (.arr .y 23)))) (.mul (.rd (.arr .jac 1344)) (.rd (.arr .y 24)))) (.mul (.rd (.arr .jac 1398)) (.rd (.arr .y 25)))) (.mul (.rd (.arr .jac 1452)) (.rd (.arr .y 26)))) (.mul (.rd (.arr .jac 1506)) (.rd (.arr .y 27)))) (.mul (.rd (.arr .jac 1560)) (.rd (.arr .y 28)))) (.mul (.rd (.arr .jac 1614)) (.rd (.arr .y 29)))) (.mul (.rd (.arr .jac 1668)) (.rd (.arr .y 30)))) (.mul (.rd (.arr .jac 1722)) (.rd (.arr .y 31)))) (.mul (.rd (.arr .jac 1776)) (.rd (.arr .y 32)))) (.mul (.rd (.arr .jac 1830)) (.rd (.arr .y 33)))) (.mul (.rd (.arr .jac 1884)) (.rd (.arr .y 34)))) (.mul (.rd (.arr .jac 1938)) (.rd (.arr .y 35)))) (.mul (.rd (.arr .jac 1992)) (.rd (.arr .y 36)))) (.mul (.rd (.arr .jac 2046)) (.rd (.arr .y 37)))) (.mul (.rd (.arr .jac 2100)) (.rd (.arr .y 38)))) (.mul (.rd (.arr .jac 2154)) (.rd (.arr .y 39)))) (.mul (.rd (.arr .jac 2208)) (.rd (.arr .y 40)))) (.mul (.rd (.arr .jac 2262)) (.rd (.arr .y 41)))) (.mul (.rd (.arr .jac 2316)) (.rd (.arr .y 42)))) (.mul (.rd (.arr .jac 2370)) (.rd (.arr .y 43)))) (.mul (.rd (.arr .jac 2424)) (.rd (.arr .y 44)))) (.mul (.rd (.arr .jac 2478)) (.rd (.arr .y 45)))) (.mul (.rd (.arr .jac 2532)) (.rd (.arr .y 46)))) (.mul (.rd (.arr .jac 2586)) (.rd (.arr .y 47)))) (.mul (.rd (.arr .jac 2640)) (.rd (.arr .y 48)))) (.mul (.rd (.arr .jac 2694)) (.rd (.arr .y 49)))) (.mul (.rd (.arr .jac 2748)) (.rd (.arr .y 50)))) (.mul (.rd (.arr .jac 2802)) (.rd (.arr .y 51)))) (.mul (.rd (.arr .jac 2856)) (.rd (.arr .y 52)))) (.mul (.rd (.arr .jac 2910)) (.rd (.arr .y 53)))),
  .set (.arr .dy 49) (.add (.add (.add (.add (.add (.add (.add (.add (.add (.add (.add (.add (.add (.add (.add (.add (.add (.add (.add (.add (.add (.add (.add (.add (.add (.add (.add (.add (.add (.add (.add (.add (.add (.add (.add (.add (.add (.add (.add (.add (.add (.add (.add (.add (.add (.add (.add (.add (.add (.add (.add (.add (.add (.mul (.rd (.arr .jac 49)) (.rd (.arr .y 0))) (.mul (.rd (.arr .jac 103)) (.rd (.arr .y 1)))) (.mul (.rd (.arr .jac 157)) (.rd (.arr .y 2)))) (.mul (.rd (.arr .jac 211)) (.rd (.arr .y 3)))) (.mul (.rd (.arr .jac 265)) (.rd (.arr .y 4)))) (.mul (.rd (.arr .jac 319)) (.rd (.arr .y 5)))) (.mul (.rd (.arr .jac 373)) (.rd (.arr .y 6)))) (.mul (.rd (.arr .jac 427)) (.rd (.arr .y 7)))) (.mul (.rd (.arr .jac 481)) (.rd (.arr .y 8)))) (.mul (.rd (.arr .jac 535)) (.rd (.arr .y 9)))) (.mul (.rd (.arr .jac 589)) (.rd (.arr .y 10)))) (.mul (.rd (.arr .jac 643)) (.rd (.arr .y 11)))) (.mul (.rd (.arr .jac 697)) (.rd (.arr .y 12)))) (.mul (.rd (.arr .jac 751)) (.rd (.arr .y 13)))) (.mul (.rd (.arr .jac 805)) (.rd (.arr .y 14)))) (.mul (.rd (.arr .jac 859)) (.rd (.arr .y 15)))) (.mul (.rd (.arr .jac 913)) (.rd (.arr .y 16)))) (.mul (.rd (.arr .jac 967)) (.rd (.arr .y 17)))) (.mul (.rd (.arr .jac 1021)) (.rd (.arr .y 18)))) (.mul (.rd (.arr .jac 1075)) (.rd (.arr .y 19)))) (.mul (.rd (.arr .jac 1129)) (.rd (.arr .y 20)))) (.mul (.rd (.arr .jac 1183)) (.rd (.arr .y 21)))) (.mul (.rd (.arr .jac 1237)) (.rd (.arr .y 22)))) (.mul (.rd (.arr .jac 1291)) (.rd (.arr .y 23)))) (.mul (.rd (.arr .jac 1345)) (.rd (.arr .y 24)))) (.mul (.rd (.arr .jac 1399)) (.rd (.arr .y 25)))) (.mul (.rd (.arr .jac 1453)) (.rd (.arr .y 26)))) (.mul (.rd (.arr .jac 1507)) (.rd (.arr .y 27)))) (.mul (.rd (.arr .jac 1561)) (.rd (.arr .y 28)))) (.mul (.rd (.arr .jac 1615)) (.rd (.arr .y 29)))) (.mul (.rd (.arr .jac 1669)) (.rd (.arr .y 30)))) (.mul (.rd (.arr .jac 1723)) (.rd (.arr .y 31)))) (.mul (.rd (.arr .jac 1777)) (.rd (.arr .y 32)))) (.mul (.rd (.arr .jac 1831)) (.rd (.arr .y 33)))) (.mul (.rd (.arr .jac 1885)) (.rd (.arr .y 34)))) (.mul (.rd (.arr .jac 1939)) (.rd (.arr .y 35)))) (.mul (.rd (.arr .jac 1993)) (.rd (.arr .y 36)))) (.mul (.rd (.arr .jac 2047)) (.rd (.arr .y 37)))) (.mul (.rd (.arr .jac 2101)) (.rd (.arr .y 38)))) (.mul (.rd (.arr .jac 2155)) (.rd (.arr .y 39)))) (.mul (.rd (.arr .jac 2209)) (.rd (.arr .y 40)))) (.mul (.rd (.arr .jac 2263)) (.rd (.arr .y 41)))) (.mul (.rd (.arr .jac 2317)) (.rd (.arr .y 42)))) (.mul (.rd (.arr .jac 2371)) (.rd (.arr .y 43)))) (.mul (.rd (.arr .jac 2425)) (.rd (.arr .y 44)))) (.mul (.rd (.arr .jac 2479)) (.rd (.arr .y 45)))) (.mul (.rd (.arr .jac 2533)) (.rd (.arr .y 46)))) (.mul (.rd (.arr .jac 2587)) (.rd (.arr .y 47)))) (.mul (.rd (.arr .jac 2641)) (.rd (.arr .y 48)))) (.mul (.rd (.arr .jac 2695)) (.rd (.arr .y 49)))) (.mul (.rd (.arr .jac 2749)) (.rd (.arr .y 50)))) (.mul (.rd (.arr .jac 2803)) (.rd (.arr .y 51)))) (.mul (.rd (.arr .jac 2857)) (.rd (.arr .y 52)))) (.mul (.rd (.arr .jac 2911)) (.rd (.arr .y 53)))),
  .set (.arr .dy 50) (.add (.add (.add (.add (.add (.add (.add (.add (.add (.add (.add (.add (.add (.add (.add (.add (.add (.add (.add (.add (.add (.add (.add (.add (.add (.add (.add (.add (.add (.add (.add (.add (.add (.add (.add (.add (.add (.add (.add (.add (.add (.add (.add (.add (.add (.add (.add (.add (.add (.add (.add (.add (.add (.mul (.rd (.arr .jac 50)) (.rd (.arr .y 0))) (.mul (.rd (.arr .jac 104)) (.rd (.arr .y 1)))) (.mul (.rd (.arr .jac 158)) (.rd (.arr .y 2)))) (.mul (.rd (.arr .jac 212)) (.rd (.arr .y 3)))) (.mul (.rd (.arr .jac 266)) (.rd (.arr .y 4)))) (.mul (.rd (.arr .jac 320)) (.rd (.arr .y 5)))) (.mul (.rd (.arr .jac 374)) (.rd (.arr .y 6)))) (.mul (.rd (.arr .jac 428)) (.rd (.arr .y 7)))) (.mul (.rd (.arr .jac 482)) (.rd (.arr .y 8)))) (.mul (.rd (.arr .jac 536)) (.rd (.arr .y 9)))) (.mul (.rd (.arr .jac 590)) (.rd (.arr .y 10)))) (.mul (.rd (.arr .jac 644)) (.rd (.arr .y 11)))) (.mul (.rd (.arr .jac 698)) (.rd (.arr .y 12)))) (.mul (.rd (.arr .jac 752)) (.rd (.arr .y 13)))) (.mul (.rd (.arr .jac 806)) (.rd (.arr .y 14)))) (.mul (.rd (.arr .jac 860)) (.rd (.arr .y 15)))) (.mul (.rd (.arr .jac 914)) (.rd (.arr .y 16)))) (.mul (.rd (.arr .jac 968)) (.rd (.arr .y 17)))) (.mul (.rd (.arr .jac 1022)) (.rd (.arr .y 18)))) (.mul (.rd (.arr .jac 1076)) (.rd (.arr .y 19)))) (.mul (.rd (.arr .jac 1130)) (.rd (.arr .y 20)))) (.mul (.rd (.arr .jac 1184)) (.rd (.arr .y 21)))) (.mul (.rd (.arr .jac 1238)) (.rd (.arr .y 22)))) (.mul (.rd (.arr .jac 1292)) (.rd (.arr .y 23)))) (.mul (.rd (.arr .jac 1346)) (.rd (.arr .y 24)))) (.mul (.rd (.arr .jac 1400)) (.rd (.arr .y 25)))) (.mul (.rd (.arr .jac 1454)) (.rd (.arr .y 26)))) (.mul (.rd (.arr .jac 1508)) (.rd (.arr .y 27)))) (.mul (.rd (.arr .jac 1562)) (.rd (.arr .y 28)))) (.mul (.rd (.arr .jac 1616)) (.rd (.arr .y 29)))) (.mul (.rd (.arr .jac 1670)) (.rd (.arr .y 30)))) (.mul (.rd (.arr .jac 1724)) (.rd (.arr .y 31)))) (.mul (.rd (.arr .jac 1778)) (.rd (.arr .y 32)))) (.mul (.rd (.arr .jac 1832)) (.rd (.arr .y 33)))) (.mul (.rd (.arr .jac 1886)) (.rd (.arr .y 34)))) (.mul (.rd (.arr .jac 1940)) (.rd (.arr .y 35)))) (.mul (.rd (.arr .jac 1994)) (.rd (.arr .y 36)))) (.mul (.rd (.arr .jac 2048)) (.rd (.arr .y 37)))) (.mul (.rd (.arr .jac 2102)) (.rd (.arr .y 38)))) (.mul (.rd (.arr .jac 2156)) (.rd (.arr .y 39)))) (.mul (.rd (.arr .jac 2210)) (.rd (.arr .y 40)))) (.mul (.rd (.arr .jac 2264)) (.rd (.arr .y 41)))) (.mul (.rd (.arr .jac 2318)) (.rd (.arr .y 42)))) (.mul (.rd (.arr .jac 2372)) (.rd (.arr .y 43)))) (.mul (.rd (.arr .jac 2426)) (.rd (.arr .y 44)))) (.mul (.rd (.arr .jac 2480)) (.rd (.arr .y 45)))) (.mul (.rd (.arr .jac 2534)) (.rd (.arr .y 46)))) (.mul (.rd (.arr .jac 2588)) (.rd (.arr .y 47)))) (.mul (.rd (.arr .jac 2642)) (.rd (.arr .y 48)))) (.mul (.rd (.arr .jac 2696)) (.rd (.arr .y 49)))) (.mul (.rd (.arr .jac 2750)) (.rd (.arr .y 50)))) (.mul (.rd (.arr .jac 2804)) (.rd (.arr .y 51)))) (.mul (.rd (.arr .jac 2858)) (.rd (.arr .y 52)))) (.mul (.rd (.arr .jac 2912)) (.rd (.arr .y 53)))),
  .set (.arr .dy 51) (.add (.add (.add (.add (.add (.add (.add (.add (.add (.add (.add (.add (.add (.add (.add (.add (.add (.add (.add (.add (.add (.add (.add (.add (.add (.add (.add (.add (.add (.add (.add (.add (.add (.add (.add (.add (.add (.add (.add (.add (.add (.add (.add (.add (.add (.add (.add (.add (.add (.add (.add (.add (.add (.mul (.rd (.arr .jac 51)) (.rd (.arr .y 0))) (.mul (.rd (.arr .jac 105)) (.rd (.arr .y 1)))) (.mul (.rd (.arr .jac 159)) (.rd (.arr .y 2)))) (.mul (.rd (.arr .jac 213)) (.rd (.arr .y 3)))) (.mul (.rd (.arr .jac 267)) (.rd (.arr .y 4)))) (.mul (.rd (.arr .jac 321)) (.rd (.arr .y 5)))) (.mul (.rd (.arr .jac 375)) (.rd (.arr .y 6)))) (.mul (.rd (.arr .jac 429)) (.rd (.arr .y 7)))) (.mul (.rd (.arr .jac 483)) (.rd (.arr .y 8)))) (.mul (.rd (.arr .jac 537)) (.rd (.arr .y 9)))) (.mul (.rd (.arr .jac 591)) (.rd (.arr .y 10)))) (.mul (.rd (.arr .jac 645)) (.rd (.arr .y 11)))) (.mul (.rd (.arr .jac 699)) (.rd (.arr .y 12)))) (.mul (.rd (.arr .jac 753)) (.rd (.arr .y 13)))) (.mul (.rd (.arr .jac 807)) (.rd (.arr .y 14)))) (.mul (.rd (.arr .jac 861)) (.rd (.arr .y 15)))) (.mul (.rd (.arr .jac 915)) (.rd (.arr .y 16)))) (.mul (.rd (.arr .jac 969)) (.rd (.arr .y 17)))) (.mul (.rd (.arr .jac 1023)) (.rd (.arr .y 18)))) (.mul (.rd (.arr .jac 1077)) (.rd (.arr .y 19)))) (.mul (.rd (.arr .jac 1131)) (.rd (.arr .y 20)))) (.mul (.rd (.arr .jac 1185)) (.rd (.arr .y 21)))) (.mul (.rd (.arr .jac 1239)) (.rd (.arr .y 22)))) (.mul (.rd (.arr .jac 1293)) (.rd (.arr .y 23)))) (.mul (.rd (.arr .jac 1347)) (.rd (.arr .y 24)))) (.mul (.rd (.arr .jac 1401)) (.rd (.arr .y 25)))) (.mul (.rd (.arr .jac 1455)) (.rd (.arr .y 26)))) (.mul (.rd (.arr .jac 1509)) (.rd (.arr .y 27)))) (.mul (.rd (.arr .jac 1563)) (.rd (.arr .y 28)))) (.mul (.rd (.arr .jac 1617)) (.rd (.arr .y 29)))) (.mul (.rd (.arr .jac 1671)) (.rd (.arr .y 30)))) (.mul (.rd (.arr .jac 1725)) (.rd (.arr .y 31)))) (.mul (.rd (.arr .jac 1779)) (.rd (.arr .y 32)))) (.mul (.rd (.arr .jac 1833)) (.rd (.arr .y 33)))) (.mul (.rd (.arr .jac 1887)) (.rd (.arr .y 34)))) (.mul (.rd (.arr .jac 1941)) (.rd (.arr .y 35)))) (.mul (.rd (.arr .jac 1995)) (.rd (.arr .y 36)))) (.mul (.rd (.arr .jac 2049)) (.rd (.arr .y 37)))) (.mul (.rd (.arr .jac 2103)) (.rd (.arr .y 38)))) (.mul (.rd (.arr .jac 2157)) (.rd (.arr .y 39)))) (.mul (.rd (.arr .jac 2211)) (.rd (.arr .y 40)))) (.mul (.rd (.arr .jac 2265)) (.rd (.arr .y 41)))) (.mul (.rd (.arr .jac 2319)) (.rd (.arr .y 42)))) (.mul (.rd (.arr .jac 2373)) (.rd (.arr .y 43)))) (.mul (.rd (.arr .jac 2427)) (.rd (.arr .y 44)))) (.mul (.rd (.arr .jac 2481)) (.rd (.arr .y 45)))) (.mul (.rd (.arr .jac 2535)) (.rd (.arr .y 46)))) (.mul (.rd (.arr .jac 2589)) (.rd (.arr .y 47)))) (.mul (.rd (.arr .jac 2643)) (.rd (.arr .y 48)))) (.mul (.rd (.arr .jac 2697)) (.rd (.arr .y 49)))) (.mul (.rd (.arr .jac 2751)) (.rd (.arr .y 50)))) (.mul (.rd (.arr .jac 2805)) (.rd (.arr .y 51)))) (.mul (.rd (.arr .jac 2859)) (.rd (.arr .y 52)))) (.mul (.rd (.arr .jac 2913)) (.rd (.arr .y 53)))),
  .set (.arr .dy 52) (.add (.add (.add (.add (.add (.add (.add (.add (.add (.add (.add (.add (.add (.add (.add (.add (.add (.add (.add (.add (.add (.add (.add (.add (.add (.add (.add (.add (.add (.add (.add (.add (.add (.add (.add (.add (.add (.add (.add (.add (.add (.add (.add (.add (.add (.add (.add (.add (.add (.add (.add (.add (.add (.mul (.rd (.arr .jac 52)) (.rd (.arr .y 0))) (.mul (.rd (.arr .jac 106)) (.rd (.arr .y 1)))) (.mul (.rd (.arr .jac 160)) (.rd (.arr .y 2)))) (.mul (.rd (.arr .jac 214)) (.rd (.arr .y 3)))) (.mul (.rd (.arr .jac 268)) (.rd (.arr .y 4)))) (.mul (.rd (.arr .jac 322)) (.rd (.arr .y 5)))) (.mul (.rd (.arr .jac 376)) (.rd (.arr .y 6)))) (.mul (.rd (.arr .jac 430)) (.rd (.arr .y 7)))) (.mul (.rd (.arr .jac 484)) (.rd (.arr .y 8)))) (.mul (.rd (.arr .jac 538)) (.rd (.arr .y 9)))) (.mul (.rd (.arr .jac 592)) (.rd (.arr .y 10)))) (.mul (.rd (.arr .jac 646)) (.rd (.arr .y 11)))) (.mul (.rd (.arr .jac 700)) (.rd (.arr .y 12)))) (.mul (.rd (.arr .jac 754)) (.rd (.arr .y 13)))) (.mul (.rd (.arr .jac 808)) (.rd (.arr .y 14)))) (.mul (.rd (.arr .jac 862)) (.rd (.arr .y 15)))) (.mul (.rd (.arr .jac 916)) (.rd (.arr .y 16)))) (.mul (.rd (.arr .jac 970)) (.rd (.arr .y 17)))) (.mul (.rd (.arr .jac 1024)) (.rd (.arr .y 18)))) (.mul (.rd (.arr .jac 1078)) (.rd (.arr .y 19)))) (.mul (.rd (.arr .jac 1132)) (.rd (.arr .y 20)))) (.mul (.rd (.arr .jac 1186)) (.rd (.arr .y 21)))) (.mul (.rd (.arr .jac 1240)) (.rd (.arr .y 22)))) (.mul (.rd (.arr .jac 1294)) (.rd (.arr .y 23)))) (.mul (.rd (.arr .jac 1348)) (.rd (.arr .y 24)))) (.mul (.rd (.arr .jac 1402)) (.rd (.arr .y 25)))) (.mul (.rd (.arr .jac 1456)) (.rd (.arr .y 26)))) (.mul (.rd (.arr .jac 1510)) (.rd (.arr .y 27)))) (.mul (.rd (.arr .jac 1564)) (.rd (.arr .y 28)))) (.mul (.rd (.arr .jac 1618)) (.rd (.arr .y 29)))) (.mul (.rd (.arr .jac 1672)) (.rd (.arr .y 30)))) (.mul (.rd (.arr .jac 1726)) (.rd (.arr .y 31)))) (.mul (.rd (.arr .jac 1780)) (.rd (.arr .y 32)))) (.mul (.rd (.arr .jac 1834)) (.rd (.arr .y 33)))) (.mul (.rd (.arr .jac 1888)) (.rd (.arr .y 34)))) (.mul (.rd (.arr .jac 1942)) (.rd (.arr .y 35)))) (.mul (.rd (.arr .jac 1996)) (.rd (.arr .y 36)))) (.mul (.rd (.arr .jac 2050)) (.rd (.arr .y 37)))) (.mul (.rd (.arr .jac 2104)) (.rd (.arr .y 38)))) (.mul (.rd (.arr .jac 2158)) (.rd (.arr .y 39)))) (.mul (.rd (.arr .jac 2212)) (.rd (.arr .y 40)))) (.mul (.rd (.arr .jac 2266)) (.rd (.arr .y 41)))) (.mul (.rd (.arr .jac 2320)) (.rd (.arr .y 42)))) (.mul (.rd (.arr .jac 2374)) (.rd (.arr .y 43)))) (.mul (.rd (.arr .jac 2428)) (.rd (.arr .y 44)))) (.mul (.rd (.arr .jac 2482)) (.rd (.arr .y 45)))) (.mul (.rd (.arr .jac 2536)) (.rd (.arr .y 46)))) (.mul (.rd (.arr .jac 2590)) (.rd (.arr .y 47)))) (.mul (.rd (.arr .jac 2644)) (.rd (.arr .y 48)))) (.mul (.rd (.arr .jac 2698)) (.rd (.arr .y 49)))) (.mul (.rd (.arr .jac 2752)) (.rd (.arr .y 50)))) (.mul (.rd (.arr .jac 2806)) (.rd (.arr .y 51)))) (.mul (.rd (.arr .jac 2860)) (.rd (.arr .y 52)))) (.mul (.rd (.arr .jac 2914)) (.rd (.arr .y 53)))),
  .set (.arr .dy 53) (.add (.add (.add (.add (.add (.add (.add (.add (.add (.add (.add (.add (.add (.add (.add (.add (.add (.add (.add (.add (.add (.add (.add (.add (.add (.add (.add (.add (.add (.add (.add (.add (.add (.add (.add (.add (.add (.add (.add (.add (.add (.add (.add (.add (.add (.add (.add (.add (.add (.add (.add (.add (.add (.mul (.rd (.arr .jac 53)) (.rd (.arr .y 0))) (.mul (.rd (.arr .jac 107)) (.rd (.arr .y 1)))) (.mul (.rd (.arr .jac 161)) (.rd (.arr .y 2)))) (.mul (.rd (.arr .jac 215)) (.rd (.arr .y 3)))) (.mul (.rd (.arr .jac 269)) (.rd (.arr .y 4)))) (.mul (.rd (.arr .jac 323)) (.rd (.arr .y 5)))) (.mul (.rd (.arr .jac 377)) (.rd (.arr .y 6)))) (.mul (.rd (.arr .jac 431)) (.rd (.arr .y 7)))) (.mul (.rd (.arr .jac 485)) (.rd (.arr .y 8)))) (.mul (.rd (.arr .jac 539)) (.rd (.arr .y 9)))) (.mul (.rd (.arr .jac 593)) (.rd (.arr .y 10)))) (.mul (.rd (.arr .jac 647)) (.rd (.arr .y 11)))) (.mul (.rd (.arr .jac 701)) (.rd (.arr .y 12)))) (.mul (.rd (.arr .jac 755)) (.rd (.arr .y 13)))) (.mul (.rd (.arr .jac 809)) (.rd (.arr .y 14)))) (.mul (.rd (.arr .jac 863)) (.rd (.arr .y 15)))) (.mul (.rd (.arr .jac 917)) (.rd (.arr .y 16)))) (.mul (.rd (.arr .jac 971)) (.rd (.arr .y 17)))) (.mul (.rd (.arr .jac 1025)) (.rd (.arr .y 18)))) (.mul (.rd (.arr .jac 1079)) (.rd (.arr .y 19)))) (.mul (.rd (.arr .jac 1133)) (.rd (.arr .y 20)))) (.mul (.rd (.arr .jac 1187)) (.rd (.arr .y 21)))) (.mul (.rd (.arr .jac 1241)) (.rd (.arr .y 22)))) (.mul (.rd (.arr .jac 1295)) (.rd (.arr .y 23)))) (.mul (.rd (.arr .jac 1349)) (.rd (.arr .y 24)))) (.mul (.rd (.arr .jac 1403)) (.rd (.arr .y 25)))) (.mul (.rd (.arr .jac 1457)) (.rd (.arr .y 26)))) (.mul (.rd (.arr .jac 1511)) (.rd (.arr .y 27)))) (.mul (.rd (.arr .jac 1565)) (.rd (.arr .y 28)))) (.mul (.rd (.arr .jac 1619)) (.rd (.arr .y 29)))) (.mul (.rd (.arr .jac 1673)) (.rd (.arr .y 30)))) (.mul (.rd (.arr .jac 1727)) (.rd (.arr .y 31)))) (.mul (.rd (.arr .jac 1781)) (.rd (.arr .y 32)))) (.mul (.rd (.arr .jac 1835)) (.rd (.arr .y 33)))) (.mul (.rd (.arr .jac 1889)) (.rd (.arr .y 34)))) (.mul (.rd (.arr .jac 1943)) (.rd (.arr .y 35)))) (.mul (.rd (.arr .jac 1997)) (.rd (.arr .y 36)))) (.mul (.rd (.arr .jac 2051)) (.rd (.arr .y 37)))) (.mul (.rd (.arr .jac 2105)) (.rd (.arr .y 38)))) (.mul (.rd (.arr .jac 2159)) (.rd (.arr .y 39)))) (.mul (.rd (.arr .jac 2213)) (.rd (.arr .y 40)))) (.mul (.rd (.arr .jac 2267)) (.rd (.arr .y 41)))) (.mul (.rd (.arr .jac 2321)) (.rd (.arr .y 42)))) (.mul (.rd (.arr .jac 2375)) (.rd (.arr .y 43)))) (.mul (.rd (.arr .jac 2429)) (.rd (.arr .y 44)))) (.mul (.rd (.arr .jac 2483)) (.rd (.arr .y 45)))) (.mul (.rd (.arr .jac 2537)) (.rd (.arr .y 46)))) (.mul (.rd (.arr .jac 2591)) (.rd (.arr .y 47)))) (.mul (.rd (.arr .jac 2645)) (.rd (.arr .y 48)))) (.mul (.rd (.arr .jac 2699)) (.rd (.arr .y 49)))) (.mul (.rd (.arr .jac 2753)) (.rd (.arr .y 50)))) (.mul (.rd (.arr .jac 2807)) (.rd (.arr .y 51)))) (.mul (.rd (.arr .jac 2861)) (.rd (.arr .y 52)))) (.mul (.rd (.arr .jac 2915)) (.rd (.arr .y 53))))]

end DLB.Mech.Yao
