/- Generated by tools/gen_mechanisms.py from utilities/mechanisms/yao/lib/src/jacob.c. Do not edit. -/
import Verif.Model.CLang
set_option autoImplicit false

namespace DLB.Mech.Yao
open DLB

/-- `m` and `logT`, utilities/mechanisms/yao/lib/src/jacob.c:29-30 -/
def jacobPre : List CStmt := [
  .set (.var .m) (.div (.rd (.var .pres)) (.mul (.num 83144621 4) (.rd (.var .T)))),
  .set (.var .logT) (.log (.rd (.var .T)))]

/-- the assignments to dBdT, utilities/mechanisms/yao/lib/src/jacob.c:32-154 -/
def jacobDBdT : List CStmt := [
  .ite (.rd (.var .T)) (.num 1000 0) (.arr .dBdT 0) (.add (.add (.div (.add (.num 15 1) (.div (.neg (.num 745375 3)) (.rd (.var .T)))) (.rd (.var .T))) (.num 0 0)) (.mul (.rd (.var .T)) (.add (.num 0 0) (.mul (.rd (.var .T)) (.add (.num 0 0) (.mul (.num 0 0) (.rd (.var .T)))))))) (.add (.add (.div (.add (.num 15 1) (.div (.neg (.num 745375 3)) (.rd (.var .T)))) (.rd (.var .T))) (.num 0 0)) (.mul (.rd (.var .T)) (.add (.num 0 0) (.mul (.rd (.var .T)) (.add (.num 0 0) (.mul (.num 0 0) (.rd (.var .T)))))))),
  .ite (.rd (.var .T)) (.num 1000 0) (.arr .dBdT 1) (.add (.add (.div (.add (.num 15 1) (.div (.num 25473659899999999 12) (.rd (.var .T)))) (.rd (.var .T))) (.num 35266640949999999 29)) (.mul (.rd (.var .T)) (.add (.neg (.num 66530654666666665 32)) (.mul (.rd (.var .T)) (.add (.num 57520407999999997 35) (.mul (.neg (.num 18554646640000001 38)) (.rd (.var .T)))))))) (.add (.add (.div (.add (.num 15000000099999999 16) (.div (.num 25473659899999999 12) (.rd (.var .T)))) (.rd (.var .T))) (.neg (.num 11542148649999999 27))) (.mul (.rd (.var .T)) (.add (.num 53853982666666673 31) (.mul (.rd (.var .T)) (.add (.neg (.num 11837880875000001 34)) (.mul (.num 99639471400000006 39) (.rd (.var .T)))))))),
  .ite (.rd (.var .T)) (.num 1000 0) (.arr .dBdT 2) (.add (.add (.div (.add (.num 21682671 7) (.div (.num 291222592 4) (.rd (.var .T)))) (.rd (.var .T))) (.neg (.num 163965942 11))) (.mul (.rd (.var .T)) (.add (.num 22143546533333334 22) (.mul (.rd (.var .T)) (.add (.neg (.num 153201656 17)) (.mul (.num 42253194199999998 29) (.rd (.var .T)))))))) (.add (.add (.div (.add (.num 15694207800000002 16) (.div (.num 29217579099999999 12) (.rd (.var .T)))) (.rd (.var .T))) (.neg (.num 42987056850000002 21))) (.mul (.rd (.var .T)) (.add (.num 13982819633333334 24) (.mul (.rd (.var .T)) (.add (.neg (.num 25044449749999998 28)) (.mul (.num 24566738199999997 32) (.rd (.var .T)))))))),
  .ite (.rd (.var .T)) (.num 1000 0) (.arr .dBdT 3) (.add (.add (.div (.add (.num 31253056099999998 16) (.div (.num 33815381200000002 13) (.rd (.var .T)))) (.rd (.var .T))) (.neg (.num 16127246950000001 19))) (.mul (.rd (.var .T)) (.add (.num 21758823033333334 22) (.mul (.rd (.var .T)) (.add (.neg (.num 14496341075 19)) (.mul (.num 41247475799999997 29) (.rd (.var .T)))))))) (.add (.add (.div (.add (.num 186472886 8) (.div (.num 37188577399999999 13) (.rd (.var .T)))) (.rd (.var .T))) (.num 52825224000000001 20)) (.mul (.rd (.var .T)) (.add (.neg (.num 86360919333333338 24)) (.mul (.rd (.var .T)) (.add (.num 76304668500000001 28) (.mul (.neg (.num 266391752 24)) (.rd (.var .T)))))))),
  .ite (.rd (.var .T)) (.num 1000 0) (.arr .dBdT 4) (.add (.add (.div (.add (.num 33017980099999997 16) (.div (.num 29480804000000001 14) (.rd (.var .T)))) (.rd (.var .T))) (.neg (.num 23745602549999998 19))) (.mul (.rd (.var .T)) (.add (.num 70527630333333326 22) (.mul (.rd (.var .T)) (.add (.neg (.num 606909735 17)) (.mul (.num 18584502480000002 28) (.rd (.var .T)))))))) (.add (.add (.div (.add (.num 30172109000000003 16) (.div (.num 111856713 6) (.rd (.var .T)))) (.rd (.var .T))) (.num 1119910065 12)) (.mul (.rd (.var .T)) (.add (.neg (.num 21121938333333332 23)) (.mul (.rd (.var .T)) (.add (.num 28561592500000001 27) (.mul (.neg (.num 21581707 22)) (.rd (.var .T)))))))),
  .ite (.rd (.var .T)) (.num 1000 0) (.arr .dBdT 5) (.add (.add (.div (.add (.num 13443311200000001 16) (.div (.neg (.num 91793517299999996 14)) (.rd (.var .T)))) (.rd (.var .T))) (.num 39902603749999996 19)) (.mul (.rd (.var .T)) (.add (.neg (.num 64927169999999995 22)) (.mul (.rd (.var .T)) (.add (.num 50393023500000001 25) (.mul (.neg (.num 14752235220000002 28)) (.rd (.var .T)))))))) (.add (.add (.div (.add (.num 23372791999999998 16) (.div (.neg (.num 95015892199999996 14)) (.rd (.var .T)))) (.rd (.var .T))) (.neg (.num 24701236549999999 21))) (.mul (.rd (.var .T)) (.add (.num 16648559266666665 23) (.mul (.rd (.var .T)) (.add (.neg (.num 44891598500000001 27)) (.mul (.num 40051075199999998 31) (.rd (.var .T)))))))),
  .ite (.rd (.var .T)) (.num 1000 0) (.arr .dBdT 6) (.add (.add (.div (.add (.num 31986405600000003 16) (.div (.neg (.num 30293726699999999 12)) (.rd (.var .T)))) (.rd (.var .T))) (.neg (.num 10182170500000001 19))) (.mul (.rd (.var .T)) (.add (.num 217346737 14) (.mul (.rd (.var .T)) (.add (.neg (.num 13719926550000001 25)) (.mul (.num 354395634 21) (.rd (.var .T)))))))) (.add (.add (.div (.add (.num 20339924900000002 16) (.div (.neg (.num 300042971 4)) (.rd (.var .T)))) (.rd (.var .T))) (.num 10884590200000001 19)) (.mul (.rd (.var .T)) (.add (.neg (.num 54690839333333327 24)) (.mul (.rd (.var .T)) (.add (.neg (.num 2426049675 20)) (.mul (.num 33640198399999998 31) (.rd (.var .T)))))))),
  .ite (.rd (.var .T)) (.num 1000 0) (.arr .dBdT 7) (.add (.add (.div (.add (.num 32761126899999997 16) (.div (.neg (.num 177025821 4)) (.rd (.var .T)))) (.rd (.var .T))) (.neg (.num 27141120849999997 20))) (.mul (.rd (.var .T)) (.add (.num 55778567000000005 22) (.mul (.rd (.var .T)) (.add (.neg (.num 53942703249999999 25)) (.mul (.num 1724908726 21) (.rd (.var .T)))))))) (.add (.add (.div (.add (.num 31650028499999996 16) (.div (.neg (.num 17861787700000001 12)) (.rd (.var .T)))) (.rd (.var .T))) (.num 245415847 11)) (.mul (.rd (.var .T)) (.add (.neg (.num 63379741666666662 23)) (.mul (.rd (.var .T)) (.add (.num 92796496499999996 27) (.mul (.neg (.num 57581661000000002 31)) (.rd (.var .T)))))))),
  .ite (.rd (.var .T)) (.num 1000 0) (.arr .dBdT 8) (.add (.add (.div (.add (.num 27824563599999999 16) (.div (.neg (.num 10639435599999999 13)) (.rd (.var .T)))) (.rd (.var .T))) (.neg (.num 14983670799999999 19))) (.mul (.rd (.var .T)) (.add (.num 32824340033333332 22) (.mul (.rd (.var .T)) (.add (.neg (.num 24203237725000002 25)) (.mul (.num 648745674 21) (.rd (.var .T)))))))) (.add (.add (.div (.add (.num 22825378399999998 16) (.div (.neg (.num 10884577200000001 13)) (.rd (.var .T)))) (.rd (.var .T))) (.num 74154376999999996 20)) (.mul (.rd (.var .T)) (.add (.neg (.num 25265555633333331 23)) (.mul (.rd (.var .T)) (.add (.num 52367638749999998 27) (.mul (.neg (.num 43343558799999996 31)) (.rd (.var .T)))))))),
  .ite (.rd (.var .T)) (.num 1000 0) (.arr .dBdT 9) (.add (.add (.div (.add (.num 27626786700000001 16) (.div (.num 46004040099999998 12) (.rd (.var .T)))) (.rd (.var .T))) (.num 48443607150000002 20)) (.mul (.rd (.var .T)) (.add (.num 93163280333333339 23) (.mul (.rd (.var .T)) (.add (.neg (.num 96272788250000007 26)) (.mul (.num 33748343799999999 29) (.rd (.var .T)))))))) (.add (.add (.div (.add (.num 18741011300000001 16) (.div (.num 46263603999999999 12) (.rd (.var .T)))) (.rd (.var .T))) (.num 18281964599999999 19)) (.mul (.rd (.var .T)) (.add (.neg (.num 46964865666666667 23)) (.mul (.rd (.var .T)) (.add (.num 65044887249999998 27) (.mul (.neg (.num 375455134 23)) (.rd (.var .T)))))))),
  .ite (.rd (.var .T)) (.num 1000 0) (.arr .dBdT 10) (.add (.add (.div (.add (.num 31986041099999998 16) (.div (.num 50496816299999999 12) (.rd (.var .T)))) (.rd (.var .T))) (.neg (.num 1183307095 12))) (.mul (.rd (.var .T)) (.add (.num 27443207333333332 22) (.mul (.rd (.var .T)) (.add (.neg (.num 16720399525000001 25)) (.mul (.num 38862947400000001 29) (.rd (.var .T)))))))) (.add (.add (.div (.add (.num 12920384199999999 16) (.div (.num 509259997 4) (.rd (.var .T)))) (.rd (.var .T))) (.num 2327943185 12)) (.mul (.rd (.var .T)) (.add (.neg (.num 67063982333333332 23)) (.mul (.rd (.var .T)) (.add (.num 10447650000000001 26) (.mul (.neg (.num 67943272999999998 31)) (.rd (.var .T)))))))),
  .ite (.rd (.var .T)) (.num 1000 0) (.arr .dBdT 11) (.add (.add (.div (.add (.num 26735904000000001 16) (.div (.num 16444998800000001 12) (.rd (.var .T)))) (.rd (.var .T))) (.num 1005475875 12)) (.mul (.rd (.var .T)) (.add (.num 19100728533333335 22) (.mul (.rd (.var .T)) (.add (.neg (.num 17177935625 19)) (.mul (.num 50877146800000003 29) (.rd (.var .T)))))))) (.add (.add (.div (.add (.num 12857177200000001 16) (.div (.num 16775584299999999 12) (.rd (.var .T)))) (.rd (.var .T))) (.num 36199501849999999 19)) (.mul (.rd (.var .T)) (.add (.neg (.num 99571449333333331 23)) (.mul (.rd (.var .T)) (.add (.num 14892116100000001 26) (.mul (.neg (.num 93430878800000005 31)) (.rd (.var .T)))))))),
  .ite (.rd (.var .T)) (.num 1000 0) (.arr .dBdT 12) (.add (.add (.div (.add (.num 414987613 8) (.div (.neg (.num 102466476 4)) (.rd (.var .T)))) (.rd (.var .T))) (.neg (.num 68354894000000003 19))) (.mul (.rd (.var .T)) (.add (.num 16393353300000001 21) (.mul (.rd (.var .T)) (.add (.neg (.num 1211857565 17)) (.mul (.num 333387912 20) (.rd (.var .T)))))))) (.add (.add (.div (.add (.neg (.num 92514850500000001 17)) (.div (.neg (.num 94683445900000006 13)) (.rd (.var .T)))) (.rd (.var .T))) (.num 66954733499999999 19)) (.mul (.rd (.var .T)) (.add (.neg (.num 19109526966666665 22)) (.mul (.rd (.var .T)) (.add (.num 3057313375 19) (.mul (.neg (.num 20363046000000002 30)) (.rd (.var .T)))))))),
  .ite (.rd (.var .T)) (.num 1000 0) (.arr .dBdT 13) (.add (.add (.div (.add (.num 32211858400000004 16) (.div (.num 38395649600000002 13) (.rd (.var .T)))) (.rd (.var .T))) (.neg (.num 162196266 11))) (.mul (.rd (.var .T)) (.add (.num 45933148666666667 22) (.mul (.rd (.var .T)) (.add (.neg (.num 33286023250000002 25)) (.mul (.num 86753773 20) (.rd (.var .T)))))))) (.add (.add (.div (.add (.num 177217438 8) (.div (.num 401191815 5) (.rd (.var .T)))) (.rd (.var .T))) (.num 24784776299999998 19)) (.mul (.rd (.var .T)) (.add (.neg (.num 82815204333333337 23)) (.mul (.rd (.var .T)) (.add (.num 14729044450000001 26) (.mul (.neg (.num 1067017422 23)) (.rd (.var .T)))))))),
  .ite (.rd (.var .T)) (.num 1000 0) (.arr .dBdT 14) (.add (.add (.div (.add (.num 37937231499999999 16) (.div (.neg (.num 14308956700000001 12)) (.rd (.var .T)))) (.rd (.var .T))) (.neg (.num 4954166845 12))) (.mul (.rd (.var .T)) (.add (.num 12440666933333332 21) (.mul (.rd (.var .T)) (.add (.neg (.num 94821315249999995 25)) (.mul (.num 26354530400000001 28) (.rd (.var .T)))))))) (.add (.add (.div (.add (.num 76069008000000005 17) (.div (.neg (.num 139958323 4)) (.rd (.var .T)))) (.rd (.var .T))) (.num 460000041 11)) (.mul (.rd (.var .T)) (.add (.neg (.num 14741960433333332 22)) (.mul (.rd (.var .T)) (.add (.num 25160302999999999 26) (.mul (.neg (.num 17677112800000002 30)) (.rd (.var .T)))))))),
  .ite (.rd (.var .T)) (.num 1000 0) (.arr .dBdT 15) (.add (.add (.div (.add (.num 27118050199999999 16) (.div (.num 12956976 4) (.rd (.var .T)))) (.rd (.var .T))) (.neg (.num 14023165300000001 19))) (.mul (.rd (.var .T)) (.add (.num 12551699033333334 21) (.mul (.rd (.var .T)) (.add (.neg (.num 11826802224999999 24)) (.mul (.num 37317684000000002 28) (.rd (.var .T)))))))) (.add (.add (.div (.add (.num 37577923799999997 16) (.div (.num 37811194 5) (.rd (.var .T)))) (.rd (.var .T))) (.num 372071237 11)) (.mul (.rd (.var .T)) (.add (.neg (.num 8990172533333333 22)) (.mul (.rd (.var .T)) (.add (.num 109522626 18) (.mul (.neg (.num 52707419599999998 31)) (.rd (.var .T)))))))),
  .ite (.rd (.var .T)) (.num 1000 0) (.arr .dBdT 16) (.add (.add (.div (.add (.num 25795334699999999 16) (.div (.neg (.num 14344085999999999 12)) (.rd (.var .T)))) (.rd (.var .T))) (.neg (.num 30517684 11))) (.mul (.rd (.var .T)) (.add (.num 33893811000000002 23) (.mul (.rd (.var .T)) (.add (.num 226751471 18) (.mul (.neg (.num 18088489979999999 29)) (.rd (.var .T)))))))) (.add (.add (.div (.add (.num 17151856099999998 16) (.div (.neg (.num 141518724 4)) (.rd (.var .T)))) (.rd (.var .T))) (.num 10312637150000001 19)) (.mul (.rd (.var .T)) (.add (.neg (.num 33294192366666671 23)) (.mul (.rd (.var .T)) (.add (.num 57513252 18) (.mul (.neg (.num 40729543200000001 31)) (.rd (.var .T)))))))),
  .ite (.rd (.var .T)) (.num 1000 0) (.arr .dBdT 17) (.add (.add (.div (.add (.num 135677352 8) (.div (.neg (.num 48371969700000001 12)) (.rd (.var .T)))) (.rd (.var .T))) (.num 44922983850000002 19)) (.mul (.rd (.var .T)) (.add (.neg (.num 23745208966666665 22)) (.mul (.rd (.var .T)) (.add (.num 61479755499999995 26) (.mul (.neg (.num 28739909599999997 30)) (.rd (.var .T)))))))) (.add (.add (.div (.add (.num 28574602900000001 16) (.div (.neg (.num 48759165999999997 12)) (.rd (.var .T)))) (.rd (.var .T))) (.num 22071851299999999 19)) (.mul (.rd (.var .T)) (.add (.neg (.num 73827134666666672 23)) (.mul (.rd (.var .T)) (.add (.num 13087254700000001 26) (.mul (.neg (.num 94416832800000002 31)) (.rd (.var .T)))))))),
  .ite (.rd (.var .T)) (.num 1000 0) (.arr .dBdT 18) (.add (.add (.div (.add (.neg (.num 19131890600000001 17)) (.div (.num 264289807 4) (.rd (.var .T)))) (.rd (.var .T))) (.num 1168078145 11)) (.mul (.rd (.var .T)) (.add (.neg (.num 118390605 13)) (.mul (.rd (.var .T)) (.add (.num 70038109249999999 25) (.mul (.neg (.num 17001459479999999 28)) (.rd (.var .T)))))))) (.add (.add (.div (.add (.num 31475696400000004 16) (.div (.num 25935999199999998 12) (.rd (.var .T)))) (.rd (.var .T))) (.num 298083332 11)) (.mul (.rd (.var .T)) (.add (.neg (.num 79098284000000004 23)) (.mul (.rd (.var .T)) (.add (.num 11685304275000001 26) (.mul (.neg (.num 72247042600000001 31)) (.rd (.var .T)))))))),
  .ite (.rd (.var .T)) (.num 1000 0) (.arr .dBdT 19) (.add (.add (.div (.add (.num 221246645 8) (.div (.num 34859846799999999 12) (.rd (.var .T)))) (.rd (.var .T))) (.num 75739581000000002 20)) (.mul (.rd (.var .T)) (.add (.num 86403137333333327 22) (.mul (.rd (.var .T)) (.add (.neg (.num 8941446175 18)) (.mul (.num 29430174599999999 28) (.rd (.var .T)))))))) (.add (.add (.div (.add (.num 2016724 6) (.div (.num 34612873899999999 12) (.rd (.var .T)))) (.rd (.var .T))) (.num 51651146000000004 19)) (.mul (.rd (.var .T)) (.add (.neg (.num 15602744966666665 22)) (.mul (.rd (.var .T)) (.add (.num 25440821999999998 26) (.mul (.neg (.num 17252140819999999 30)) (.rd (.var .T)))))))),
  .ite (.rd (.var .T)) (.num 1000 0) (.arr .dBdT 20) (.add (.add (.div (.add (.num 29592014799999999 16) (.div (.num 50897759299999998 13) (.rd (.var .T)))) (.rd (.var .T))) (.neg (.num 37852612350000002 19))) (.mul (.rd (.var .T)) (.add (.num 19033009733333333 21) (.mul (.rd (.var .T)) (.add (.neg (.num 17289718825 18)) (.mul (.num 53976874600000004 28) (.rd (.var .T)))))))) (.add (.add (.div (.add (.num 10361111599999999 16) (.div (.num 49398861399999996 13) (.rd (.var .T)))) (.rd (.var .T))) (.num 73227075499999999 19)) (.mul (.rd (.var .T)) (.add (.neg (.num 22369263833333335 22)) (.mul (.rd (.var .T)) (.add (.num 36805730750000002 26) (.mul (.neg (.num 251412122 22)) (.rd (.var .T)))))))),
  .ite (.rd (.var .T)) (.num 1000 0) (.arr .dBdT 21) (.add (.add (.div (.add (.num 33064656799999996 16) (.div (.num 128416265 4) (.rd (.var .T)))) (.rd (.var .T))) (.neg (.num 20932944600000002 19))) (.mul (.rd (.var .T)) (.add (.num 16571426900000001 21) (.mul (.rd (.var .T)) (.add (.neg (.num 14978165149999999 24)) (.mul (.num 46101800800000003 28) (.rd (.var .T)))))))) (.add (.add (.div (.add (.num 95465642000000006 17) (.div (.num 1285752 2) (.rd (.var .T)))) (.rd (.var .T))) (.num 86986361000000005 19)) (.mul (.rd (.var .T)) (.add (.neg (.num 26606888933333333 22)) (.mul (.rd (.var .T)) (.add (.num 43804422250000001 26) (.mul (.neg (.num 29928315199999999 30)) (.rd (.var .T)))))))),
  .ite (.rd (.var .T)) (.num 1000 0) (.arr .dBdT 22) (.add (.add (.div (.add (.num 32914249199999999 16) (.div (.neg (.num 115222055 4)) (.rd (.var .T)))) (.rd (.var .T))) (.neg (.num 27507713499999998 19))) (.mul (.rd (.var .T)) (.add (.num 19981276266666669 21) (.mul (.rd (.var .T)) (.add (.neg (.num 17711657125 18)) (.mul (.num 53737154200000002 28) (.rd (.var .T)))))))) (.add (.add (.div (.add (.num 71881499999999932 18) (.div (.neg (.num 114263932 4)) (.rd (.var .T)))) (.rd (.var .T))) (.num 1084263385 11)) (.mul (.rd (.var .T)) (.add (.neg (.num 33418689 13)) (.mul (.rd (.var .T)) (.add (.num 55353000250000001 26) (.mul (.neg (.num 38000577999999999 30)) (.rd (.var .T)))))))),
  .ite (.rd (.var .T)) (.num 1000 0) (.arr .dBdT 23) (.add (.add (.div (.add (.num 24090623999999998 16) (.div (.num 62 0) (.rd (.var .T)))) (.rd (.var .T))) (.num 53692870000000004 19)) (.mul (.rd (.var .T)) (.add (.num 63049749999999997 23) (.mul (.rd (.var .T)) (.add (.neg (.num 1789645775 18)) (.mul (.num 57347701999999995 29) (.rd (.var .T)))))))) (.add (.add (.div (.add (.num 49756698999999998 16) (.div (.neg (.num 9695 1)) (.rd (.var .T)))) (.rd (.var .T))) (.num 40652956999999998 19)) (.mul (.rd (.var .T)) (.add (.neg (.num 91454149999999997 23)) (.mul (.rd (.var .T)) (.add (.num 1017576025 19) (.mul (.neg (.num 43520341999999999 31)) (.rd (.var .T)))))))),
  .ite (.rd (.var .T)) (.num 1000 0) (.arr .dBdT 24) (.add (.add (.div (.add (.num 3631835000000001 16) (.div (.num 19245629000000001 12) (.rd (.var .T)))) (.rd (.var .T))) (.num 99069104999999994 19)) (.mul (.rd (.var .T)) (.add (.num 41656866666666669 22) (.mul (.rd (.var .T)) (.add (.neg (.num 83388887499999995 25)) (.mul (.num 31693142 19) (.rd (.var .T)))))))) (.add (.add (.div (.add (.num 55007877000000001 16) (.div (.num 17482449000000001 12) (.rd (.var .T)))) (.rd (.var .T))) (.num 71623655000000001 19)) (.mul (.rd (.var .T)) (.add (.neg (.num 18927210666666665 22)) (.mul (.rd (.var .T)) (.add (.num 277020025 18) (.mul (.neg (.num 18072777399999997 30)) (.rd (.var .T)))))))),
  .ite (.rd (.var .T)) (.num 1000 0) (.arr .dBdT 25) (.add (.add (.div (.add (.num 49330699999999994 17) (.div (.num 1074826 3) (.rd (.var .T)))) (.rd (.var .T))) (.num 10462590000000001 18)) (.mul (.rd (.var .T)) (.add (.num 14955980000000001 22) (.mul (.rd (.var .T)) (.add (.neg (.num 417228 14)) (.mul (.num 14316292 19) (.rd (.var .T)))))))) (.add (.add (.div (.add (.num 57322569999999997 16) (.div (.neg (.num 92357029999999997 14)) (.rd (.var .T)))) (.rd (.var .T))) (.num 74541700000000004 19)) (.mul (.rd (.var .T)) (.add (.neg (.num 16499663333333331 22)) (.mul (.rd (.var .T)) (.add (.num 18030055000000001 26) (.mul (.neg (.num 75324079999999992 31)) (.rd (.var .T)))))))),
  .ite (.rd (.var .T)) (.num 1000 0) (.arr .dBdT 26) (.add (.add (.div (.add (.num 4911730000000003 17) (.div (.num 10312346 3) (.rd (.var .T)))) (.rd (.var .T))) (.num 13004486500000001 18)) (.mul (.rd (.var .T)) (.add (.num 78475053333333331 23) (.mul (.rd (.var .T)) (.add (.neg (.num 4898783 15)) (.mul (.num 18744041400000001 28) (.rd (.var .T)))))))) (.add (.add (.div (.add (.num 67097479 7) (.div (.num 79762236000000003 13) (.rd (.var .T)))) (.rd (.var .T))) (.num 80157425000000008 19)) (.mul (.rd (.var .T)) (.add (.neg (.num 17573412666666665 22)) (.mul (.rd (.var .T)) (.add (.num 18972088000000001 26) (.mul (.neg (.num 77725438000000008 31)) (.rd (.var .T)))))))),
  .ite (.rd (.var .T)) (.num 1000 0) (.arr .dBdT 27) (.add (.add (.div (.add (.num 27134980000000009 17) (.div (.neg (.num 93357343999999994 13)) (.rd (.var .T)))) (.rd (.var .T))) (.num 13115527 9)) (.mul (.rd (.var .T)) (.add (.neg (.num 30970768333333334 22)) (.mul (.rd (.var .T)) (.add (.neg (.num 11959318 16)) (.mul (.num 66961085999999998 29) (.rd (.var .T)))))))) (.add (.add (.div (.add (.num 48111867999999998 16) (.div (.neg (.num 10784054 3)) (.rd (.var .T)))) (.rd (.var .T))) (.num 85571280000000007 19)) (.mul (.rd (.var .T)) (.add (.neg (.num 24944720333333334 22)) (.mul (.rd (.var .T)) (.add (.num 35630622500000002 26) (.mul (.neg (.num 18349368199999999 30)) (.rd (.var .T)))))))),
  .ite (.rd (.var .T)) (.num 1000 0) (.arr .dBdT 28) (.add (.add (.div (.add (.neg (.num 25550567999999996 17)) (.div (.num 22653328000000001 12) (.rd (.var .T)))) (.rd (.var .T))) (.num 19839428499999999 18)) (.mul (.rd (.var .T)) (.add (.neg (.num 76326953333333334 22)) (.mul (.rd (.var .T)) (.add (.num 53382432499999996 26) (.mul (.num 4619275 19) (.rd (.var .T)))))))) (.add (.add (.div (.add (.num 60134835000000004 16) (.div (.num 20955008000000002 12) (.rd (.var .T)))) (.rd (.var .T))) (.num 11317279 9)) (.mul (.rd (.var .T)) (.add (.neg (.num 3084849 12)) (.mul (.rd (.var .T)) (.add (.num 42019817499999999 26) (.mul (.neg (.num 20817233999999999 30)) (.rd (.var .T)))))))),
  .ite (.rd (.var .T)) (.num 1000 0) (.arr .dBdT 29) (.add (.add (.div (.add (.num 18113800000000002 17) (.div (.neg (.num 17904004 4)) (.rd (.var .T)))) (.rd (.var .T))) (.num 1542669 8)) (.mul (.rd (.var .T)) (.add (.num 16955082333333333 22) (.mul (.rd (.var .T)) (.add (.neg (.num 61637219999999997 25)) (.mul (.num 22220385999999997 28) (.rd (.var .T)))))))) (.add (.add (.div (.add (.num 10535841000000001 16) (.div (.neg (.num 21397231000000002 13)) (.rd (.var .T)))) (.rd (.var .T))) (.num 17175253500000001 18)) (.mul (.rd (.var .T)) (.add (.neg (.num 52943989999999994 22)) (.mul (.rd (.var .T)) (.add (.num 82724155000000001 26) (.mul (.neg (.num 50722090000000006 30)) (.rd (.var .T)))))))),
  .ite (.rd (.var .T)) (.num 1000 0) (.arr .dBdT 30) (.add (.add (.div (.add (.num 2087041999999999 16) (.div (.num 73221040000000003 13) (.rd (.var .T)))) (.rd (.var .T))) (.num 191487485 10)) (.mul (.rd (.var .T)) (.add (.neg (.num 24220169666666668 22)) (.mul (.rd (.var .T)) (.add (.neg (.num 385713675 17)) (.mul (.num 17371887 19) (.rd (.var .T)))))))) (.add (.add (.div (.add (.num 76822394999999997 16) (.div (.num 49644058000000005 13) (.rd (.var .T)))) (.rd (.var .T))) (.num 11845535500000001 18)) (.mul (.rd (.var .T)) (.add (.neg (.num 25316288333333332 22)) (.mul (.rd (.var .T)) (.add (.num 16606784 17) (.mul (.num 109690272 22) (.rd (.var .T)))))))),
  .ite (.rd (.var .T)) (.num 1000 0) (.arr .dBdT 31) (.add (.add (.div (.add (.neg (.num 34190111000000001 16)) (.div (.num 28121887000000002 13) (.rd (.var .T)))) (.rd (.var .T))) (.num 20215194499999999 18)) (.mul (.rd (.var .T)) (.add (.num 22600779666666667 22) (.mul (.rd (.var .T)) (.add (.neg (.num 84311855000000008 25)) (.mul (.num 30233426000000002 28) (.rd (.var .T)))))))) (.add (.add (.div (.add (.num 91386400000000005 16) (.div (.neg (.num 17218359 4)) (.rd (.var .T)))) (.rd (.var .T))) (.num 11357068999999999 18)) (.mul (.rd (.var .T)) (.add (.neg (.num 25970154333333331 22)) (.mul (.rd (.var .T)) (.add (.num 29691305 17) (.mul (.neg (.num 13186489600000001 30)) (.rd (.var .T)))))))),
  .ite (.rd (.var .T)) (.num 1000 0) (.arr .dBdT 51) (.add (.add (.div (.add (.neg (.num 51802799999999993 17)) (.div (.neg (.num 416875 1)) (.rd (.var .T)))) (.rd (.var .T))) (.num 72510000000000005 18)) (.mul (.rd (.var .T)) (.add (.neg (.num 33310266666666665 21)) (.mul (.rd (.var .T)) (.add (.num 651055 14) (.mul (.num 23871600000000003 29) (.rd (.var .T)))))))) (.add (.add (.div (.add (.num 34090699999999998 15) (.div (.neg (.num 512675 1)) (.rd (.var .T)))) (.rd (.var .T))) (.num 255295 7)) (.mul (.rd (.var .T)) (.add (.neg (.num 51448333333333328 22)) (.mul (.rd (.var .T)) (.add (.num 56156749999999998 26) (.mul (.neg (.num 257802 19)) (.rd (.var .T)))))))),
  .ite (.rd (.var .T)) (.num 1000 0) (.arr .dBdT 52) (.add (.add (.div (.add (.num 78073300000000003 16) (.div (.neg (.num 66536100000000006 12)) (.rd (.var .T)))) (.rd (.var .T))) (.num 32531150000000002 18)) (.mul (.rd (.var .T)) (.add (.num 23168599999999997 21) (.mul (.rd (.var .T)) (.add (.neg (.num 31726250000000003 24)) (.mul (.num 10219820000000001 27) (.rd (.var .T)))))))) (.add (.add (.div (.add (.num 22673100000000002 15) (.div (.neg (.num 71825800000000003 12)) (.rd (.var .T)))) (.rd (.var .T))) (.num 30819599999999999 18)) (.mul (.rd (.var .T)) (.add (.neg (.num 69945333333333331 22)) (.mul (.rd (.var .T)) (.add (.num 83291500000000001 26) (.mul (.neg (.num 40717999999999996 30)) (.rd (.var .T)))))))),
  .ite (.rd (.var .T)) (.num 1000 0) (.arr .dBdT 53) (.add (.add (.div (.add (.num 22986770000000001 16) (.div (.neg (.num 10208999 4)) (.rd (.var .T)))) (.rd (.var .T))) (.num 70412019999999999 20)) (.mul (.rd (.var .T)) (.add (.neg (.num 13210739999999999 22)) (.mul (.rd (.var .T)) (.add (.num 14103787500000001 25) (.mul (.neg (.num 48897079999999994 29)) (.rd (.var .T)))))))) (.add (.add (.div (.add (.num 19266399999999999 16) (.div (.neg (.num 92279769999999996 14)) (.rd (.var .T)))) (.rd (.var .T))) (.num 74398840000000003 20)) (.mul (.rd (.var .T)) (.add (.neg (.num 18949200000000001 23)) (.mul (.rd (.var .T)) (.add (.num 25242595 18) (.mul (.neg (.num 13506701999999999 31)) (.rd (.var .T)))))))),
  .ite (.rd (.var .T)) (.num 1392 0) (.arr .dBdT 32) (.add (.add (.div (.add (.neg (.num 20622348100000001 16)) (.div (.neg (.num 446546666 5)) (.rd (.var .T)))) (.rd (.var .T))) (.num 287109147 10)) (.mul (.rd (.var .T)) (.add (.neg (.num 12482896333333334 21)) (.mul (.rd (.var .T)) (.add (.num 31841247249999998 25) (.mul (.neg (.num 35921957799999997 29)) (.rd (.var .T)))))))) (.add (.add (.div (.add (.num 135851539 7) (.div (.neg (.num 100898205 4)) (.rd (.var .T)))) (.rd (.var .T))) (.num 1120362355 11)) (.mul (.rd (.var .T)) (.add (.neg (.num 25444934166666668 22)) (.mul (.rd (.var .T)) (.add (.num 29547241500000002 26) (.mul (.neg (.num 1368770278 23)) (.rd (.var .T)))))))),
  .ite (.rd (.var .T)) (.num 1392 0) (.arr .dBdT 34) (.add (.add (.div (.add (.neg (.num 23527520500000003 16)) (.div (.neg (.num 73436861699999999 13)) (.rd (.var .T)))) (.rd (.var .T))) (.num 34932771299999998 18)) (.mul (.rd (.var .T)) (.add (.neg (.num 15313600733333335 21)) (.mul (.rd (.var .T)) (.add (.num 39241835750000003 25) (.mul (.neg (.num 44259235000000003 29)) (.rd (.var .T)))))))) (.add (.add (.div (.add (.num 168337529 7) (.div (.neg (.num 14206286 3)) (.rd (.var .T)))) (.rd (.var .T))) (.num 133688829 10)) (.mul (.rd (.var .T)) (.add (.neg (.num 30334559100000002 22)) (.mul (.rd (.var .T)) (.add (.num 35204941999999999 26) (.mul (.neg (.num 16302484880000001 30)) (.rd (.var .T)))))))),
  .ite (.rd (.var .T)) (.num 1392 0) (.arr .dBdT 36) (.add (.add (.div (.add (.neg (.num 267720549 8)) (.div (.neg (.num 102168601 4)) (.rd (.var .T)))) (.rd (.var .T))) (.num 4123058005 11)) (.mul (.rd (.var .T)) (.add (.neg (.num 18216803599999999 21)) (.mul (.rd (.var .T)) (.add (.num 46965575749999998 25) (.mul (.neg (.num 53147596599999995 29)) (.rd (.var .T)))))))) (.add (.add (.div (.add (.num 200898039 7) (.div (.neg (.num 183260065 4)) (.rd (.var .T)))) (.rd (.var .T))) (.num 155303939 10)) (.mul (.rd (.var .T)) (.add (.neg (.num 35214930999999996 22)) (.mul (.rd (.var .T)) (.add (.num 40851444999999999 26) (.mul (.neg (.num 18911964380000001 30)) (.rd (.var .T)))))))),
  .ite (.rd (.var .T)) (.num 1392 0) (.arr .dBdT 38) (.add (.add (.div (.add (.neg (.num 28922691499999997 16)) (.div (.neg (.num 13107455900000001 12)) (.rd (.var .T)))) (.rd (.var .T))) (.num 47303317849999998 18)) (.mul (.rd (.var .T)) (.add (.neg (.num 20912850700000002 21)) (.mul (.rd (.var .T)) (.add (.num 53789577249999999 25) (.mul (.neg (.num 60543736600000008 29)) (.rd (.var .T)))))))) (.add (.add (.div (.add (.num 233540125 7) (.div (.neg (.num 224485674 4)) (.rd (.var .T)))) (.rd (.var .T))) (.num 17683323099999999 18)) (.mul (.rd (.var .T)) (.add (.neg (.num 40069462666666671 22)) (.mul (.rd (.var .T)) (.add (.num 46463763250000001 26) (.mul (.neg (.num 215044524 22)) (.rd (.var .T)))))))),
  .ite (.rd (.var .T)) (.num 1392 0) (.arr .dBdT 40) (.add (.add (.div (.add (.neg (.num 31610826300000001 16)) (.div (.neg (.num 15989084699999999 12)) (.rd (.var .T)))) (.rd (.var .T))) (.num 53479148499999997 18)) (.mul (.rd (.var .T)) (.add (.neg (.num 23699108133333333 21)) (.mul (.rd (.var .T)) (.add (.num 60992769249999999 25) (.mul (.neg (.num 68554309399999999 29)) (.rd (.var .T)))))))) (.add (.add (.div (.add (.num 266142176 7) (.div (.neg (.num 265709061 4)) (.rd (.var .T)))) (.rd (.var .T))) (.num 19841264349999999 18)) (.mul (.rd (.var .T)) (.add (.neg (.num 44939815333333332 22)) (.mul (.rd (.var .T)) (.add (.num 52097613000000002 26) (.mul (.neg (.num 24107858799999998 30)) (.rd (.var .T)))))))),
  .ite (.rd (.var .T)) (.num 1392 0) (.arr .dBdT 42) (.add (.add (.div (.add (.neg (.num 34290168799999998 16)) (.div (.neg (.num 18870836500000001 12)) (.rd (.var .T)))) (.rd (.var .T))) (.num 59652798999999999 18)) (.mul (.rd (.var .T)) (.add (.neg (.num 26482967500000001 21)) (.mul (.rd (.var .T)) (.add (.num 68184149000000001 25) (.mul (.neg (.num 76543674599999999 29)) (.rd (.var .T)))))))) (.add (.add (.div (.add (.num 29875390299999999 15) (.div (.neg (.num 306937307 4)) (.rd (.var .T)))) (.rd (.var .T))) (.num 21998576299999999 18)) (.mul (.rd (.var .T)) (.add (.neg (.num 49808510000000002 22)) (.mul (.rd (.var .T)) (.add (.num 57729419499999995 26) (.mul (.neg (.num 26710295400000001 30)) (.rd (.var .T)))))))),
  .ite (.rd (.var .T)) (.num 1385 0) (.arr .dBdT 46) (.add (.add (.div (.add (.neg (.num 23678708899999998 16)) (.div (.neg (.num 16766053899999999 12)) (.rd (.var .T)))) (.rd (.var .T))) (.num 68677673999999994 18)) (.mul (.rd (.var .T)) (.add (.neg (.num 27469205266666665 21)) (.mul (.rd (.var .T)) (.add (.num 59105390500000003 25) (.mul (.neg (.num 49487186400000001 29)) (.rd (.var .T)))))))) (.add (.add (.div (.add (.num 36968826800000002 15) (.div (.neg (.num 31214498800000001 12)) (.rd (.var .T)))) (.rd (.var .T))) (.num 26935973200000001 18)) (.mul (.rd (.var .T)) (.add (.neg (.num 60723754333333335 22)) (.mul (.rd (.var .T)) (.add (.num 70193625749999998 26) (.mul (.neg (.num 32421684000000002 30)) (.rd (.var .T)))))))),
  .ite (.rd (.var .T)) (.num 1385 0) (.arr .dBdT 47) (.add (.add (.div (.add (.neg (.num 23678708899999998 16)) (.div (.neg (.num 16766053899999999 12)) (.rd (.var .T)))) (.rd (.var .T))) (.num 68677673999999994 18)) (.mul (.rd (.var .T)) (.add (.neg (.num 27469205266666665 21)) (.mul (.rd (.var .T)) (.add (.num 59105390500000003 25) (.mul (.neg (.num 49487186400000001 29)) (.rd (.var .T)))))))) (.add (.add (.div (.add (.num 36968826800000002 15) (.div (.neg (.num 31214498800000001 12)) (.rd (.var .T)))) (.rd (.var .T))) (.num 26935973200000001 18)) (.mul (.rd (.var .T)) (.add (.neg (.num 60723754333333335 22)) (.mul (.rd (.var .T)) (.add (.num 70193625749999998 26) (.mul (.neg (.num 32421684000000002 30)) (.rd (.var .T)))))))),
  .ite (.rd (.var .T)) (.num 1390 0) (.arr .dBdT 33) (.add (.add (.div (.add (.neg (.num 9475615919 10)) (.div (.num 47161145999999999 13) (.rd (.var .T)))) (.rd (.var .T))) (.num 28039847900000001 18)) (.mul (.rd (.var .T)) (.add (.neg (.num 11051526766666668 21)) (.mul (.rd (.var .T)) (.add (.num 24438344525 19) (.mul (.neg (.num 22801931999999999 29)) (.rd (.var .T)))))))) (.add (.add (.div (.add (.num 142977446 7) (.div (.neg (.num 98071230700000001 14)) (.rd (.var .T)))) (.rd (.var .T))) (.num 119867655 10)) (.mul (.rd (.var .T)) (.add (.neg (.num 27279764933333334 22)) (.mul (.rd (.var .T)) (.add (.num 31720768999999998 26) (.mul (.neg (.num 147081811 22)) (.rd (.var .T)))))))),
  .ite (.rd (.var .T)) (.num 1390 0) (.arr .dBdT 35) (.add (.add (.div (.add (.neg (.num 12048714650000001 16)) (.div (.num 183280393 5) (.rd (.var .T)))) (.rd (.var .T))) (.num 34190063600000001 18)) (.mul (.rd (.var .T)) (.add (.neg (.num 13814930399999999 21)) (.mul (.rd (.var .T)) (.add (.num 31538950500000001 25) (.mul (.neg (.num 30624011599999997 29)) (.rd (.var .T)))))))) (.add (.add (.div (.add (.num 17538547000000001 15) (.div (.neg (.num 50929904100000003 13)) (.rd (.var .T)))) (.rd (.var .T))) (.num 14155398099999999 18)) (.mul (.rd (.var .T)) (.add (.neg (.num 32176908199999999 22)) (.mul (.rd (.var .T)) (.add (.num 3738689625 19) (.mul (.neg (.num 17326721280000001 30)) (.rd (.var .T)))))))),
  .ite (.rd (.var .T)) (.num 1390 0) (.arr .dBdT 37) (.add (.add (.div (.add (.neg (.num 14995704060000001 16)) (.div (.neg (.num 10459022299999999 13)) (.rd (.var .T)))) (.rd (.var .T))) (.num 40441323350000002 18)) (.mul (.rd (.var .T)) (.add (.neg (.num 16684425133333334 21)) (.mul (.rd (.var .T)) (.add (.num 39137327000000003 25) (.mul (.neg (.num 39323245400000001 29)) (.rd (.var .T)))))))) (.add (.add (.div (.add (.num 20794070900000001 15) (.div (.neg (.num 92093822099999998 13)) (.rd (.var .T)))) (.rd (.var .T))) (.num 16314012150000001 18)) (.mul (.rd (.var .T)) (.add (.neg (.num 37046081333333335 22)) (.mul (.rd (.var .T)) (.add (.num 43016787 17) (.mul (.neg (.num 19927339979999999 30)) (.rd (.var .T)))))))),
  .ite (.rd (.var .T)) (.num 1390 0) (.arr .dBdT 39) (.add (.add (.div (.add (.neg (.num 1772759438 9)) (.div (.neg (.num 39268951099999999 13)) (.rd (.var .T)))) (.rd (.var .T))) (.num 46627485250000003 18)) (.mul (.rd (.var .T)) (.add (.neg (.num 19481574833333333 21)) (.mul (.rd (.var .T)) (.add (.num 46392553499999997 25) (.mul (.neg (.num 47425496600000005 29)) (.rd (.var .T)))))))) (.add (.add (.div (.add (.num 24051035599999999 15) (.div (.neg (.num 133300535 4)) (.rd (.var .T)))) (.rd (.var .T))) (.num 18474008100000001 18)) (.mul (.rd (.var .T)) (.add (.neg (.num 41921754666666666 22)) (.mul (.rd (.var .T)) (.add (.num 48657102249999996 26) (.mul (.neg (.num 22533779600000001 30)) (.rd (.var .T)))))))),
  .ite (.rd (.var .T)) (.num 1390 0) (.arr .dBdT 41) (.add (.add (.div (.add (.neg (.num 20438729200000001 16)) (.div (.neg (.num 68081851200000001 13)) (.rd (.var .T)))) (.rd (.var .T))) (.num 52808641500000003 18)) (.mul (.rd (.var .T)) (.add (.neg (.num 22273332366666668 21)) (.mul (.rd (.var .T)) (.add (.num 53621541499999998 25) (.mul (.neg (.num 55480855000000001 29)) (.rd (.var .T)))))))) (.add (.add (.div (.add (.num 273097514 7) (.div (.neg (.num 17451602999999999 12)) (.rd (.var .T)))) (.rd (.var .T))) (.num 20632867199999998 18)) (.mul (.rd (.var .T)) (.add (.neg (.num 46794429666666664 22)) (.mul (.rd (.var .T)) (.add (.num 54293717749999998 26) (.mul (.neg (.num 25138461399999997 30)) (.rd (.var .T)))))))),
  .ite (.rd (.var .T)) (.num 1390 0) (.arr .dBdT 43) (.add (.add (.div (.add (.neg (.num 23135834800000001 16)) (.div (.neg (.num 96896754999999994 13)) (.rd (.var .T)))) (.rd (.var .T))) (.num 58986406499999998 18)) (.mul (.rd (.var .T)) (.add (.neg (.num 25061435966666667 21)) (.mul (.rd (.var .T)) (.add (.num 60832776499999998 25) (.mul (.neg (.num 63504570400000002 29)) (.rd (.var .T)))))))) (.add (.add (.div (.add (.num 30569716 6) (.div (.neg (.num 21573783200000002 12)) (.rd (.var .T)))) (.rd (.var .T))) (.num 22790920150000001 18)) (.mul (.rd (.var .T)) (.add (.neg (.num 51664988333333336 22)) (.mul (.rd (.var .T)) (.add (.num 59927733249999998 26) (.mul (.neg (.num 277419118 22)) (.rd (.var .T)))))))),
  .ite (.rd (.var .T)) (.num 1390 0) (.arr .dBdT 45) (.add (.add (.div (.add (.neg (.num 285028741 8)) (.div (.neg (.num 154530435 4)) (.rd (.var .T)))) (.rd (.var .T))) (.num 71335354000000004 18)) (.mul (.rd (.var .T)) (.add (.neg (.num 30630551833333332 21)) (.mul (.rd (.var .T)) (.add (.num 75220848 16) (.mul (.neg (.num 79490859999999999 29)) (.rd (.var .T)))))))) (.add (.add (.div (.add (.num 37092188499999999 15) (.div (.neg (.num 298194375 4)) (.rd (.var .T)))) (.rd (.var .T))) (.num 27105392400000001 18)) (.mul (.rd (.var .T)) (.add (.neg (.num 61401839000000006 22)) (.mul (.rd (.var .T)) (.add (.num 71190543250000005 26) (.mul (.neg (.num 32946349600000002 30)) (.rd (.var .T)))))))),
  .ite (.rd (.var .T)) (.num 1391 0) (.arr .dBdT 44) (.add (.add (.div (.add (.neg (.num 36218159399999998 16)) (.div (.neg (.num 40065425300000003 12)) (.rd (.var .T)))) (.rd (.var .T))) (.num 73618855499999997 18)) (.mul (.rd (.var .T)) (.add (.neg (.num 31465675699999999 21)) (.mul (.rd (.var .T)) (.add (.num 76860317000000003 25) (.mul (.neg (.num 80720446000000006 29)) (.rd (.var .T)))))))) (.add (.add (.div (.add (.num 37509503700000003 15) (.div (.neg (.num 548843465 4)) (.rd (.var .T)))) (.rd (.var .T))) (.num 28177502399999999 18)) (.mul (.rd (.var .T)) (.add (.neg (.num 63831066666666668 22)) (.mul (.rd (.var .T)) (.add (.num 74006215500000001 26) (.mul (.neg (.num 34248830000000002 30)) (.rd (.var .T)))))))),
  .ite (.rd (.var .T)) (.num 1391 0) (.arr .dBdT 48) (.add (.add (.div (.add (.neg (.num 39634268100000001 16)) (.div (.neg (.num 24634529900000001 12)) (.rd (.var .T)))) (.rd (.var .T))) (.num 71996180000000007 18)) (.mul (.rd (.var .T)) (.add (.neg (.num 32046133833333336 21)) (.mul (.rd (.var .T)) (.add (.num 82543618250000006 25) (.mul (.neg (.num 92479638000000003 29)) (.rd (.var .T)))))))) (.add (.add (.div (.add (.num 364002111 7) (.div (.neg (.num 389405962 4)) (.rd (.var .T)))) (.rd (.var .T))) (.num 26311537650000001 18)) (.mul (.rd (.var .T)) (.add (.neg (.num 59541439666666665 22)) (.mul (.rd (.var .T)) (.add (.num 68987465750000003 26) (.mul (.neg (.num 31912499799999998 30)) (.rd (.var .T))))))))]

/-- `cp_avg`, `jac[0]` and `working_temp`, utilities/mechanisms/yao/lib/src/jacob.c:173-188 -/
def jacobCpAvg : List CStmt := [
  .set (.var .cpAvg) (.add (.add (.add (.add (.add (.add (.add (.add (.add (.add (.add (.add (.add (.add (.add (.add (.add (.add (.add (.add (.add (.add (.add (.add (.add (.add (.add (.add (.add (.add (.add (.add (.add (.add (.add (.add (.add (.add (.add (.add (.add (.add (.add (.add (.add (.add (.add (.add (.add (.add (.add (.add (.add (.mul (.rd (.arr .y 1)) (.rd (.arr .cp 0))) (.mul (.rd (.arr .y 2)) (.rd (.arr .cp 1)))) (.mul (.rd (.arr .y 3)) (.rd (.arr .cp 2)))) (.mul (.rd (.arr .y 4)) (.rd (.arr .cp 3)))) (.mul (.rd (.arr .y 5)) (.rd (.arr .cp 4)))) (.mul (.rd (.arr .y 6)) (.rd (.arr .cp 5)))) (.mul (.rd (.arr .y 7)) (.rd (.arr .cp 6)))) (.mul (.rd (.arr .y 8)) (.rd (.arr .cp 7)))) (.mul (.rd (.arr .y 9)) (.rd (.arr .cp 8)))) (.mul (.rd (.arr .y 10)) (.rd (.arr .cp 9)))) (.mul (.rd (.arr .y 11)) (.rd (.arr .cp 10)))) (.mul (.rd (.arr .y 12)) (.rd (.arr .cp 11)))) (.mul (.rd (.arr .y 13)) (.rd (.arr .cp 12)))) (.mul (.rd (.arr .y 14)) (.rd (.arr .cp 13)))) (.mul (.rd (.arr .y 15)) (.rd (.arr .cp 14)))) (.mul (.rd (.arr .y 16)) (.rd (.arr .cp 15)))) (.mul (.rd (.arr .y 17)) (.rd (.arr .cp 16)))) (.mul (.rd (.arr .y 18)) (.rd (.arr .cp 17)))) (.mul (.rd (.arr .y 19)) (.rd (.arr .cp 18)))) (.mul (.rd (.arr .y 20)) (.rd (.arr .cp 19)))) (.mul (.rd (.arr .y 21)) (.rd (.arr .cp 20)))) (.mul (.rd (.arr .y 22)) (.rd (.arr .cp 21)))) (.mul (.rd (.arr .y 23)) (.rd (.arr .cp 22)))) (.mul (.rd (.arr .y 24)) (.rd (.arr .cp 23)))) (.mul (.rd (.arr .y 25)) (.rd (.arr .cp 24)))) (.mul (.rd (.arr .y 26)) (.rd (.arr .cp 25)))) (.mul (.rd (.arr .y 27)) (.rd (.arr .cp 26)))) (.mul (.rd (.arr .y 28)) (.rd (.arr .cp 27)))) (.mul (.rd (.arr .y 29)) (.rd (.arr .cp 28)))) (.mul (.rd (.arr .y 30)) (.rd (.arr .cp 29)))) (.mul (.rd (.arr .y 31)) (.rd (.arr .cp 30)))) (.mul (.rd (.arr .y 32)) (.rd (.arr .cp 31)))) (.mul (.rd (.arr .y 33)) (.rd (.arr .cp 32)))) (.mul (.rd (.arr .y 34)) (.rd (.arr .cp 33)))) (.mul (.rd (.arr .y 35)) (.rd (.arr .cp 34)))) (.mul (.rd (.arr .y 36)) (.rd (.arr .cp 35)))) (.mul (.rd (.arr .y 37)) (.rd (.arr .cp 36)))) (.mul (.rd (.arr .y 38)) (.rd (.arr .cp 37)))) (.mul (.rd (.arr .y 39)) (.rd (.arr .cp 38)))) (.mul (.rd (.arr .y 40)) (.rd (.arr .cp 39)))) (.mul (.rd (.arr .y 41)) (.rd (.arr .cp 40)))) (.mul (.rd (.arr .y 42)) (.rd (.arr .cp 41)))) (.mul (.rd (.arr .y 43)) (.rd (.arr .cp 42)))) (.mul (.rd (.arr .y 44)) (.rd (.arr .cp 43)))) (.mul (.rd (.arr .y 45)) (.rd (.arr .cp 44)))) (.mul (.rd (.arr .y 46)) (.rd (.arr .cp 45)))) (.mul (.rd (.arr .y 47)) (.rd (.arr .cp 46)))) (.mul (.rd (.arr .y 48)) (.rd (.arr .cp 47)))) (.mul (.rd (.arr .y 49)) (.rd (.arr .cp 48)))) (.mul (.rd (.arr .y 50)) (.rd (.arr .cp 49)))) (.mul (.rd (.arr .y 51)) (.rd (.arr .cp 50)))) (.mul (.rd (.arr .y 52)) (.rd (.arr .cp 51)))) (.mul (.rd (.arr .y 53)) (.rd (.arr .cp 52)))) (.mul (.rd (.var .yN)) (.rd (.arr .cp 53)))),
  .set (.arr .jac 0) (.num 0 0),
  .set (.var .workTemp) (.num 0 0)]

/-- `working_temp` and `jac[0]`, utilities/mechanisms/yao/lib/src/jacob.c:193-376 -/
def jacobLast : List CStmt := [
  .ite (.rd (.var .T)) (.num 1000 0) (.var .workTemp) (.add (.add (.add (.add (.add (.add (.add (.add (.add (.add (.add (.add (.add (.add (.add (.add (.add (.add (.add (.add (.add (.add (.add (.add (.add (.add (.add (.add (.add (.add (.add (.add (.add (.add (.add (.add (.mul (.mul (.rd (.arr .y 1)) (.num 20813212426154001 14)) (.add (.num 0 0) (.mul (.rd (.var .T)) (.add (.num 0 0) (.mul (.rd (.var .T)) (.add (.num 0 0) (.mul (.num 0 0) (.rd (.var .T))))))))) (.mul (.mul (.rd (.arr .y 2)) (.num 8248965315395757 12)) (.add (.num 70533281899999999 29) (.mul (.rd (.var .T)) (.add (.neg (.num 39918392799999999 31)) (.mul (.rd (.var .T)) (.add (.num 69024489599999992 34) (.mul (.neg (.num 37109293280000002 37)) (.rd (.var .T)))))))))) (.mul (.mul (.rd (.arr .y 3)) (.num 51967336900133762 14)) (.add (.neg (.num 32793188399999999 19)) (.mul (.rd (.var .T)) (.add (.num 13286127919999999 21) (.mul (.rd (.var .T)) (.add (.neg (.num 1838419872 17)) (.mul (.num 84506388399999997 28) (.rd (.var .T)))))))))) (.mul (.mul (.rd (.arr .y 4)) (.num 48887492694330808 14)) (.add (.neg (.num 32254493900000002 19)) (.mul (.rd (.var .T)) (.add (.num 1305529382 14) (.mul (.rd (.var .T)) (.add (.neg (.num 1739560929 17)) (.mul (.num 82494951599999996 28) (.rd (.var .T)))))))))) (.mul (.mul (.rd (.arr .y 5)) (.num 25190194790518544 14)) (.add (.neg (.num 47491205099999996 19)) (.mul (.rd (.var .T)) (.add (.num 42316578199999997 21) (.mul (.rd (.var .T)) (.add (.neg (.num 72829168200000001 24)) (.mul (.num 37169004960000001 27) (.rd (.var .T)))))))))) (.mul (.mul (.rd (.arr .y 6)) (.num 41244826576978785 13)) (.add (.num 79805207499999992 19) (.mul (.rd (.var .T)) (.add (.neg (.num 38956301999999997 21)) (.mul (.rd (.var .T)) (.add (.num 60471628200000004 24) (.mul (.neg (.num 29504470440000002 27)) (.rd (.var .T)))))))))) (.mul (.mul (.rd (.arr .y 7)) (.num 4615227795515807 13)) (.add (.neg (.num 20364341000000002 19)) (.mul (.rd (.var .T)) (.add (.num 13040804219999999 21) (.mul (.rd (.var .T)) (.add (.neg (.num 16463911860000002 24)) (.mul (.num 708791268 20) (.rd (.var .T)))))))))) (.mul (.mul (.rd (.arr .y 8)) (.num 24443746347165404 14)) (.add (.neg (.num 54282241699999995 20)) (.mul (.rd (.var .T)) (.add (.num 33467140200000003 21) (.mul (.rd (.var .T)) (.add (.neg (.num 64731243900000002 24)) (.mul (.num 34498174519999999 27) (.rd (.var .T)))))))))) (.mul (.mul (.rd (.arr .y 9)) (.num 25983668450066881 14)) (.add (.neg (.num 29967341599999998 19)) (.mul (.rd (.var .T)) (.add (.num 1969460402 14) (.mul (.rd (.var .T)) (.add (.neg (.num 29043885270000002 24)) (.mul (.num 1297491348 20) (.rd (.var .T)))))))))) (.mul (.mul (.rd (.arr .y 10)) (.num 59275206603321635 14)) (.add (.num 96887214300000004 20) (.mul (.rd (.var .T)) (.add (.num 55897968200000002 22) (.mul (.rd (.var .T)) (.add (.neg (.num 11552734590000001 24)) (.mul (.num 674966876 20) (.rd (.var .T)))))))))) (.mul (.mul (.rd (.arr .y 11)) (.num 59275206603321635 14)) (.add (.neg (.num 23666141900000001 19)) (.mul (.rd (.var .T)) (.add (.num 164659244 13) (.mul (.rd (.var .T)) (.add (.neg (.num 20064479430000002 24)) (.mul (.num 77725894800000005 28) (.rd (.var .T)))))))))) (.mul (.mul (.rd (.arr .y 12)) (.num 55301374409537334 14)) (.add (.num 201095175 11) (.mul (.rd (.var .T)) (.add (.num 1146043712 14) (.mul (.rd (.var .T)) (.add (.neg (.num 20613522750000001 24)) (.mul (.num 1017542936 20) (.rd (.var .T)))))))))) (.mul (.mul (.rd (.arr .y 13)) (.num 5182688078609915 13)) (.add (.neg (.num 13670978800000001 18)) (.mul (.rd (.var .T)) (.add (.num 98360119799999999 21) (.mul (.rd (.var .T)) (.add (.neg (.num 14542290780000001 23)) (.mul (.num 66677582399999996 27) (.rd (.var .T)))))))))) (.mul (.mul (.rd (.arr .y 14)) (.num 2865243876803429 13)) (.add (.neg (.num 324392532 11)) (.mul (.rd (.var .T)) (.add (.num 275598892 13) (.mul (.rd (.var .T)) (.add (.neg (.num 39943227900000001 24)) (.mul (.num 173507546 19) (.rd (.var .T)))))))))) (.mul (.mul (.rd (.arr .y 15)) (.num 2769061668644934 13)) (.add (.neg (.num 99083336899999999 19)) (.mul (.rd (.var .T)) (.add (.num 74644001599999998 21) (.mul (.rd (.var .T)) (.add (.neg (.num 1137855783 16)) (.mul (.num 52709060799999999 27) (.rd (.var .T)))))))))) (.mul (.mul (.rd (.arr .y 16)) (.num 26791271377208773 14)) (.add (.neg (.num 28046330600000001 19)) (.mul (.rd (.var .T)) (.add (.num 75310194200000003 21) (.mul (.rd (.var .T)) (.add (.neg (.num 1419216267 16)) (.mul (.num 74635368000000002 27) (.rd (.var .T)))))))))) (.mul (.mul (.rd (.arr .y 17)) (.num 29683482206608977 14)) (.add (.neg (.num 61035368 11)) (.mul (.rd (.var .T)) (.add (.num 20336286600000001 22) (.mul (.rd (.var .T)) (.add (.num 27210176520000001 25) (.mul (.neg (.num 3617697996 21)) (.rd (.var .T)))))))))) (.mul (.mul (.rd (.arr .y 18)) (.num 18892296942953618 14)) (.add (.num 89845967700000005 19) (.mul (.rd (.var .T)) (.add (.neg (.num 1424712538 14)) (.mul (.rd (.var .T)) (.add (.num 73775706599999994 25) (.mul (.neg (.num 57479819199999996 29)) (.rd (.var .T)))))))))) (.mul (.mul (.rd (.arr .y 19)) (.num 31932177658088915 14)) (.add (.num 23361562900000001 18) (.mul (.rd (.var .T)) (.add (.neg (.num 71034362999999998 21)) (.mul (.rd (.var .T)) (.add (.num 84045731099999996 24) (.mul (.neg (.num 34002918959999999 27)) (.rd (.var .T)))))))))) (.mul (.mul (.rd (.arr .y 20)) (.num 30742133534867867 14)) (.add (.num 151479162 11) (.mul (.rd (.var .T)) (.add (.num 518418824 13) (.mul (.rd (.var .T)) (.add (.neg (.num 10729735409999999 23)) (.mul (.num 58860349199999999 27) (.rd (.var .T)))))))))) (.mul (.mul (.rd (.arr .y 21)) (.num 29637603301660818 14)) (.add (.neg (.num 75705224700000004 19)) (.mul (.rd (.var .T)) (.add (.num 1141980584 13) (.mul (.rd (.var .T)) (.add (.neg (.num 2074766259 16)) (.mul (.num 10795374920000001 26) (.rd (.var .T)))))))))) (.mul (.mul (.rd (.arr .y 22)) (.num 28609689384998131 14)) (.add (.neg (.num 41865889200000004 19)) (.mul (.rd (.var .T)) (.add (.num 99428561399999998 21) (.mul (.rd (.var .T)) (.add (.neg (.num 17973798179999999 23)) (.mul (.num 922036016 19) (.rd (.var .T)))))))))) (.mul (.mul (.rd (.arr .y 23)) (.num 27650687204768667 14)) (.add (.neg (.num 55015426999999997 19)) (.mul (.rd (.var .T)) (.add (.num 11988765760000001 20) (.mul (.rd (.var .T)) (.add (.neg (.num 2125398855 16)) (.mul (.num 1074743084 19) (.rd (.var .T)))))))))) (.mul (.mul (.rd (.arr .y 24)) (.num 19315645500243699 14)) (.add (.num 10738574000000001 18) (.mul (.rd (.var .T)) (.add (.num 37829849999999998 22) (.mul (.rd (.var .T)) (.add (.neg (.num 21475749300000001 24)) (.mul (.num 114695404 19) (.rd (.var .T)))))))))) (.mul (.mul (.rd (.arr .y 25)) (.num 20243281060168923 14)) (.add (.num 19813820999999999 18) (.mul (.rd (.var .T)) (.add (.num 2499412 11) (.mul (.rd (.var .T)) (.add (.neg (.num 10006666499999999 23)) (.mul (.num 63386284000000001 27) (.rd (.var .T)))))))))) (.mul (.mul (.rd (.arr .y 26)) (.num 19758402201107208 14)) (.add (.num 20925180000000002 18) (.mul (.rd (.var .T)) (.add (.num 89735880000000005 22) (.mul (.rd (.var .T)) (.add (.neg (.num 50067360000000003 24)) (.mul (.num 28632584000000001 27) (.rd (.var .T)))))))))) (.mul (.mul (.rd (.arr .y 27)) (.num 19296208183235558 14)) (.add (.num 26008973000000001 18) (.mul (.rd (.var .T)) (.add (.num 47085031999999996 22) (.mul (.rd (.var .T)) (.add (.neg (.num 58785396 15)) (.mul (.num 37488082800000003 27) (.rd (.var .T)))))))))) (.mul (.mul (.rd (.arr .y 28)) (.num 14830262506385543 14)) (.add (.num 26231054 9) (.mul (.rd (.var .T)) (.add (.neg (.num 18582461 12)) (.mul (.rd (.var .T)) (.add (.neg (.num 14351181599999999 24)) (.mul (.num 133922172 19) (.rd (.var .T)))))))))) (.mul (.mul (.rd (.arr .y 29)) (.num 15089882899288889 14)) (.add (.num 39678856999999998 18) (.mul (.rd (.var .T)) (.add (.neg (.num 45796171999999997 21)) (.mul (.rd (.var .T)) (.add (.num 64058918999999999 25) (.mul (.num 923855 17) (.rd (.var .T)))))))))) (.mul (.mul (.rd (.arr .y 30)) (.num 14818801650830409 14)) (.add (.num 3085338 8) (.mul (.rd (.var .T)) (.add (.num 10173049399999999 21) (.mul (.rd (.var .T)) (.add (.neg (.num 73964664 15)) (.mul (.num 44440771999999997 27) (.rd (.var .T)))))))))) (.mul (.mul (.rd (.arr .y 31)) (.num 1455728816681158 13)) (.add (.num 38297497 9) (.mul (.rd (.var .T)) (.add (.neg (.num 145321018 13)) (.mul (.rd (.var .T)) (.add (.neg (.num 46285641000000003 24)) (.mul (.num 34743774000000002 27) (.rd (.var .T)))))))))) (.mul (.mul (.rd (.arr .y 32)) (.num 12027900893521817 14)) (.add (.num 40430388999999997 18) (.mul (.rd (.var .T)) (.add (.num 13560467799999999 21) (.mul (.rd (.var .T)) (.add (.neg (.num 101174226 15)) (.mul (.num 60466852000000004 27) (.rd (.var .T)))))))))) (.mul (.mul (.rd (.arr .y 50)) (.num 41297824509398289 15)) (.add (.num 89387300000000003 18) (.mul (.rd (.var .T)) (.add (.num 29070200000000002 21) (.mul (.rd (.var .T)) (.add (.neg (.num 224775 12)) (.mul (.num 13413000000000001 26) (.rd (.var .T)))))))))) (.mul (.mul (.rd (.arr .y 51)) (.num 41297824509398289 15)) (.add (.num 99791299999999999 18) (.mul (.rd (.var .T)) (.add (.neg (.num 36127000000000002 21)) (.mul (.rd (.var .T)) (.add (.neg (.num 1255305 13)) (.mul (.num 89114399999999997 27) (.rd (.var .T)))))))))) (.mul (.mul (.rd (.arr .y 52)) (.num 35634208224384466 15)) (.add (.num 14502000000000001 17) (.mul (.rd (.var .T)) (.add (.neg (.num 1998616 10)) (.mul (.rd (.var .T)) (.add (.num 781266 13) (.mul (.num 47743200000000002 28) (.rd (.var .T)))))))))) (.mul (.mul (.rd (.arr .y 53)) (.num 38435802925248602 15)) (.add (.num 65062300000000003 18) (.mul (.rd (.var .T)) (.add (.num 13901159999999999 20) (.mul (.rd (.var .T)) (.add (.neg (.num 380715 12)) (.mul (.num 2043964 16) (.rd (.var .T)))))))))) (.mul (.mul (.rd (.var .yN)) (.num 29680218594762238 14)) (.add (.num 14082404 10) (.mul (.rd (.var .T)) (.add (.neg (.num 79264439999999996 22)) (.mul (.rd (.var .T)) (.add (.num 16924545000000002 24) (.mul (.neg (.num 97794159999999997 28)) (.rd (.var .T)))))))))) (.add (.add (.add (.add (.add (.add (.add (.add (.add (.add (.add (.add (.add (.add (.add (.add (.add (.add (.add (.add (.add (.add (.add (.add (.add (.add (.add (.add (.add (.add (.add (.add (.add (.add (.add (.add (.mul (.mul (.rd (.arr .y 1)) (.num 20813212426154001 14)) (.add (.num 0 0) (.mul (.rd (.var .T)) (.add (.num 0 0) (.mul (.rd (.var .T)) (.add (.num 0 0) (.mul (.num 0 0) (.rd (.var .T))))))))) (.mul (.mul (.rd (.arr .y 2)) (.num 8248965315395757 12)) (.add (.neg (.num 23084297299999999 27)) (.mul (.rd (.var .T)) (.add (.num 32312389600000002 30) (.mul (.rd (.var .T)) (.add (.neg (.num 14205457050000002 33)) (.mul (.num 19927894280000001 37) (.rd (.var .T)))))))))) (.mul (.mul (.rd (.arr .y 3)) (.num 51967336900133762 14)) (.add (.neg (.num 85974113700000004 21)) (.mul (.rd (.var .T)) (.add (.num 83896917800000004 24) (.mul (.rd (.var .T)) (.add (.neg (.num 30053339700000001 27)) (.mul (.num 49133476399999997 31) (.rd (.var .T)))))))))) (.mul (.mul (.rd (.arr .y 4)) (.num 48887492694330808 14)) (.add (.num 105650448 11) (.mul (.rd (.var .T)) (.add (.neg (.num 51816551600000003 23)) (.mul (.rd (.var .T)) (.add (.num 91565602200000001 27) (.mul (.neg (.num 53278350400000003 31)) (.rd (.var .T)))))))))) (.mul (.mul (.rd (.arr .y 5)) (.num 25190194790518544 14)) (.add (.num 22398201299999999 19) (.mul (.rd (.var .T)) (.add (.neg (.num 12673163 13)) (.mul (.rd (.var .T)) (.add (.num 34273911000000001 26) (.mul (.neg (.num 43163414 21)) (.rd (.var .T)))))))))) (.mul (.mul (.rd (.arr .y 6)) (.num 41244826576978785 13)) (.add (.neg (.num 49402473099999998 21)) (.mul (.rd (.var .T)) (.add (.num 99891355599999992 23) (.mul (.rd (.var .T)) (.add (.neg (.num 53869918199999997 26)) (.mul (.num 80102150399999999 30) (.rd (.var .T)))))))))) (.mul (.mul (.rd (.arr .y 7)) (.num 4615227795515807 13)) (.add (.num 21769180400000002 19) (.mul (.rd (.var .T)) (.add (.neg (.num 32814503599999998 23)) (.mul (.rd (.var .T)) (.add (.neg (.num 291125961 18)) (.mul (.num 67280396799999996 30) (.rd (.var .T)))))))))) (.mul (.mul (.rd (.arr .y 8)) (.num 24443746347165404 14)) (.add (.num 490831694 11) (.mul (.rd (.var .T)) (.add (.neg (.num 38027844999999999 22)) (.mul (.rd (.var .T)) (.add (.num 11135579579999999 25) (.mul (.neg (.num 11516332200000001 29)) (.rd (.var .T)))))))))) (.mul (.mul (.rd (.arr .y 9)) (.num 25983668450066881 14)) (.add (.num 14830875399999999 19) (.mul (.rd (.var .T)) (.add (.neg (.num 1515933338 15)) (.mul (.rd (.var .T)) (.add (.num 62841166499999998 26) (.mul (.neg (.num 86687117599999996 30)) (.rd (.var .T)))))))))) (.mul (.mul (.rd (.arr .y 10)) (.num 59275206603321635 14)) (.add (.num 36563929199999999 19) (.mul (.rd (.var .T)) (.add (.neg (.num 28178919400000001 22)) (.mul (.rd (.var .T)) (.add (.num 78053864700000003 26) (.mul (.neg (.num 75091026800000003 30)) (.rd (.var .T)))))))))) (.mul (.mul (.rd (.arr .y 11)) (.num 59275206603321635 14)) (.add (.num 465588637 11) (.mul (.rd (.var .T)) (.add (.neg (.num 40238389399999997 22)) (.mul (.rd (.var .T)) (.add (.num 12537180000000001 25) (.mul (.neg (.num 13588654599999999 29)) (.rd (.var .T)))))))))) (.mul (.mul (.rd (.arr .y 12)) (.num 55301374409537334 14)) (.add (.num 72399003699999999 19) (.mul (.rd (.var .T)) (.add (.neg (.num 59742869599999998 22)) (.mul (.rd (.var .T)) (.add (.num 17870539320000002 25) (.mul (.neg (.num 18686175760000001 29)) (.rd (.var .T)))))))))) (.mul (.mul (.rd (.arr .y 13)) (.num 5182688078609915 13)) (.add (.num 133909467 10) (.mul (.rd (.var .T)) (.add (.neg (.num 1146571618 14)) (.mul (.rd (.var .T)) (.add (.num 36687760500000002 25) (.mul (.neg (.num 40726092000000001 29)) (.rd (.var .T)))))))))) (.mul (.mul (.rd (.arr .y 14)) (.num 2865243876803429 13)) (.add (.num 49569552599999997 19) (.mul (.rd (.var .T)) (.add (.neg (.num 496891226 14)) (.mul (.rd (.var .T)) (.add (.num 17674853340000001 25) (.mul (.neg (.num 2134034844 22)) (.rd (.var .T)))))))))) (.mul (.mul (.rd (.arr .y 15)) (.num 2769061668644934 13)) (.add (.num 920000082 11) (.mul (.rd (.var .T)) (.add (.neg (.num 88451762599999995 22)) (.mul (.rd (.var .T)) (.add (.num 30192363599999999 25) (.mul (.neg (.num 35354225600000002 29)) (.rd (.var .T)))))))))) (.mul (.mul (.rd (.arr .y 16)) (.num 26791271377208773 14)) (.add (.num 74414247399999999 19) (.mul (.rd (.var .T)) (.add (.neg (.num 53941035199999998 22)) (.mul (.rd (.var .T)) (.add (.num 1314271512 18) (.mul (.neg (.num 1054148392 22)) (.rd (.var .T)))))))))) (.mul (.mul (.rd (.arr .y 17)) (.num 29683482206608977 14)) (.add (.num 20625274300000002 19) (.mul (.rd (.var .T)) (.add (.neg (.num 19976515420000001 22)) (.mul (.rd (.var .T)) (.add (.num 69015902399999998 26) (.mul (.neg (.num 81459086400000001 30)) (.rd (.var .T)))))))))) (.mul (.mul (.rd (.arr .y 18)) (.num 18892296942953618 14)) (.add (.num 44143702599999998 19) (.mul (.rd (.var .T)) (.add (.neg (.num 44296280800000001 22)) (.mul (.rd (.var .T)) (.add (.num 1570470564 18) (.mul (.neg (.num 18883366560000001 29)) (.rd (.var .T)))))))))) (.mul (.mul (.rd (.arr .y 19)) (.num 31932177658088915 14)) (.add (.num 59616666400000001 19) (.mul (.rd (.var .T)) (.add (.neg (.num 474589704 14)) (.mul (.rd (.var .T)) (.add (.num 14022365130000001 25) (.mul (.neg (.num 14449408520000001 29)) (.rd (.var .T)))))))))) (.mul (.mul (.rd (.arr .y 20)) (.num 30742133534867867 14)) (.add (.num 10330229200000001 18) (.mul (.rd (.var .T)) (.add (.neg (.num 93616469799999992 22)) (.mul (.rd (.var .T)) (.add (.num 30528986399999998 25) (.mul (.neg (.num 3450428164 22)) (.rd (.var .T)))))))))) (.mul (.mul (.rd (.arr .y 21)) (.num 29637603301660818 14)) (.add (.num 146454151 10) (.mul (.rd (.var .T)) (.add (.neg (.num 134215583 13)) (.mul (.rd (.var .T)) (.add (.num 44166876900000006 25) (.mul (.neg (.num 50282424399999999 29)) (.rd (.var .T)))))))))) (.mul (.mul (.rd (.arr .y 22)) (.num 28609689384998131 14)) (.add (.num 17397272200000001 18) (.mul (.rd (.var .T)) (.add (.neg (.num 15964133359999999 21)) (.mul (.rd (.var .T)) (.add (.num 52565306700000001 25) (.mul (.neg (.num 598566304 21)) (.rd (.var .T)))))))))) (.mul (.mul (.rd (.arr .y 23)) (.num 27650687204768667 14)) (.add (.num 216852677 10) (.mul (.rd (.var .T)) (.add (.neg (.num 20051213400000001 21)) (.mul (.rd (.var .T)) (.add (.num 66423600300000001 25) (.mul (.neg (.num 76001155999999998 29)) (.rd (.var .T)))))))))) (.mul (.mul (.rd (.arr .y 24)) (.num 19315645500243699 14)) (.add (.num 81305913999999996 19) (.mul (.rd (.var .T)) (.add (.neg (.num 54872489999999996 22)) (.mul (.rd (.var .T)) (.add (.num 12210912300000001 25) (.mul (.neg (.num 87040684000000004 30)) (.rd (.var .T)))))))))) (.mul (.mul (.rd (.arr .y 25)) (.num 20243281060168923 14)) (.add (.num 14324731 9) (.mul (.rd (.var .T)) (.add (.neg (.num 11356326399999999 21)) (.mul (.rd (.var .T)) (.add (.num 33242403000000002 25) (.mul (.neg (.num 36145554799999998 29)) (.rd (.var .T)))))))))) (.mul (.mul (.rd (.arr .y 26)) (.num 19758402201107208 14)) (.add (.num 14908340000000001 18) (.mul (.rd (.var .T)) (.add (.neg (.num 98997979999999992 22)) (.mul (.rd (.var .T)) (.add (.num 21636065999999999 25) (.mul (.neg (.num 15064816 20)) (.rd (.var .T)))))))))) (.mul (.mul (.rd (.arr .y 27)) (.num 19296208183235558 14)) (.add (.num 16031485000000002 18) (.mul (.rd (.var .T)) (.add (.neg (.num 10544047599999999 21)) (.mul (.rd (.var .T)) (.add (.num 227665056 17) (.mul (.neg (.num 155450876 21)) (.rd (.var .T)))))))))) (.mul (.mul (.rd (.arr .y 28)) (.num 14830262506385543 14)) (.add (.num 17114256000000001 18) (.mul (.rd (.var .T)) (.add (.neg (.num 14966832199999999 21)) (.mul (.rd (.var .T)) (.add (.num 42756747000000002 25) (.mul (.neg (.num 36698736399999998 29)) (.rd (.var .T)))))))))) (.mul (.mul (.rd (.arr .y 29)) (.num 15089882899288889 14)) (.add (.num 22634557999999999 18) (.mul (.rd (.var .T)) (.add (.neg (.num 18509093999999999 21)) (.mul (.rd (.var .T)) (.add (.num 50423780999999995 25) (.mul (.neg (.num 41634467999999999 29)) (.rd (.var .T)))))))))) (.mul (.mul (.rd (.arr .y 30)) (.num 14818801650830409 14)) (.add (.num 34350507000000002 18) (.mul (.rd (.var .T)) (.add (.neg (.num 31766393999999998 21)) (.mul (.rd (.var .T)) (.add (.num 99268986000000009 25) (.mul (.neg (.num 10144418000000001 28)) (.rd (.var .T)))))))))) (.mul (.mul (.rd (.arr .y 31)) (.num 1455728816681158 13)) (.add (.num 23691071000000001 18) (.mul (.rd (.var .T)) (.add (.neg (.num 15189772999999999 21)) (.mul (.rd (.var .T)) (.add (.num 19928140799999998 25) (.mul (.num 219380544 21) (.rd (.var .T)))))))))) (.mul (.mul (.rd (.arr .y 32)) (.num 12027900893521817 14)) (.add (.num 22714137999999998 18) (.mul (.rd (.var .T)) (.add (.neg (.num 15582092599999999 21)) (.mul (.rd (.var .T)) (.add (.num 35629566 16) (.mul (.neg (.num 26372979200000002 29)) (.rd (.var .T)))))))))) (.mul (.mul (.rd (.arr .y 50)) (.num 41297824509398289 15)) (.add (.num 537539 7) (.mul (.rd (.var .T)) (.add (.neg (.num 33637199999999997 21)) (.mul (.rd (.var .T)) (.add (.num 7541010000000001 24) (.mul (.neg (.num 58883199999999997 29)) (.rd (.var .T)))))))))) (.mul (.mul (.rd (.arr .y 51)) (.num 41297824509398289 15)) (.add (.num 51591699999999997 18) (.mul (.rd (.var .T)) (.add (.neg (.num 31465399999999999 21)) (.mul (.rd (.var .T)) (.add (.num 69091800000000003 25) (.mul (.neg (.num 53056000000000001 29)) (.rd (.var .T)))))))))) (.mul (.mul (.rd (.arr .y 52)) (.num 35634208224384466 15)) (.add (.num 51059 6) (.mul (.rd (.var .T)) (.add (.neg (.num 30868999999999999 21)) (.mul (.rd (.var .T)) (.add (.num 67388099999999998 25) (.mul (.neg (.num 51560400000000003 29)) (.rd (.var .T)))))))))) (.mul (.mul (.rd (.arr .y 53)) (.num 38435802925248602 15)) (.add (.num 61639199999999998 18) (.mul (.rd (.var .T)) (.add (.neg (.num 419672 10)) (.mul (.rd (.var .T)) (.add (.num 99949799999999997 25) (.mul (.neg (.num 81435999999999998 29)) (.rd (.var .T)))))))))) (.mul (.mul (.rd (.var .yN)) (.num 29680218594762238 14)) (.add (.num 14879768000000001 19) (.mul (.rd (.var .T)) (.add (.neg (.num 1136952 12)) (.mul (.rd (.var .T)) (.add (.num 30291114 17) (.mul (.neg (.num 27013403999999999 30)) (.rd (.var .T)))))))))),
  .ite (.rd (.var .T)) (.num 1385 0) (.var .workTemp) (.add (.rd (.var .workTemp)) (.add (.mul (.mul (.rd (.arr .y 47)) (.num 49101975722034723 15)) (.add (.num 13735534799999999 17) (.mul (.rd (.var .T)) (.add (.neg (.num 16481523159999999 20)) (.mul (.rd (.var .T)) (.add (.num 7092646860000001 23) (.mul (.neg (.num 98974372800000006 28)) (.rd (.var .T))))))))) (.mul (.mul (.rd (.arr .y 48)) (.num 49101975722034723 15)) (.add (.num 13735534799999999 17) (.mul (.rd (.var .T)) (.add (.neg (.num 16481523159999999 20)) (.mul (.rd (.var .T)) (.add (.num 7092646860000001 23) (.mul (.neg (.num 98974372800000006 28)) (.rd (.var .T))))))))))) (.add (.rd (.var .workTemp)) (.add (.mul (.mul (.rd (.arr .y 47)) (.num 49101975722034723 15)) (.add (.num 53871946400000002 18) (.mul (.rd (.var .T)) (.add (.neg (.num 36434252600000003 21)) (.mul (.rd (.var .T)) (.add (.num 84232350899999994 25) (.mul (.neg (.num 64843368000000004 29)) (.rd (.var .T))))))))) (.mul (.mul (.rd (.arr .y 48)) (.num 49101975722034723 15)) (.add (.num 53871946400000002 18) (.mul (.rd (.var .T)) (.add (.neg (.num 36434252600000003 21)) (.mul (.rd (.var .T)) (.add (.num 84232350899999994 25) (.mul (.neg (.num 64843368000000004 29)) (.rd (.var .T))))))))))),
  .ite (.rd (.var .T)) (.num 1390 0) (.var .workTemp) (.add (.rd (.var .workTemp)) (.add (.add (.add (.add (.add (.add (.mul (.mul (.rd (.arr .y 34)) (.num 11687079873954106 14)) (.add (.num 56079695800000003 18) (.mul (.rd (.var .T)) (.add (.neg (.num 66309160600000006 21)) (.mul (.rd (.var .T)) (.add (.num 2932601343 17) (.mul (.neg (.num 45603864000000001 28)) (.rd (.var .T))))))))) (.mul (.mul (.rd (.arr .y 36)) (.num 97622851307080197 15)) (.add (.num 68380127200000002 18) (.mul (.rd (.var .T)) (.add (.neg (.num 82889582399999997 21)) (.mul (.rd (.var .T)) (.add (.num 37846740600000001 24) (.mul (.neg (.num 61248023199999998 28)) (.rd (.var .T)))))))))) (.mul (.mul (.rd (.arr .y 38)) (.num 83818437418406575 15)) (.add (.num 80882646700000005 18) (.mul (.rd (.var .T)) (.add (.neg (.num 1001065508 13)) (.mul (.rd (.var .T)) (.add (.num 46964792400000004 24) (.mul (.neg (.num 78646490800000001 28)) (.rd (.var .T)))))))))) (.mul (.mul (.rd (.arr .y 40)) (.num 73434404393878353 15)) (.add (.num 93254970500000006 18) (.mul (.rd (.var .T)) (.add (.neg (.num 11688944899999999 20)) (.mul (.rd (.var .T)) (.add (.num 55671064199999993 24) (.mul (.neg (.num 94850993200000002 28)) (.rd (.var .T)))))))))) (.mul (.mul (.rd (.arr .y 42)) (.num 65339656169366336 15)) (.add (.num 10561728300000001 17) (.mul (.rd (.var .T)) (.add (.neg (.num 13363999420000001 20)) (.mul (.rd (.var .T)) (.add (.num 64345849799999994 24) (.mul (.neg (.num 11096171000000001 27)) (.rd (.var .T)))))))))) (.mul (.mul (.rd (.arr .y 44)) (.num 58852307180927312 15)) (.add (.num 117972813 9) (.mul (.rd (.var .T)) (.add (.neg (.num 1503686158 13)) (.mul (.rd (.var .T)) (.add (.num 72999331800000001 24) (.mul (.neg (.num 1270091408 20)) (.rd (.var .T)))))))))) (.mul (.mul (.rd (.arr .y 46)) (.num 49101975722034723 15)) (.add (.num 14267070800000001 17) (.mul (.rd (.var .T)) (.add (.neg (.num 183783311 12)) (.mul (.rd (.var .T)) (.add (.num 902650176 16) (.mul (.neg (.num 15898171999999999 27)) (.rd (.var .T))))))))))) (.add (.rd (.var .workTemp)) (.add (.add (.add (.add (.add (.add (.mul (.mul (.rd (.arr .y 34)) (.num 11687079873954106 14)) (.add (.num 23973530999999999 18) (.mul (.rd (.var .T)) (.add (.neg (.num 16367858960000001 21)) (.mul (.rd (.var .T)) (.add (.num 38064922799999996 25) (.mul (.neg (.num 294163622 21)) (.rd (.var .T))))))))) (.mul (.mul (.rd (.arr .y 36)) (.num 97622851307080197 15)) (.add (.num 28310796199999998 18) (.mul (.rd (.var .T)) (.add (.neg (.num 19306144919999999 21)) (.mul (.rd (.var .T)) (.add (.num 44864275500000002 25) (.mul (.neg (.num 3465344256 22)) (.rd (.var .T)))))))))) (.mul (.mul (.rd (.arr .y 38)) (.num 83818437418406575 15)) (.add (.num 32628024300000003 18) (.mul (.rd (.var .T)) (.add (.neg (.num 22227648800000001 21)) (.mul (.rd (.var .T)) (.add (.num 516201444 17) (.mul (.neg (.num 39854679959999999 29)) (.rd (.var .T)))))))))) (.mul (.mul (.rd (.arr .y 40)) (.num 73434404393878353 15)) (.add (.num 36948016200000003 18) (.mul (.rd (.var .T)) (.add (.neg (.num 251530528 13)) (.mul (.rd (.var .T)) (.add (.num 58388522699999999 25) (.mul (.neg (.num 45067559199999999 29)) (.rd (.var .T)))))))))) (.mul (.mul (.rd (.arr .y 42)) (.num 65339656169366336 15)) (.add (.num 41265734399999997 18) (.mul (.rd (.var .T)) (.add (.neg (.num 280766578 13)) (.mul (.rd (.var .T)) (.add (.num 65152461299999993 25) (.mul (.neg (.num 50276922799999995 29)) (.rd (.var .T)))))))))) (.mul (.mul (.rd (.arr .y 44)) (.num 58852307180927312 15)) (.add (.num 45581840300000002 18) (.mul (.rd (.var .T)) (.add (.neg (.num 30998993 12)) (.mul (.rd (.var .T)) (.add (.num 71913279900000002 25) (.mul (.neg (.num 55483823600000003 29)) (.rd (.var .T)))))))))) (.mul (.mul (.rd (.arr .y 46)) (.num 49101975722034723 15)) (.add (.num 54210784800000002 18) (.mul (.rd (.var .T)) (.add (.neg (.num 36841103400000003 21)) (.mul (.rd (.var .T)) (.add (.num 8542865190000001 24) (.mul (.neg (.num 65892699200000004 29)) (.rd (.var .T))))))))))),
  .ite (.rd (.var .T)) (.num 1391 0) (.var .workTemp) (.add (.rd (.var .workTemp)) (.add (.mul (.mul (.rd (.arr .y 45)) (.num 48811425653540098 15)) (.add (.num 14723771099999999 17) (.mul (.rd (.var .T)) (.add (.neg (.num 18879405420000001 20)) (.mul (.rd (.var .T)) (.add (.num 9223238040000001 23) (.mul (.neg (.num 161440892 19)) (.rd (.var .T))))))))) (.mul (.mul (.rd (.arr .y 49)) (.num 4939600550276802 14)) (.add (.num 14399236000000001 17) (.mul (.rd (.var .T)) (.add (.neg (.num 192276803 12)) (.mul (.rd (.var .T)) (.add (.num 99052341900000007 24) (.mul (.neg (.num 18495927599999999 27)) (.rd (.var .T))))))))))) (.add (.rd (.var .workTemp)) (.add (.mul (.mul (.rd (.arr .y 45)) (.num 48811425653540098 15)) (.add (.num 56355004799999997 18) (.mul (.rd (.var .T)) (.add (.neg (.num 38298640000000002 21)) (.mul (.rd (.var .T)) (.add (.num 88807458599999993 25) (.mul (.neg (.num 68497660000000003 29)) (.rd (.var .T))))))))) (.mul (.mul (.rd (.arr .y 49)) (.num 4939600550276802 14)) (.add (.num 52623075300000002 18) (.mul (.rd (.var .T)) (.add (.neg (.num 35724863799999999 21)) (.mul (.rd (.var .T)) (.add (.num 82784958900000008 25) (.mul (.neg (.num 63824999599999996 29)) (.rd (.var .T))))))))))),
  .ite (.rd (.var .T)) (.num 1392 0) (.var .workTemp) (.add (.rd (.var .workTemp)) (.add (.add (.add (.add (.add (.mul (.mul (.rd (.arr .y 33)) (.num 11855041320664326 14)) (.add (.num 57421829399999999 18) (.mul (.rd (.var .T)) (.add (.neg (.num 74897378000000005 21)) (.mul (.rd (.var .T)) (.add (.num 38209496699999999 24) (.mul (.neg (.num 71843915599999996 28)) (.rd (.var .T))))))))) (.mul (.mul (.rd (.arr .y 35)) (.num 9879201100553604 14)) (.add (.num 69865542599999997 18) (.mul (.rd (.var .T)) (.add (.neg (.num 91881604400000002 21)) (.mul (.rd (.var .T)) (.add (.num 47090202900000007 24) (.mul (.neg (.num 88518470000000004 28)) (.rd (.var .T)))))))))) (.mul (.mul (.rd (.arr .y 37)) (.num 8467886657617376 14)) (.add (.num 824611601 10) (.mul (.rd (.var .T)) (.add (.neg (.num 1093008216 13)) (.mul (.rd (.var .T)) (.add (.num 56358690899999998 24) (.mul (.neg (.num 10629519319999999 27)) (.rd (.var .T)))))))))) (.mul (.mul (.rd (.arr .y 39)) (.num 74094008254152044 15)) (.add (.num 94606635699999997 18) (.mul (.rd (.var .T)) (.add (.neg (.num 12547710420000001 20)) (.mul (.rd (.var .T)) (.add (.num 64547492700000005 24) (.mul (.neg (.num 12108747320000001 27)) (.rd (.var .T)))))))))) (.mul (.mul (.rd (.arr .y 41)) (.num 65861340670357365 15)) (.add (.num 10695829699999999 17) (.mul (.rd (.var .T)) (.add (.neg (.num 1421946488 13)) (.mul (.rd (.var .T)) (.add (.num 73191323099999999 24) (.mul (.neg (.num 13710861879999999 27)) (.rd (.var .T)))))))))) (.mul (.mul (.rd (.arr .y 43)) (.num 59275206603321628 15)) (.add (.num 119305598 9) (.mul (.rd (.var .T)) (.add (.neg (.num 158897805 12)) (.mul (.rd (.var .T)) (.add (.num 81820978800000002 24) (.mul (.neg (.num 15308734919999999 27)) (.rd (.var .T))))))))))) (.add (.rd (.var .workTemp)) (.add (.add (.add (.add (.add (.mul (.mul (.rd (.arr .y 33)) (.num 11855041320664326 14)) (.add (.num 224072471 10) (.mul (.rd (.var .T)) (.add (.neg (.num 152669605 13)) (.mul (.rd (.var .T)) (.add (.num 35456689800000002 25) (.mul (.neg (.num 27375405560000001 29)) (.rd (.var .T))))))))) (.mul (.mul (.rd (.arr .y 35)) (.num 9879201100553604 14)) (.add (.num 267377658 10) (.mul (.rd (.var .T)) (.add (.neg (.num 18200735460000001 21)) (.mul (.rd (.var .T)) (.add (.num 42245930400000001 25) (.mul (.neg (.num 32604969760000001 29)) (.rd (.var .T)))))))))) (.mul (.mul (.rd (.arr .y 37)) (.num 8467886657617376 14)) (.add (.num 310607878 10) (.mul (.rd (.var .T)) (.add (.neg (.num 21128958599999999 21)) (.mul (.rd (.var .T)) (.add (.num 49021733999999997 25) (.mul (.neg (.num 3782392876 22)) (.rd (.var .T)))))))))) (.mul (.mul (.rd (.arr .y 39)) (.num 74094008254152044 15)) (.add (.num 35366646199999997 18) (.mul (.rd (.var .T)) (.add (.neg (.num 24041677600000001 21)) (.mul (.rd (.var .T)) (.add (.num 55756515899999997 25) (.mul (.neg (.num 43008904800000001 29)) (.rd (.var .T)))))))))) (.mul (.mul (.rd (.arr .y 41)) (.num 65861340670357365 15)) (.add (.num 39682528699999997 18) (.mul (.rd (.var .T)) (.add (.neg (.num 26963889200000001 21)) (.mul (.rd (.var .T)) (.add (.num 62517135600000007 25) (.mul (.neg (.num 48215717599999999 29)) (.rd (.var .T)))))))))) (.mul (.mul (.rd (.arr .y 43)) (.num 59275206603321628 15)) (.add (.num 43997152599999999 18) (.mul (.rd (.var .T)) (.add (.neg (.num 29885105999999999 21)) (.mul (.rd (.var .T)) (.add (.num 69275303399999994 25) (.mul (.neg (.num 53420590800000001 29)) (.rd (.var .T))))))))))),
  .set (.arr .jac 0) (.div (.neg (.add (.add (.add (.add (.add (.add (.add (.add (.add (.add (.add (.add (.add (.add (.add (.add (.add (.add (.add (.add (.add (.add (.add (.add (.add (.add (.add (.add (.add (.add (.add (.add (.add (.add (.add (.add (.add (.add (.add (.add (.add (.add (.add (.add (.add (.add (.add (.add (.add (.add (.add (.add (.add (.add (.add (.add (.add (.add (.add (.add (.add (.add (.add (.add (.add (.add (.add (.add (.add (.add (.add (.add (.add (.add (.add (.add (.add (.add (.add (.add (.add (.add (.add (.add (.add (.add (.add (.add (.add (.add (.add (.add (.add (.add (.add (.add (.add (.add (.add (.add (.add (.add (.add (.add (.add (.add (.mul (.mul (.rd (.arr .spRates 0)) (.num 39948 3)) (.add (.div (.mul (.neg (.rd (.var .workTemp))) (.rd (.arr .h 0))) (.rd (.var .cpAvg))) (.rd (.arr .cp 0)))) (.mul (.mul (.rd (.arr .jac 1)) (.rd (.arr .h 0))) (.rd (.var .rho)))) (.mul (.mul (.rd (.arr .spRates 1)) (.num 100794 5)) (.add (.div (.mul (.neg (.rd (.var .workTemp))) (.rd (.arr .h 1))) (.rd (.var .cpAvg))) (.rd (.arr .cp 1))))) (.mul (.mul (.rd (.arr .jac 2)) (.rd (.arr .h 1))) (.rd (.var .rho)))) (.mul (.mul (.rd (.arr .spRates 2)) (.num 159994 4)) (.add (.div (.mul (.neg (.rd (.var .workTemp))) (.rd (.arr .h 2))) (.rd (.var .cpAvg))) (.rd (.arr .cp 2))))) (.mul (.mul (.rd (.arr .jac 3)) (.rd (.arr .h 2))) (.rd (.var .rho)))) (.mul (.mul (.rd (.arr .spRates 3)) (.num 1700734 5)) (.add (.div (.mul (.neg (.rd (.var .workTemp))) (.rd (.arr .h 3))) (.rd (.var .cpAvg))) (.rd (.arr .cp 3))))) (.mul (.mul (.rd (.arr .jac 4)) (.rd (.arr .h 3))) (.rd (.var .rho)))) (.mul (.mul (.rd (.arr .spRates 4)) (.num 3300674 5)) (.add (.div (.mul (.neg (.rd (.var .workTemp))) (.rd (.arr .h 4))) (.rd (.var .cpAvg))) (.rd (.arr .cp 4))))) (.mul (.mul (.rd (.arr .jac 5)) (.rd (.arr .h 4))) (.rd (.var .rho)))) (.mul (.mul (.rd (.arr .spRates 5)) (.num 201588 5)) (.add (.div (.mul (.neg (.rd (.var .workTemp))) (.rd (.arr .h 5))) (.rd (.var .cpAvg))) (.rd (.arr .cp 5))))) (.mul (.mul (.rd (.arr .jac 6)) (.rd (.arr .h 5))) (.rd (.var .rho)))) (.mul (.mul (.rd (.arr .spRates 6)) (.num 1801528 5)) (.add (.div (.mul (.neg (.rd (.var .workTemp))) (.rd (.arr .h 6))) (.rd (.var .cpAvg))) (.rd (.arr .cp 6))))) (.mul (.mul (.rd (.arr .jac 7)) (.rd (.arr .h 6))) (.rd (.var .rho)))) (.mul (.mul (.rd (.arr .spRates 7)) (.num 3401468 5)) (.add (.div (.mul (.neg (.rd (.var .workTemp))) (.rd (.arr .h 7))) (.rd (.var .cpAvg))) (.rd (.arr .cp 7))))) (.mul (.mul (.rd (.arr .jac 8)) (.rd (.arr .h 7))) (.rd (.var .rho)))) (.mul (.mul (.rd (.arr .spRates 8)) (.num 319988 4)) (.add (.div (.mul (.neg (.rd (.var .workTemp))) (.rd (.arr .h 8))) (.rd (.var .cpAvg))) (.rd (.arr .cp 8))))) (.mul (.mul (.rd (.arr .jac 9)) (.rd (.arr .h 8))) (.rd (.var .rho)))) (.mul (.mul (.rd (.arr .spRates 9)) (.num 1402688 5)) (.add (.div (.mul (.neg (.rd (.var .workTemp))) (.rd (.arr .h 9))) (.rd (.var .cpAvg))) (.rd (.arr .cp 9))))) (.mul (.mul (.rd (.arr .jac 10)) (.rd (.arr .h 9))) (.rd (.var .rho)))) (.mul (.mul (.rd (.arr .spRates 10)) (.num 1402688 5)) (.add (.div (.mul (.neg (.rd (.var .workTemp))) (.rd (.arr .h 10))) (.rd (.var .cpAvg))) (.rd (.arr .cp 10))))) (.mul (.mul (.rd (.arr .jac 11)) (.rd (.arr .h 10))) (.rd (.var .rho)))) (.mul (.mul (.rd (.arr .spRates 11)) (.num 1503482 5)) (.add (.div (.mul (.neg (.rd (.var .workTemp))) (.rd (.arr .h 11))) (.rd (.var .cpAvg))) (.rd (.arr .cp 11))))) (.mul (.mul (.rd (.arr .jac 12)) (.rd (.arr .h 11))) (.rd (.var .rho)))) (.mul (.mul (.rd (.arr .spRates 12)) (.num 1604276 5)) (.add (.div (.mul (.neg (.rd (.var .workTemp))) (.rd (.arr .h 12))) (.rd (.var .cpAvg))) (.rd (.arr .cp 12))))) (.mul (.mul (.rd (.arr .jac 13)) (.rd (.arr .h 12))) (.rd (.var .rho)))) (.mul (.mul (.rd (.arr .spRates 13)) (.num 2901834 5)) (.add (.div (.mul (.neg (.rd (.var .workTemp))) (.rd (.arr .h 13))) (.rd (.var .cpAvg))) (.rd (.arr .cp 13))))) (.mul (.mul (.rd (.arr .jac 14)) (.rd (.arr .h 13))) (.rd (.var .rho)))) (.mul (.mul (.rd (.arr .spRates 14)) (.num 3002628 5)) (.add (.div (.mul (.neg (.rd (.var .workTemp))) (.rd (.arr .h 14))) (.rd (.var .cpAvg))) (.rd (.arr .cp 14))))) (.mul (.mul (.rd (.arr .jac 15)) (.rd (.arr .h 14))) (.rd (.var .rho)))) (.mul (.mul (.rd (.arr .spRates 15)) (.num 3103422 5)) (.add (.div (.mul (.neg (.rd (.var .workTemp))) (.rd (.arr .h 15))) (.rd (.var .cpAvg))) (.rd (.arr .cp 15))))) (.mul (.mul (.rd (.arr .jac 16)) (.rd (.arr .h 15))) (.rd (.var .rho)))) (.mul (.mul (.rd (.arr .spRates 16)) (.num 280104 4)) (.add (.div (.mul (.neg (.rd (.var .workTemp))) (.rd (.arr .h 16))) (.rd (.var .cpAvg))) (.rd (.arr .cp 16))))) (.mul (.mul (.rd (.arr .jac 17)) (.rd (.arr .h 16))) (.rd (.var .rho)))) (.mul (.mul (.rd (.arr .spRates 17)) (.num 440098 4)) (.add (.div (.mul (.neg (.rd (.var .workTemp))) (.rd (.arr .h 17))) (.rd (.var .cpAvg))) (.rd (.arr .cp 17))))) (.mul (.mul (.rd (.arr .jac 18)) (.rd (.arr .h 17))) (.rd (.var .rho)))) (.mul (.mul (.rd (.arr .spRates 18)) (.num 2603788 5)) (.add (.div (.mul (.neg (.rd (.var .workTemp))) (.rd (.arr .h 18))) (.rd (.var .cpAvg))) (.rd (.arr .cp 18))))) (.mul (.mul (.rd (.arr .jac 19)) (.rd (.arr .h 18))) (.rd (.var .rho)))) (.mul (.mul (.rd (.arr .spRates 19)) (.num 2704582 5)) (.add (.div (.mul (.neg (.rd (.var .workTemp))) (.rd (.arr .h 19))) (.rd (.var .cpAvg))) (.rd (.arr .cp 19))))) (.mul (.mul (.rd (.arr .jac 20)) (.rd (.arr .h 19))) (.rd (.var .rho)))) (.mul (.mul (.rd (.arr .spRates 20)) (.num 2805376 5)) (.add (.div (.mul (.neg (.rd (.var .workTemp))) (.rd (.arr .h 20))) (.rd (.var .cpAvg))) (.rd (.arr .cp 20))))) (.mul (.mul (.rd (.arr .jac 21)) (.rd (.arr .h 20))) (.rd (.var .rho)))) (.mul (.mul (.rd (.arr .spRates 21)) (.num 290617 4)) (.add (.div (.mul (.neg (.rd (.var .workTemp))) (.rd (.arr .h 21))) (.rd (.var .cpAvg))) (.rd (.arr .cp 21))))) (.mul (.mul (.rd (.arr .jac 22)) (.rd (.arr .h 21))) (.rd (.var .rho)))) (.mul (.mul (.rd (.arr .spRates 22)) (.num 3006964 5)) (.add (.div (.mul (.neg (.rd (.var .workTemp))) (.rd (.arr .h 22))) (.rd (.var .cpAvg))) (.rd (.arr .cp 22))))) (.mul (.mul (.rd (.arr .jac 23)) (.rd (.arr .h 22))) (.rd (.var .rho)))) (.mul (.mul (.rd (.arr .spRates 23)) (.num 4304522 5)) (.add (.div (.mul (.neg (.rd (.var .workTemp))) (.rd (.arr .h 23))) (.rd (.var .cpAvg))) (.rd (.arr .cp 23))))) (.mul (.mul (.rd (.arr .jac 24)) (.rd (.arr .h 23))) (.rd (.var .rho)))) (.mul (.mul (.rd (.arr .spRates 24)) (.num 410727 4)) (.add (.div (.mul (.neg (.rd (.var .workTemp))) (.rd (.arr .h 24))) (.rd (.var .cpAvg))) (.rd (.arr .cp 24))))) (.mul (.mul (.rd (.arr .jac 25)) (.rd (.arr .h 24))) (.rd (.var .rho)))) (.mul (.mul (.rd (.arr .spRates 25)) (.num 4208064 5)) (.add (.div (.mul (.neg (.rd (.var .workTemp))) (.rd (.arr .h 25))) (.rd (.var .cpAvg))) (.rd (.arr .cp 25))))) (.mul (.mul (.rd (.arr .jac 26)) (.rd (.arr .h 25))) (.rd (.var .rho)))) (.mul (.mul (.rd (.arr .spRates 26)) (.num 4308858 5)) (.add (.div (.mul (.neg (.rd (.var .workTemp))) (.rd (.arr .h 26))) (.rd (.var .cpAvg))) (.rd (.arr .cp 26))))) (.mul (.mul (.rd (.arr .jac 27)) (.rd (.arr .h 26))) (.rd (.var .rho)))) (.mul (.mul (.rd (.arr .spRates 27)) (.num 5606416 5)) (.add (.div (.mul (.neg (.rd (.var .workTemp))) (.rd (.arr .h 27))) (.rd (.var .cpAvg))) (.rd (.arr .cp 27))))) (.mul (.mul (.rd (.arr .jac 28)) (.rd (.arr .h 27))) (.rd (.var .rho)))) (.mul (.mul (.rd (.arr .spRates 28)) (.num 5509958 5)) (.add (.div (.mul (.neg (.rd (.var .workTemp))) (.rd (.arr .h 28))) (.rd (.var .cpAvg))) (.rd (.arr .cp 28))))) (.mul (.mul (.rd (.arr .jac 29)) (.rd (.arr .h 28))) (.rd (.var .rho)))) (.mul (.mul (.rd (.arr .spRates 29)) (.num 5610752 5)) (.add (.div (.mul (.neg (.rd (.var .workTemp))) (.rd (.arr .h 29))) (.rd (.var .cpAvg))) (.rd (.arr .cp 29))))) (.mul (.mul (.rd (.arr .jac 30)) (.rd (.arr .h 29))) (.rd (.var .rho)))) (.mul (.mul (.rd (.arr .spRates 30)) (.num 5711546 5)) (.add (.div (.mul (.neg (.rd (.var .workTemp))) (.rd (.arr .h 30))) (.rd (.var .cpAvg))) (.rd (.arr .cp 30))))) (.mul (.mul (.rd (.arr .jac 31)) (.rd (.arr .h 30))) (.rd (.var .rho)))) (.mul (.mul (.rd (.arr .spRates 31)) (.num 6912646 5)) (.add (.div (.mul (.neg (.rd (.var .workTemp))) (.rd (.arr .h 31))) (.rd (.var .cpAvg))) (.rd (.arr .cp 31))))) (.mul (.mul (.rd (.arr .jac 32)) (.rd (.arr .h 31))) (.rd (.var .rho)))) (.mul (.mul (.rd (.arr .spRates 32)) (.num 701344 4)) (.add (.div (.mul (.neg (.rd (.var .workTemp))) (.rd (.arr .h 32))) (.rd (.var .cpAvg))) (.rd (.arr .cp 32))))) (.mul (.mul (.rd (.arr .jac 33)) (.rd (.arr .h 32))) (.rd (.var .rho)))) (.mul (.mul (.rd (.arr .spRates 33)) (.num 7114234 5)) (.add (.div (.mul (.neg (.rd (.var .workTemp))) (.rd (.arr .h 33))) (.rd (.var .cpAvg))) (.rd (.arr .cp 33))))) (.mul (.mul (.rd (.arr .jac 34)) (.rd (.arr .h 33))) (.rd (.var .rho)))) (.mul (.mul (.rd (.arr .spRates 34)) (.num 8416128 5)) (.add (.div (.mul (.neg (.rd (.var .workTemp))) (.rd (.arr .h 34))) (.rd (.var .cpAvg))) (.rd (.arr .cp 34))))) (.mul (.mul (.rd (.arr .jac 35)) (.rd (.arr .h 34))) (.rd (.var .rho)))) (.mul (.mul (.rd (.arr .spRates 35)) (.num 8516922 5)) (.add (.div (.mul (.neg (.rd (.var .workTemp))) (.rd (.arr .h 35))) (.rd (.var .cpAvg))) (.rd (.arr .cp 35))))) (.mul (.mul (.rd (.arr .jac 36)) (.rd (.arr .h 35))) (.rd (.var .rho)))) (.mul (.mul (.rd (.arr .spRates 36)) (.num 9818816 5)) (.add (.div (.mul (.neg (.rd (.var .workTemp))) (.rd (.arr .h 36))) (.rd (.var .cpAvg))) (.rd (.arr .cp 36))))) (.mul (.mul (.rd (.arr .jac 37)) (.rd (.arr .h 36))) (.rd (.var .rho)))) (.mul (.mul (.rd (.arr .spRates 37)) (.num 991961 4)) (.add (.div (.mul (.neg (.rd (.var .workTemp))) (.rd (.arr .h 37))) (.rd (.var .cpAvg))) (.rd (.arr .cp 37))))) (.mul (.mul (.rd (.arr .jac 38)) (.rd (.arr .h 37))) (.rd (.var .rho)))) (.mul (.mul (.rd (.arr .spRates 38)) (.num 11221504 5)) (.add (.div (.mul (.neg (.rd (.var .workTemp))) (.rd (.arr .h 38))) (.rd (.var .cpAvg))) (.rd (.arr .cp 38))))) (.mul (.mul (.rd (.arr .jac 39)) (.rd (.arr .h 38))) (.rd (.var .rho)))) (.mul (.mul (.rd (.arr .spRates 39)) (.num 11322298 5)) (.add (.div (.mul (.neg (.rd (.var .workTemp))) (.rd (.arr .h 39))) (.rd (.var .cpAvg))) (.rd (.arr .cp 39))))) (.mul (.mul (.rd (.arr .jac 40)) (.rd (.arr .h 39))) (.rd (.var .rho)))) (.mul (.mul (.rd (.arr .spRates 40)) (.num 12624192 5)) (.add (.div (.mul (.neg (.rd (.var .workTemp))) (.rd (.arr .h 40))) (.rd (.var .cpAvg))) (.rd (.arr .cp 40))))) (.mul (.mul (.rd (.arr .jac 41)) (.rd (.arr .h 40))) (.rd (.var .rho)))) (.mul (.mul (.rd (.arr .spRates 41)) (.num 12724986 5)) (.add (.div (.mul (.neg (.rd (.var .workTemp))) (.rd (.arr .h 41))) (.rd (.var .cpAvg))) (.rd (.arr .cp 41))))) (.mul (.mul (.rd (.arr .jac 42)) (.rd (.arr .h 41))) (.rd (.var .rho)))) (.mul (.mul (.rd (.arr .spRates 42)) (.num 1402688 4)) (.add (.div (.mul (.neg (.rd (.var .workTemp))) (.rd (.arr .h 42))) (.rd (.var .cpAvg))) (.rd (.arr .cp 42))))) (.mul (.mul (.rd (.arr .jac 43)) (.rd (.arr .h 42))) (.rd (.var .rho)))) (.mul (.mul (.rd (.arr .spRates 43)) (.num 14127674 5)) (.add (.div (.mul (.neg (.rd (.var .workTemp))) (.rd (.arr .h 43))) (.rd (.var .cpAvg))) (.rd (.arr .cp 43))))) (.mul (.mul (.rd (.arr .jac 44)) (.rd (.arr .h 43))) (.rd (.var .rho)))) (.mul (.mul (.rd (.arr .spRates 44)) (.num 17033844 5)) (.add (.div (.mul (.neg (.rd (.var .workTemp))) (.rd (.arr .h 44))) (.rd (.var .cpAvg))) (.rd (.arr .cp 44))))) (.mul (.mul (.rd (.arr .jac 45)) (.rd (.arr .h 44))) (.rd (.var .rho)))) (.mul (.mul (.rd (.arr .spRates 45)) (.num 1693305 4)) (.add (.div (.mul (.neg (.rd (.var .workTemp))) (.rd (.arr .h 45))) (.rd (.var .cpAvg))) (.rd (.arr .cp 45))))) (.mul (.mul (.rd (.arr .jac 46)) (.rd (.arr .h 45))) (.rd (.var .rho)))) (.mul (.mul (.rd (.arr .spRates 46)) (.num 1693305 4)) (.add (.div (.mul (.neg (.rd (.var .workTemp))) (.rd (.arr .h 46))) (.rd (.var .cpAvg))) (.rd (.arr .cp 46))))) (.mul (.mul (.rd (.arr .jac 47)) (.rd (.arr .h 46))) (.rd (.var .rho)))) (.mul (.mul (.rd (.arr .spRates 47)) (.num 1693305 4)) (.add (.div (.mul (.neg (.rd (.var .workTemp))) (.rd (.arr .h 47))) (.rd (.var .cpAvg))) (.rd (.arr .cp 47))))) (.mul (.mul (.rd (.arr .jac 48)) (.rd (.arr .h 47))) (.rd (.var .rho)))) (.mul (.mul (.rd (.arr .spRates 48)) (.num 16832256 5)) (.add (.div (.mul (.neg (.rd (.var .workTemp))) (.rd (.arr .h 48))) (.rd (.var .cpAvg))) (.rd (.arr .cp 48))))) (.mul (.mul (.rd (.arr .jac 49)) (.rd (.arr .h 48))) (.rd (.var .rho)))) (.mul (.mul (.rd (.arr .spRates 49)) (.num 2013293 4)) (.add (.div (.mul (.neg (.rd (.var .workTemp))) (.rd (.arr .h 49))) (.rd (.var .cpAvg))) (.rd (.arr .cp 49))))) (.mul (.mul (.rd (.arr .jac 50)) (.rd (.arr .h 49))) (.rd (.var .rho)))) (.mul (.mul (.rd (.arr .spRates 50)) (.num 2013293 4)) (.add (.div (.mul (.neg (.rd (.var .workTemp))) (.rd (.arr .h 50))) (.rd (.var .cpAvg))) (.rd (.arr .cp 50))))) (.mul (.mul (.rd (.arr .jac 51)) (.rd (.arr .h 50))) (.rd (.var .rho)))) (.mul (.mul (.rd (.arr .spRates 51)) (.num 2333281 4)) (.add (.div (.mul (.neg (.rd (.var .workTemp))) (.rd (.arr .h 51))) (.rd (.var .cpAvg))) (.rd (.arr .cp 51))))) (.mul (.mul (.rd (.arr .jac 52)) (.rd (.arr .h 51))) (.rd (.var .rho)))) (.mul (.mul (.rd (.arr .spRates 52)) (.num 21632076 5)) (.add (.div (.mul (.neg (.rd (.var .workTemp))) (.rd (.arr .h 52))) (.rd (.var .cpAvg))) (.rd (.arr .cp 52))))) (.mul (.mul (.rd (.arr .jac 53)) (.rd (.arr .h 52))) (.rd (.var .rho)))) (.mul (.mul (.rd (.arr .spRates 53)) (.num 2801348 5)) (.add (.div (.mul (.neg (.rd (.var .workTemp))) (.rd (.arr .h 53))) (.rd (.var .cpAvg))) (.rd (.arr .cp 53)))))) (.mul (.rd (.var .rho)) (.rd (.var .cpAvg))))]

end DLB.Mech.Yao
