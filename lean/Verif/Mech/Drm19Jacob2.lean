/- Generated by tools/gen_mechanisms.py from utilities/mechanisms/drm19/lib/src/jacobs/jacob_2.c. Do not edit. -/
import Verif.Model.CLang
set_option autoImplicit false

namespace DLB.Mech.Drm19
open DLB

/-- utilities/mechanisms/drm19/lib/src/jacobs/jacob_2.c:5-11 -/
def jacob2Start : List CStmt := [
  .set (.var .logT) (.log (.rd (.var .T))),
  .set (.var .kf) (.num 0 0),
  .set (.var .jTemp) (.num 0 0),
  .set (.var .presModTemp) (.num 0 0),
  .set (.var .Kc) (.num 0 0),
  .set (.var .kr) (.num 0 0),
  .set (.var .rhoInv) (.div (.num 1 0) (.rd (.var .rho)))]

/-- utilities/mechanisms/drm19/lib/src/jacobs/jacob_2.c:12-17 -/
def jacobT80 : List CStmt := [
  .set (.var .jTemp) (.mul (.add (.div (.mul (.neg (.rd (.arr .presMod 13))) (.sub (.rd (.arr .fwd 80)) (.rd (.arr .rev 80)))) (.rd (.var .T))) (.mul (.div (.rd (.arr .presMod 13)) (.rd (.var .T))) (.sub (.mul (.sub (.rd (.arr .fwd 80)) (.rd (.arr .rev 80))) (.add (.neg (.num 1 0)) (.div (.num 85547326026057654 13) (.rd (.var .T))))) (.mul (.rd (.arr .rev 80)) (.add (.neg (.num 1 0)) (.mul (.neg (.rd (.var .T))) (.sub (.add (.rd (.arr .dBdT 1)) (.rd (.arr .dBdT 11))) (.rd (.arr .dBdT 13))))))))) (.rd (.var .rhoInv))),
  .set (.arr .jac 2) (.add (.rd (.arr .jac 2)) (.mul (.rd (.var .jTemp)) (.num 10079400000000001 16))),
  .set (.arr .jac 12) (.add (.rd (.arr .jac 12)) (.mul (.rd (.var .jTemp)) (.num 28010399999999997 15))),
  .set (.arr .jac 14) (.add (.rd (.arr .jac 14)) (.mul (.neg (.rd (.var .jTemp))) (.num 29018339999999998 15)))]

/-- utilities/mechanisms/drm19/lib/src/jacobs/jacob_2.c:18-90 -/
def jacobS80 : List CStmt := [
  .ite (.rd (.var .T)) (.num 1000 0) (.var .Kc) (.sub (.add (.add (.neg (.num 21909936329999997 16)) (.mul (.num 85834762999999903 17) (.rd (.var .logT)))) (.mul (.rd (.var .T)) (.add (.num 13167858203526664 19) (.mul (.rd (.var .T)) (.add (.neg (.num 21271883786659866 22)) (.mul (.rd (.var .T)) (.add (.num 11851179321917348 25) (.mul (.neg (.num 2621056574963866 28)) (.rd (.var .T)))))))))) (.div (.num 72900089399999997 13) (.rd (.var .T)))) (.sub (.add (.add (.neg (.num 4869351354 9)) (.mul (.num 14430112399999997 16) (.rd (.var .logT)))) (.mul (.rd (.var .T)) (.add (.neg (.num 14472139265421485 19)) (.mul (.rd (.var .T)) (.add (.num 24760506252603246 23) (.mul (.rd (.var .T)) (.add (.neg (.num 29925731227929364 27)) (.mul (.num 1649304999909868 30) (.rd (.var .T)))))))))) (.div (.num 7309869349999999 12) (.rd (.var .T)))),
  .set (.var .Kc) (.mul (.num 12186597134166982 15) (.exp (.rd (.var .Kc)))),
  .set (.var .presModTemp) (.sub (.rd (.arr .fwd 80)) (.rd (.arr .rev 80))),
  .set (.var .jTemp) (.mul (.mul (.mul (.neg (.rd (.var .mwAvg))) (.rd (.var .rhoInv))) (.rd (.arr .presMod 13))) (.sub (.mul (.num 2 0) (.rd (.arr .fwd 80))) (.mul (.num 3 0) (.rd (.arr .rev 80))))),
  .set (.var .kf) (.exp (.sub (.sub (.num 32862129732783131 15) (.mul (.num 1 0) (.rd (.var .logT)))) (.div (.num 85547326026057654 13) (.rd (.var .T))))),
  .set (.var .kr) (.div (.rd (.var .kf)) (.rd (.var .Kc))),
  .set (.arr .jac 23) (.add (.rd (.arr .jac 23)) (.mul (.num 5 1) (.add (.mul (.rd (.var .jTemp)) (.num 92803892982949643 17)) (.mul (.num 19280389298294964 16) (.rd (.var .presModTemp)))))),
  .set (.arr .jac 33) (.add (.rd (.arr .jac 33)) (.mul (.num 13894874694922315 15) (.add (.mul (.rd (.var .jTemp)) (.num 92803892982949643 17)) (.mul (.num 19280389298294964 16) (.rd (.var .presModTemp)))))),
  .set (.arr .jac 35) (.add (.rd (.arr .jac 35)) (.mul (.neg (.num 14394874694922315 15)) (.add (.mul (.rd (.var .jTemp)) (.num 92803892982949643 17)) (.mul (.num 19280389298294964 16) (.rd (.var .presModTemp)))))),
  .set (.arr .jac 44) (.add (.rd (.arr .jac 44)) (.add (.add (.mul (.rd (.var .jTemp)) (.num 96401946491474821 17)) (.mul (.num 96401946491474821 17) (.rd (.var .presModTemp)))) (.mul (.rd (.arr .presMod 13)) (.mul (.neg (.rd (.var .kr))) (.rd (.arr .C 11)))))),
  .set (.arr .jac 54) (.add (.rd (.arr .jac 54)) (.mul (.num 2778974938984463 14) (.add (.add (.mul (.rd (.var .jTemp)) (.num 96401946491474821 17)) (.mul (.num 96401946491474821 17) (.rd (.var .presModTemp)))) (.mul (.rd (.arr .presMod 13)) (.mul (.neg (.rd (.var .kr))) (.rd (.arr .C 11))))))),
  .set (.arr .jac 56) (.add (.rd (.arr .jac 56)) (.mul (.neg (.num 2878974938984463 14)) (.add (.add (.mul (.rd (.var .jTemp)) (.num 96401946491474821 17)) (.mul (.num 96401946491474821 17) (.rd (.var .presModTemp)))) (.mul (.rd (.arr .presMod 13)) (.mul (.neg (.rd (.var .kr))) (.rd (.arr .C 11))))))),
  .set (.arr .jac 65) (.add (.rd (.arr .jac 65)) (.mul (.num 62998612447966798 18) (.add (.mul (.rd (.var .jTemp)) (.num 42886781649405936 17)) (.mul (.num 42886781649405936 17) (.rd (.var .presModTemp)))))),
  .set (.arr .jac 75) (.add (.rd (.arr .jac 75)) (.mul (.num 17507156518369438 16) (.add (.mul (.rd (.var .jTemp)) (.num 42886781649405936 17)) (.mul (.num 42886781649405936 17) (.rd (.var .presModTemp)))))),
  .set (.arr .jac 77) (.add (.rd (.arr .jac 77)) (.mul (.neg (.num 18137142642849107 16)) (.add (.mul (.rd (.var .jTemp)) (.num 42886781649405936 17)) (.mul (.num 42886781649405936 17) (.rd (.var .presModTemp)))))),
  .set (.arr .jac 86) (.add (.rd (.arr .jac 86)) (.mul (.num 31499306223983399 18) (.add (.mul (.rd (.var .jTemp)) (.neg (.num 14226436701188128 17))) (.mul (.neg (.num 14226436701188128 17)) (.rd (.var .presModTemp)))))),
  .set (.arr .jac 96) (.add (.rd (.arr .jac 96)) (.mul (.num 87535782591847189 17) (.add (.mul (.rd (.var .jTemp)) (.neg (.num 14226436701188128 17))) (.mul (.neg (.num 14226436701188128 17)) (.rd (.var .presModTemp)))))),
  .set (.arr .jac 98) (.add (.rd (.arr .jac 98)) (.mul (.neg (.num 90685713214245534 17)) (.add (.mul (.rd (.var .jTemp)) (.neg (.num 14226436701188128 17))) (.mul (.neg (.num 14226436701188128 17)) (.rd (.var .presModTemp)))))),
  .set (.arr .jac 107) (.add (.rd (.arr .jac 107)) (.mul (.num 59264999700129481 18) (.add (.mul (.rd (.var .jTemp)) (.num 39288728140880758 17)) (.mul (.num 39288728140880758 17) (.rd (.var .presModTemp)))))),
  .set (.arr .jac 117) (.add (.rd (.arr .jac 117)) (.mul (.num 16469594892558153 16) (.add (.mul (.rd (.var .jTemp)) (.num 39288728140880758 17)) (.mul (.num 39288728140880758 17) (.rd (.var .presModTemp)))))),
  .set (.arr .jac 119) (.add (.rd (.arr .jac 119)) (.mul (.neg (.num 17062244889559448 16)) (.add (.mul (.rd (.var .jTemp)) (.num 39288728140880758 17)) (.mul (.num 39288728140880758 17) (.rd (.var .presModTemp)))))),
  .set (.arr .jac 128) (.add (.rd (.arr .jac 128)) (.mul (.num 55949172036182618 18) (.add (.mul (.rd (.var .jTemp)) (.num 35690674632355568 17)) (.mul (.neg (.num 64309325367644432 17)) (.rd (.var .presModTemp)))))),
  .set (.arr .jac 138) (.add (.rd (.arr .jac 138)) (.mul (.num 15548134694548181 16) (.add (.mul (.rd (.var .jTemp)) (.num 35690674632355568 17)) (.mul (.neg (.num 64309325367644432 17)) (.rd (.var .presModTemp)))))),
  .set (.arr .jac 140) (.add (.rd (.arr .jac 140)) (.mul (.neg (.num 16107626414910008 16)) (.add (.mul (.rd (.var .jTemp)) (.num 35690674632355568 17)) (.mul (.neg (.num 64309325367644432 17)) (.rd (.var .presModTemp)))))),
  .set (.arr .jac 149) (.add (.rd (.arr .jac 149)) (.mul (.num 3053739933116691 17) (.add (.mul (.rd (.var .jTemp)) (.neg (.num 17824490209713328 17))) (.mul (.neg (.num 17824490209713328 17)) (.rd (.var .presModTemp)))))),
  .set (.arr .jac 159) (.add (.rd (.arr .jac 159)) (.mul (.num 84862667443073736 17) (.add (.mul (.rd (.var .jTemp)) (.neg (.num 17824490209713328 17))) (.mul (.neg (.num 17824490209713328 17)) (.rd (.var .presModTemp)))))),
  .set (.arr .jac 161) (.add (.rd (.arr .jac 161)) (.mul (.neg (.num 87916407376190431 17)) (.add (.mul (.rd (.var .jTemp)) (.neg (.num 17824490209713328 17))) (.mul (.neg (.num 17824490209713328 17)) (.rd (.var .presModTemp)))))),
  .set (.arr .jac 170) (.add (.rd (.arr .jac 170)) (.mul (.num 71857747410685777 18) (.add (.mul (.rd (.var .jTemp)) (.num 49928106040377707 17)) (.mul (.num 49928106040377707 17) (.rd (.var .presModTemp)))))),
  .set (.arr .jac 180) (.add (.rd (.arr .jac 180)) (.mul (.num 19969087922617146 16) (.add (.mul (.rd (.var .jTemp)) (.num 49928106040377707 17)) (.mul (.num 49928106040377707 17) (.rd (.var .presModTemp)))))),
  .set (.arr .jac 182) (.add (.rd (.arr .jac 182)) (.mul (.neg (.num 20687665396724007 16)) (.add (.mul (.rd (.var .jTemp)) (.num 49928106040377707 17)) (.mul (.num 49928106040377707 17) (.rd (.var .presModTemp)))))),
  .set (.arr .jac 191) (.add (.rd (.arr .jac 191)) (.mul (.num 71857747410685777 18) (.add (.mul (.rd (.var .jTemp)) (.num 49928106040377707 17)) (.mul (.num 49928106040377707 17) (.rd (.var .presModTemp)))))),
  .set (.arr .jac 201) (.add (.rd (.arr .jac 201)) (.mul (.num 19969087922617146 16) (.add (.mul (.rd (.var .jTemp)) (.num 49928106040377707 17)) (.mul (.num 49928106040377707 17) (.rd (.var .presModTemp)))))),
  .set (.arr .jac 203) (.add (.rd (.arr .jac 203)) (.mul (.neg (.num 20687665396724007 16)) (.add (.mul (.rd (.var .jTemp)) (.num 49928106040377707 17)) (.mul (.num 49928106040377707 17) (.rd (.var .presModTemp)))))),
  .set (.arr .jac 212) (.add (.rd (.arr .jac 212)) (.mul (.num 67040376938333812 18) (.add (.mul (.rd (.var .jTemp)) (.num 46330052531852528 17)) (.mul (.num 46330052531852528 17) (.rd (.var .presModTemp)))))),
  .set (.arr .jac 222) (.add (.rd (.arr .jac 222)) (.mul (.num 18630352741170162 16) (.add (.mul (.rd (.var .jTemp)) (.num 46330052531852528 17)) (.mul (.num 46330052531852528 17) (.rd (.var .presModTemp)))))),
  .set (.arr .jac 224) (.add (.rd (.arr .jac 224)) (.mul (.neg (.num 19300756510553501 16)) (.add (.mul (.rd (.var .jTemp)) (.num 46330052531852528 17)) (.mul (.num 46330052531852528 17) (.rd (.var .presModTemp)))))),
  .set (.arr .jac 233) (.add (.rd (.arr .jac 233)) (.mul (.num 6282834125798803 17) (.add (.mul (.rd (.var .jTemp)) (.num 42731999023327338 17)) (.mul (.num 14273199902332734 16) (.rd (.var .presModTemp)))))),
  .set (.arr .jac 243) (.add (.rd (.arr .jac 243)) (.mul (.num 17459838581391229 16) (.add (.mul (.rd (.var .jTemp)) (.num 42731999023327338 17)) (.mul (.num 14273199902332734 16) (.rd (.var .presModTemp)))))),
  .set (.arr .jac 245) (.add (.rd (.arr .jac 245)) (.mul (.neg (.num 18088121993971109 16)) (.add (.mul (.rd (.var .jTemp)) (.num 42731999023327338 17)) (.mul (.num 14273199902332734 16) (.rd (.var .presModTemp)))))),
  .set (.arr .jac 254) (.add (.rd (.arr .jac 254)) (.mul (.num 35984491474595155 18) (.add (.add (.mul (.rd (.var .jTemp)) (.num 10994706834011048 20)) (.mul (.num 50010994706834011 17) (.rd (.var .presModTemp)))) (.mul (.rd (.arr .presMod 13)) (.mul (.neg (.rd (.var .kr))) (.rd (.arr .C 1))))))),
  .set (.arr .jac 264) (.add (.rd (.arr .jac 264)) (.add (.add (.mul (.rd (.var .jTemp)) (.num 10994706834011048 20)) (.mul (.num 50010994706834011 17) (.rd (.var .presModTemp)))) (.mul (.rd (.arr .presMod 13)) (.mul (.neg (.rd (.var .kr))) (.rd (.arr .C 1)))))),
  .set (.arr .jac 266) (.add (.rd (.arr .jac 266)) (.mul (.neg (.num 10359844914745953 16)) (.add (.add (.mul (.rd (.var .jTemp)) (.num 10994706834011048 20)) (.mul (.num 50010994706834011 17) (.rd (.var .presModTemp)))) (.mul (.rd (.arr .presMod 13)) (.mul (.neg (.rd (.var .kr))) (.rd (.arr .C 1))))))),
  .set (.arr .jac 275) (.add (.rd (.arr .jac 275)) (.mul (.num 22902626233248052 18) (.add (.mul (.rd (.var .jTemp)) (.neg (.num 57102223643760053 17))) (.mul (.num 42897776356239947 17) (.rd (.var .presModTemp)))))),
  .set (.arr .jac 285) (.add (.rd (.arr .jac 285)) (.mul (.num 63645824339124468 17) (.add (.mul (.rd (.var .jTemp)) (.neg (.num 57102223643760053 17))) (.mul (.num 42897776356239947 17) (.rd (.var .presModTemp)))))),
  .set (.arr .jac 287) (.add (.rd (.arr .jac 287)) (.mul (.neg (.num 6593608696244927 16)) (.add (.mul (.rd (.var .jTemp)) (.neg (.num 57102223643760053 17))) (.mul (.num 42897776356239947 17) (.rd (.var .presModTemp)))))),
  .set (.arr .jac 296) (.add (.rd (.arr .jac 296)) (.mul (.num 34734585093427126 18) (.add (.add (.mul (.rd (.var .jTemp)) (.neg (.num 35870588016911675 18))) (.mul (.neg (.num 35870588016911675 18)) (.rd (.var .presModTemp)))) (.mul (.rd (.arr .presMod 13)) (.rd (.var .kf)))))),
  .set (.arr .jac 306) (.add (.rd (.arr .jac 306)) (.mul (.num 96526541490657281 17) (.add (.add (.mul (.rd (.var .jTemp)) (.neg (.num 35870588016911675 18))) (.mul (.neg (.num 35870588016911675 18)) (.rd (.var .presModTemp)))) (.mul (.rd (.arr .presMod 13)) (.rd (.var .kf)))))),
  .set (.arr .jac 308) (.add (.rd (.arr .jac 308)) (.neg (.add (.add (.mul (.rd (.var .jTemp)) (.neg (.num 35870588016911675 18))) (.mul (.neg (.num 35870588016911675 18)) (.rd (.var .presModTemp)))) (.mul (.rd (.arr .presMod 13)) (.rd (.var .kf)))))),
  .set (.arr .jac 317) (.add (.rd (.arr .jac 317)) (.mul (.num 33568593911733322 18) (.add (.mul (.rd (.var .jTemp)) (.neg (.num 71851123102163683 18))) (.mul (.neg (.num 71851123102163683 18)) (.rd (.var .presModTemp)))))),
  .set (.arr .jac 327) (.add (.rd (.arr .jac 327)) (.mul (.num 93286281217653322 17) (.add (.mul (.rd (.var .jTemp)) (.neg (.num 71851123102163683 18))) (.mul (.neg (.num 71851123102163683 18)) (.rd (.var .presModTemp)))))),
  .set (.arr .jac 329) (.add (.rd (.arr .jac 329)) (.mul (.neg (.num 96643140608826661 17)) (.add (.mul (.rd (.var .jTemp)) (.neg (.num 71851123102163683 18))) (.mul (.neg (.num 71851123102163683 18)) (.rd (.var .presModTemp)))))),
  .set (.arr .jac 338) (.add (.rd (.arr .jac 338)) (.mul (.num 32478341649959309 18) (.add (.mul (.rd (.var .jTemp)) (.neg (.num 10783165818741525 17))) (.mul (.neg (.num 10783165818741525 17)) (.rd (.var .presModTemp)))))),
  .set (.arr .jac 348) (.add (.rd (.arr .jac 348)) (.mul (.num 90256497505012201 17) (.add (.mul (.rd (.var .jTemp)) (.neg (.num 10783165818741525 17))) (.mul (.neg (.num 10783165818741525 17)) (.rd (.var .presModTemp)))))),
  .set (.arr .jac 350) (.add (.rd (.arr .jac 350)) (.mul (.neg (.num 93504331670008145 17)) (.add (.mul (.rd (.var .jTemp)) (.neg (.num 10783165818741525 17))) (.mul (.neg (.num 10783165818741525 17)) (.rd (.var .presModTemp)))))),
  .set (.arr .jac 359) (.add (.rd (.arr .jac 359)) (.mul (.num 35928873705342888 18) (.add (.mul (.rd (.var .jTemp)) (.neg (.num 14378791924458678 19))) (.mul (.neg (.num 14378791924458678 19)) (.rd (.var .presModTemp)))))),
  .set (.arr .jac 369) (.add (.rd (.arr .jac 369)) (.mul (.num 99845439613085729 17) (.add (.mul (.rd (.var .jTemp)) (.neg (.num 14378791924458678 19))) (.mul (.neg (.num 14378791924458678 19)) (.rd (.var .presModTemp)))))),
  .set (.arr .jac 371) (.add (.rd (.arr .jac 371)) (.mul (.neg (.num 10343832698362003 16)) (.add (.mul (.rd (.var .jTemp)) (.neg (.num 14378791924458678 19))) (.mul (.neg (.num 14378791924458678 19)) (.rd (.var .presModTemp)))))),
  .set (.arr .jac 380) (.add (.rd (.arr .jac 380)) (.mul (.num 3468276115987709 17) (.add (.mul (.rd (.var .jTemp)) (.neg (.num 37418414277697654 18))) (.mul (.neg (.num 37418414277697654 18)) (.rd (.var .presModTemp)))))),
  .set (.arr .jac 390) (.add (.rd (.arr .jac 390)) (.mul (.num 96382524078082144 17) (.add (.mul (.rd (.var .jTemp)) (.neg (.num 37418414277697654 18))) (.mul (.neg (.num 37418414277697654 18)) (.rd (.var .presModTemp)))))),
  .set (.arr .jac 392) (.add (.rd (.arr .jac 392)) (.mul (.neg (.num 99850800194069855 17)) (.add (.mul (.rd (.var .jTemp)) (.neg (.num 37418414277697654 18))) (.mul (.neg (.num 37418414277697654 18)) (.rd (.var .presModTemp)))))),
  .set (.arr .jac 401) (.add (.rd (.arr .jac 401)) (.mul (.num 33520188469166906 18) (.add (.mul (.rd (.var .jTemp)) (.neg (.num 73398949362949439 18))) (.mul (.num 19266010506370506 16) (.rd (.var .presModTemp)))))),
  .set (.arr .jac 411) (.add (.rd (.arr .jac 411)) (.mul (.num 9315176370585081 16) (.add (.mul (.rd (.var .jTemp)) (.neg (.num 73398949362949439 18))) (.mul (.num 19266010506370506 16) (.rd (.var .presModTemp)))))),
  .set (.arr .jac 413) (.add (.rd (.arr .jac 413)) (.mul (.neg (.num 96503782552767503 17)) (.add (.mul (.rd (.var .jTemp)) (.neg (.num 73398949362949439 18))) (.mul (.num 19266010506370506 16) (.rd (.var .presModTemp)))))),
  .set (.arr .jac 422) (.add (.rd (.arr .jac 422)) (.mul (.num 2523130069089817 17) (.add (.mul (.rd (.var .jTemp)) (.neg (.num 42602775520927771 17))) (.mul (.neg (.num 42602775520927771 17)) (.rd (.var .presModTemp)))))),
  .set (.arr .jac 432) (.add (.rd (.arr .jac 432)) (.mul (.num 70117152297987373 17) (.add (.mul (.rd (.var .jTemp)) (.neg (.num 42602775520927771 17))) (.mul (.neg (.num 42602775520927771 17)) (.rd (.var .presModTemp)))))),
  .set (.arr .jac 434) (.add (.rd (.arr .jac 434)) (.mul (.neg (.num 72640282367077191 17)) (.add (.mul (.rd (.var .jTemp)) (.neg (.num 42602775520927771 17))) (.mul (.neg (.num 42602775520927771 17)) (.rd (.var .presModTemp))))))]

/-- utilities/mechanisms/drm19/lib/src/jacobs/jacob_2.c:91-97 -/
def jacobT81 : List CStmt := [
  .set (.var .jTemp) (.mul (.mul (.div (.num 1 0) (.rd (.var .T))) (.sub (.add (.mul (.sub (.rd (.arr .fwd 81)) (.rd (.arr .rev 81))) (.div (.num 20128782594366504 14) (.rd (.var .T)))) (.mul (.rd (.arr .fwd 81)) (.neg (.num 1 0)))) (.mul (.rd (.arr .rev 81)) (.add (.neg (.num 1 0)) (.mul (.neg (.rd (.var .T))) (.sub (.sub (.add (.rd (.arr .dBdT 11)) (.rd (.arr .dBdT 6))) (.rd (.arr .dBdT 13))) (.rd (.arr .dBdT 3)))))))) (.rd (.var .rhoInv))),
  .set (.arr .jac 12) (.add (.rd (.arr .jac 12)) (.mul (.rd (.var .jTemp)) (.num 28010399999999997 15))),
  .set (.arr .jac 4) (.add (.rd (.arr .jac 4)) (.mul (.neg (.rd (.var .jTemp))) (.num 31998799999999999 15))),
  .set (.arr .jac 14) (.add (.rd (.arr .jac 14)) (.mul (.neg (.rd (.var .jTemp))) (.num 29018339999999998 15))),
  .set (.arr .jac 7) (.add (.rd (.arr .jac 7)) (.mul (.rd (.var .jTemp)) (.num 33006740000000001 15)))]

/-- utilities/mechanisms/drm19/lib/src/jacobs/jacob_2.c:98-189 -/
def jacobS81 : List CStmt := [
  .ite (.rd (.var .T)) (.num 1000 0) (.var .Kc) (.sub (.add (.add (.num 29533429000000044 17) (.mul (.neg (.num 12231072000000065 17)) (.rd (.var .logT)))) (.mul (.rd (.var .T)) (.add (.num 44059264500000009 20) (.mul (.rd (.var .T)) (.add (.neg (.num 24202386333333354 23)) (.mul (.rd (.var .T)) (.add (.neg (.num 31139927166666785 27)) (.mul (.num 40320486050000099 30) (.rd (.var .T)))))))))) (.div (.neg (.num 16824899359999999 12)) (.rd (.var .T)))) (.sub (.add (.add (.neg (.num 43254706299999999 16)) (.mul (.num 67768429000000019 17) (.rd (.var .logT)))) (.mul (.rd (.var .T)) (.add (.neg (.num 10688476199999998 19)) (.mul (.rd (.var .T)) (.add (.num 26832314633333334 23) (.mul (.rd (.var .T)) (.add (.neg (.num 37861079583333334 27)) (.mul (.num 21933512700000002 31) (.rd (.var .T)))))))))) (.div (.neg (.num 16963476116999998 12)) (.rd (.var .T)))),
  .set (.var .Kc) (.exp (.rd (.var .Kc))),
  .set (.var .jTemp) (.mul (.mul (.neg (.rd (.var .mwAvg))) (.rd (.var .rhoInv))) (.sub (.mul (.num 2 0) (.rd (.arr .fwd 81))) (.mul (.num 2 0) (.rd (.arr .rev 81))))),
  .set (.var .kf) (.exp (.sub (.num 22751414084238696 15) (.div (.num 20128782594366504 14) (.rd (.var .T))))),
  .set (.var .kr) (.div (.rd (.var .kf)) (.rd (.var .Kc))),
  .set (.arr .jac 33) (.add (.rd (.arr .jac 33)) (.mul (.num 13894874694922315 15) (.mul (.rd (.var .jTemp)) (.num 92803892982949643 17)))),
  .set (.arr .jac 25) (.add (.rd (.arr .jac 25)) (.mul (.neg (.num 15873365478103855 15)) (.mul (.rd (.var .jTemp)) (.num 92803892982949643 17)))),
  .set (.arr .jac 35) (.add (.rd (.arr .jac 35)) (.mul (.neg (.num 14394874694922315 15)) (.mul (.rd (.var .jTemp)) (.num 92803892982949643 17)))),
  .set (.arr .jac 28) (.add (.rd (.arr .jac 28)) (.mul (.num 16373365478103853 15) (.mul (.rd (.var .jTemp)) (.num 92803892982949643 17)))),
  .set (.arr .jac 54) (.add (.rd (.arr .jac 54)) (.mul (.num 2778974938984463 14) (.mul (.rd (.var .jTemp)) (.num 96401946491474821 17)))),
  .set (.arr .jac 46) (.add (.rd (.arr .jac 46)) (.mul (.neg (.num 3174673095620771 14)) (.mul (.rd (.var .jTemp)) (.num 96401946491474821 17)))),
  .set (.arr .jac 56) (.add (.rd (.arr .jac 56)) (.mul (.neg (.num 2878974938984463 14)) (.mul (.rd (.var .jTemp)) (.num 96401946491474821 17)))),
  .set (.arr .jac 49) (.add (.rd (.arr .jac 49)) (.mul (.num 32746730956207706 15) (.mul (.rd (.var .jTemp)) (.num 96401946491474821 17)))),
  .set (.arr .jac 75) (.add (.rd (.arr .jac 75)) (.mul (.num 17507156518369438 16) (.mul (.rd (.var .jTemp)) (.num 42886781649405936 17)))),
  .set (.arr .jac 67) (.add (.rd (.arr .jac 67)) (.mul (.neg (.num 2 0)) (.mul (.rd (.var .jTemp)) (.num 42886781649405936 17)))),
  .set (.arr .jac 77) (.add (.rd (.arr .jac 77)) (.mul (.neg (.num 18137142642849107 16)) (.mul (.rd (.var .jTemp)) (.num 42886781649405936 17)))),
  .set (.arr .jac 70) (.add (.rd (.arr .jac 70)) (.mul (.num 20629986124479669 16) (.mul (.rd (.var .jTemp)) (.num 42886781649405936 17)))),
  .set (.arr .jac 96) (.add (.rd (.arr .jac 96)) (.mul (.num 87535782591847189 17) (.add (.mul (.rd (.var .jTemp)) (.neg (.num 14226436701188128 17))) (.mul (.rd (.var .kf)) (.rd (.arr .C 13)))))),
  .set (.arr .jac 88) (.add (.rd (.arr .jac 88)) (.neg (.add (.mul (.rd (.var .jTemp)) (.neg (.num 14226436701188128 17))) (.mul (.rd (.var .kf)) (.rd (.arr .C 13)))))),
  .set (.arr .jac 98) (.add (.rd (.arr .jac 98)) (.mul (.neg (.num 90685713214245534 17)) (.add (.mul (.rd (.var .jTemp)) (.neg (.num 14226436701188128 17))) (.mul (.rd (.var .kf)) (.rd (.arr .C 13)))))),
  .set (.arr .jac 91) (.add (.rd (.arr .jac 91)) (.mul (.num 10314993062239834 16) (.add (.mul (.rd (.var .jTemp)) (.neg (.num 14226436701188128 17))) (.mul (.rd (.var .kf)) (.rd (.arr .C 13)))))),
  .set (.arr .jac 117) (.add (.rd (.arr .jac 117)) (.mul (.num 16469594892558153 16) (.mul (.rd (.var .jTemp)) (.num 39288728140880758 17)))),
  .set (.arr .jac 109) (.add (.rd (.arr .jac 109)) (.mul (.neg (.num 18814700005997411 16)) (.mul (.rd (.var .jTemp)) (.num 39288728140880758 17)))),
  .set (.arr .jac 119) (.add (.rd (.arr .jac 119)) (.mul (.neg (.num 17062244889559448 16)) (.mul (.rd (.var .jTemp)) (.num 39288728140880758 17)))),
  .set (.arr .jac 112) (.add (.rd (.arr .jac 112)) (.mul (.num 19407350002998707 16) (.mul (.rd (.var .jTemp)) (.num 39288728140880758 17)))),
  .set (.arr .jac 138) (.add (.rd (.arr .jac 138)) (.mul (.num 15548134694548181 16) (.mul (.rd (.var .jTemp)) (.num 35690674632355568 17)))),
  .set (.arr .jac 130) (.add (.rd (.arr .jac 130)) (.mul (.neg (.num 17762033118552694 16)) (.mul (.rd (.var .jTemp)) (.num 35690674632355568 17)))),
  .set (.arr .jac 140) (.add (.rd (.arr .jac 140)) (.mul (.neg (.num 16107626414910008 16)) (.mul (.rd (.var .jTemp)) (.num 35690674632355568 17)))),
  .set (.arr .jac 133) (.add (.rd (.arr .jac 133)) (.mul (.num 1832152483891452 15) (.mul (.rd (.var .jTemp)) (.num 35690674632355568 17)))),
  .set (.arr .jac 159) (.add (.rd (.arr .jac 159)) (.mul (.num 84862667443073736 17) (.sub (.mul (.rd (.var .jTemp)) (.neg (.num 17824490209713328 17))) (.mul (.rd (.var .kr)) (.rd (.arr .C 11)))))),
  .set (.arr .jac 151) (.add (.rd (.arr .jac 151)) (.mul (.neg (.num 96946260066883305 17)) (.sub (.mul (.rd (.var .jTemp)) (.neg (.num 17824490209713328 17))) (.mul (.rd (.var .kr)) (.rd (.arr .C 11)))))),
  .set (.arr .jac 161) (.add (.rd (.arr .jac 161)) (.mul (.neg (.num 87916407376190431 17)) (.sub (.mul (.rd (.var .jTemp)) (.neg (.num 17824490209713328 17))) (.mul (.rd (.var .kr)) (.rd (.arr .C 11)))))),
  .set (.arr .jac 154) (.add (.rd (.arr .jac 154)) (.sub (.mul (.rd (.var .jTemp)) (.neg (.num 17824490209713328 17))) (.mul (.rd (.var .kr)) (.rd (.arr .C 11))))),
  .set (.arr .jac 180) (.add (.rd (.arr .jac 180)) (.mul (.num 19969087922617146 16) (.mul (.rd (.var .jTemp)) (.num 49928106040377707 17)))),
  .set (.arr .jac 172) (.add (.rd (.arr .jac 172)) (.mul (.neg (.num 22812485741661725 16)) (.mul (.rd (.var .jTemp)) (.num 49928106040377707 17)))),
  .set (.arr .jac 182) (.add (.rd (.arr .jac 182)) (.mul (.neg (.num 20687665396724007 16)) (.mul (.rd (.var .jTemp)) (.num 49928106040377707 17)))),
  .set (.arr .jac 175) (.add (.rd (.arr .jac 175)) (.mul (.num 23531063215768584 16) (.mul (.rd (.var .jTemp)) (.num 49928106040377707 17)))),
  .set (.arr .jac 201) (.add (.rd (.arr .jac 201)) (.mul (.num 19969087922617146 16) (.mul (.rd (.var .jTemp)) (.num 49928106040377707 17)))),
  .set (.arr .jac 193) (.add (.rd (.arr .jac 193)) (.mul (.neg (.num 22812485741661725 16)) (.mul (.rd (.var .jTemp)) (.num 49928106040377707 17)))),
  .set (.arr .jac 203) (.add (.rd (.arr .jac 203)) (.mul (.neg (.num 20687665396724007 16)) (.mul (.rd (.var .jTemp)) (.num 49928106040377707 17)))),
  .set (.arr .jac 196) (.add (.rd (.arr .jac 196)) (.mul (.num 23531063215768584 16) (.mul (.rd (.var .jTemp)) (.num 49928106040377707 17)))),
  .set (.arr .jac 222) (.add (.rd (.arr .jac 222)) (.mul (.num 18630352741170162 16) (.mul (.rd (.var .jTemp)) (.num 46330052531852528 17)))),
  .set (.arr .jac 214) (.add (.rd (.arr .jac 214)) (.mul (.neg (.num 21283128098640356 16)) (.mul (.rd (.var .jTemp)) (.num 46330052531852528 17)))),
  .set (.arr .jac 224) (.add (.rd (.arr .jac 224)) (.mul (.neg (.num 19300756510553501 16)) (.mul (.rd (.var .jTemp)) (.num 46330052531852528 17)))),
  .set (.arr .jac 217) (.add (.rd (.arr .jac 217)) (.mul (.num 21953531868023695 16) (.mul (.rd (.var .jTemp)) (.num 46330052531852528 17)))),
  .set (.arr .jac 243) (.add (.rd (.arr .jac 243)) (.mul (.num 17459838581391229 16) (.mul (.rd (.var .jTemp)) (.num 42731999023327338 17)))),
  .set (.arr .jac 235) (.add (.rd (.arr .jac 235)) (.mul (.neg (.num 19945944463421503 16)) (.mul (.rd (.var .jTemp)) (.num 42731999023327338 17)))),
  .set (.arr .jac 245) (.add (.rd (.arr .jac 245)) (.mul (.neg (.num 18088121993971109 16)) (.mul (.rd (.var .jTemp)) (.num 42731999023327338 17)))),
  .set (.arr .jac 238) (.add (.rd (.arr .jac 238)) (.mul (.num 20574227876001383 16) (.mul (.rd (.var .jTemp)) (.num 42731999023327338 17)))),
  .set (.arr .jac 264) (.add (.rd (.arr .jac 264)) (.sub (.mul (.rd (.var .jTemp)) (.num 10994706834011048 20)) (.mul (.rd (.var .kr)) (.rd (.arr .C 6))))),
  .set (.arr .jac 256) (.add (.rd (.arr .jac 256)) (.mul (.neg (.num 11423899694399224 16)) (.sub (.mul (.rd (.var .jTemp)) (.num 10994706834011048 20)) (.mul (.rd (.var .kr)) (.rd (.arr .C 6)))))),
  .set (.arr .jac 266) (.add (.rd (.arr .jac 266)) (.mul (.neg (.num 10359844914745953 16)) (.sub (.mul (.rd (.var .jTemp)) (.num 10994706834011048 20)) (.mul (.rd (.var .kr)) (.rd (.arr .C 6)))))),
  .set (.arr .jac 259) (.add (.rd (.arr .jac 259)) (.mul (.num 11783744609145177 16) (.sub (.mul (.rd (.var .jTemp)) (.num 10994706834011048 20)) (.mul (.rd (.var .kr)) (.rd (.arr .C 6)))))),
  .set (.arr .jac 285) (.add (.rd (.arr .jac 285)) (.mul (.num 63645824339124468 17) (.mul (.rd (.var .jTemp)) (.neg (.num 57102223643760053 17))))),
  .set (.arr .jac 277) (.add (.rd (.arr .jac 277)) (.mul (.neg (.num 72708351321751064 17)) (.mul (.rd (.var .jTemp)) (.neg (.num 57102223643760053 17))))),
  .set (.arr .jac 287) (.add (.rd (.arr .jac 287)) (.mul (.neg (.num 6593608696244927 16)) (.mul (.rd (.var .jTemp)) (.neg (.num 57102223643760053 17))))),
  .set (.arr .jac 280) (.add (.rd (.arr .jac 280)) (.mul (.num 74998613945075876 17) (.mul (.rd (.var .jTemp)) (.neg (.num 57102223643760053 17))))),
  .set (.arr .jac 306) (.add (.rd (.arr .jac 306)) (.mul (.num 96526541490657281 17) (.add (.mul (.rd (.var .jTemp)) (.neg (.num 35870588016911675 18))) (.mul (.rd (.var .kf)) (.rd (.arr .C 3)))))),
  .set (.arr .jac 298) (.add (.rd (.arr .jac 298)) (.mul (.neg (.num 11027095278365338 16)) (.add (.mul (.rd (.var .jTemp)) (.neg (.num 35870588016911675 18))) (.mul (.rd (.var .kf)) (.rd (.arr .C 3)))))),
  .set (.arr .jac 308) (.add (.rd (.arr .jac 308)) (.neg (.add (.mul (.rd (.var .jTemp)) (.neg (.num 35870588016911675 18))) (.mul (.rd (.var .kf)) (.rd (.arr .C 3)))))),
  .set (.arr .jac 301) (.add (.rd (.arr .jac 301)) (.mul (.num 11374441129299608 16) (.add (.mul (.rd (.var .jTemp)) (.neg (.num 35870588016911675 18))) (.mul (.rd (.var .kf)) (.rd (.arr .C 3)))))),
  .set (.arr .jac 327) (.add (.rd (.arr .jac 327)) (.mul (.num 93286281217653322 17) (.mul (.rd (.var .jTemp)) (.neg (.num 71851123102163683 18))))),
  .set (.arr .jac 319) (.add (.rd (.arr .jac 319)) (.mul (.neg (.num 10656931194939898 16)) (.mul (.rd (.var .jTemp)) (.neg (.num 71851123102163683 18))))),
  .set (.arr .jac 329) (.add (.rd (.arr .jac 329)) (.mul (.neg (.num 96643140608826661 17)) (.mul (.rd (.var .jTemp)) (.neg (.num 71851123102163683 18))))),
  .set (.arr .jac 322) (.add (.rd (.arr .jac 322)) (.mul (.num 10992617134057232 16) (.mul (.rd (.var .jTemp)) (.neg (.num 71851123102163683 18))))),
  .set (.arr .jac 348) (.add (.rd (.arr .jac 348)) (.mul (.num 90256497505012201 17) (.mul (.rd (.var .jTemp)) (.neg (.num 10783165818741525 17))))),
  .set (.arr .jac 340) (.add (.rd (.arr .jac 340)) (.mul (.neg (.num 10310811742650532 16)) (.mul (.rd (.var .jTemp)) (.neg (.num 10783165818741525 17))))),
  .set (.arr .jac 350) (.add (.rd (.arr .jac 350)) (.mul (.neg (.num 93504331670008145 17)) (.mul (.rd (.var .jTemp)) (.neg (.num 10783165818741525 17))))),
  .set (.arr .jac 343) (.add (.rd (.arr .jac 343)) (.mul (.num 10635595159150126 16) (.mul (.rd (.var .jTemp)) (.neg (.num 10783165818741525 17))))),
  .set (.arr .jac 369) (.add (.rd (.arr .jac 369)) (.mul (.num 99845439613085729 17) (.mul (.rd (.var .jTemp)) (.neg (.num 14378791924458678 19))))),
  .set (.arr .jac 361) (.add (.rd (.arr .jac 361)) (.mul (.neg (.num 11406242870830863 16)) (.mul (.rd (.var .jTemp)) (.neg (.num 14378791924458678 19))))),
  .set (.arr .jac 371) (.add (.rd (.arr .jac 371)) (.mul (.neg (.num 10343832698362003 16)) (.mul (.rd (.var .jTemp)) (.neg (.num 14378791924458678 19))))),
  .set (.arr .jac 364) (.add (.rd (.arr .jac 364)) (.mul (.num 11765531607884292 16) (.mul (.rd (.var .jTemp)) (.neg (.num 14378791924458678 19))))),
  .set (.arr .jac 390) (.add (.rd (.arr .jac 390)) (.mul (.num 96382524078082144 17) (.mul (.rd (.var .jTemp)) (.neg (.num 37418414277697654 18))))),
  .set (.arr .jac 382) (.add (.rd (.arr .jac 382)) (.mul (.neg (.num 11010642873610286 16)) (.mul (.rd (.var .jTemp)) (.neg (.num 37418414277697654 18))))),
  .set (.arr .jac 392) (.add (.rd (.arr .jac 392)) (.mul (.neg (.num 99850800194069855 17)) (.mul (.rd (.var .jTemp)) (.neg (.num 37418414277697654 18))))),
  .set (.arr .jac 385) (.add (.rd (.arr .jac 385)) (.mul (.num 11357470485209056 16) (.mul (.rd (.var .jTemp)) (.neg (.num 37418414277697654 18))))),
  .set (.arr .jac 411) (.add (.rd (.arr .jac 411)) (.mul (.num 9315176370585081 16) (.mul (.rd (.var .jTemp)) (.neg (.num 73398949362949439 18))))),
  .set (.arr .jac 403) (.add (.rd (.arr .jac 403)) (.mul (.neg (.num 10641564049320178 16)) (.mul (.rd (.var .jTemp)) (.neg (.num 73398949362949439 18))))),
  .set (.arr .jac 413) (.add (.rd (.arr .jac 413)) (.mul (.neg (.num 96503782552767503 17)) (.mul (.rd (.var .jTemp)) (.neg (.num 73398949362949439 18))))),
  .set (.arr .jac 406) (.add (.rd (.arr .jac 406)) (.mul (.num 10976765934011847 16) (.mul (.rd (.var .jTemp)) (.neg (.num 73398949362949439 18))))),
  .set (.arr .jac 432) (.add (.rd (.arr .jac 432)) (.mul (.num 70117152297987373 17) (.mul (.rd (.var .jTemp)) (.neg (.num 42602775520927771 17))))),
  .set (.arr .jac 424) (.add (.rd (.arr .jac 424)) (.mul (.neg (.num 80101131470912179 17)) (.mul (.rd (.var .jTemp)) (.neg (.num 42602775520927771 17))))),
  .set (.arr .jac 434) (.add (.rd (.arr .jac 434)) (.mul (.neg (.num 72640282367077191 17)) (.mul (.rd (.var .jTemp)) (.neg (.num 42602775520927771 17))))),
  .set (.arr .jac 427) (.add (.rd (.arr .jac 427)) (.mul (.num 82624261540002009 17) (.mul (.rd (.var .jTemp)) (.neg (.num 42602775520927771 17)))))]

/-- utilities/mechanisms/drm19/lib/src/jacobs/jacob_2.c:190-196 -/
def jacobT82 : List CStmt := [
  .set (.var .jTemp) (.mul (.mul (.div (.num 1 0) (.rd (.var .T))) (.sub (.add (.mul (.sub (.rd (.arr .fwd 82)) (.rd (.arr .rev 82))) (.add (.num 75999999999999996 16) (.div (.neg (.num 17763650639528441 13)) (.rd (.var .T))))) (.mul (.rd (.arr .fwd 82)) (.neg (.num 1 0)))) (.mul (.rd (.arr .rev 82)) (.add (.neg (.num 1 0)) (.mul (.neg (.rd (.var .T))) (.sub (.sub (.add (.rd (.arr .dBdT 14)) (.rd (.arr .dBdT 6))) (.rd (.arr .dBdT 15))) (.rd (.arr .dBdT 3)))))))) (.rd (.var .rhoInv))),
  .set (.arr .jac 4) (.add (.rd (.arr .jac 4)) (.mul (.neg (.rd (.var .jTemp))) (.num 31998799999999999 15))),
  .set (.arr .jac 7) (.add (.rd (.arr .jac 7)) (.mul (.rd (.var .jTemp)) (.num 33006740000000001 15))),
  .set (.arr .jac 15) (.add (.rd (.arr .jac 15)) (.mul (.rd (.var .jTemp)) (.num 3002628 5))),
  .set (.arr .jac 16) (.add (.rd (.arr .jac 16)) (.mul (.neg (.rd (.var .jTemp))) (.num 31034219999999998 15)))]

/-- utilities/mechanisms/drm19/lib/src/jacobs/jacob_2.c:197-288 -/
def jacobS82 : List CStmt := [
  .ite (.rd (.var .T)) (.num 1000 0) (.var .Kc) (.sub (.add (.add (.neg (.num 15697238179999999 15)) (.mul (.num 32068607999999994 16) (.rd (.var .logT)))) (.mul (.rd (.var .T)) (.add (.neg (.num 94386575199999993 19)) (.mul (.rd (.var .T)) (.add (.num 72157526483333335 22) (.mul (.rd (.var .T)) (.add (.neg (.num 37621653674999999 25)) (.mul (.num 85750890350000021 29) (.rd (.var .T)))))))))) (.div (.neg (.num 13928806200000001 12)) (.rd (.var .T)))) (.sub (.add (.add (.num 10334054720000001 15) (.mul (.neg (.num 12754358599999993 16)) (.rd (.var .logT)))) (.mul (.rd (.var .T)) (.add (.num 1042618205 12) (.mul (.rd (.var .T)) (.add (.neg (.num 27364926849999996 23)) (.mul (.rd (.var .T)) (.add (.num 43062069583333329 27) (.mul (.neg (.num 28189239050000009 31)) (.rd (.var .T)))))))))) (.div (.neg (.num 12923350387 6)) (.rd (.var .T)))),
  .set (.var .Kc) (.exp (.rd (.var .Kc))),
  .set (.var .jTemp) (.mul (.mul (.neg (.rd (.var .mwAvg))) (.rd (.var .rhoInv))) (.sub (.mul (.num 2 0) (.rd (.arr .fwd 82))) (.mul (.num 2 0) (.rd (.arr .rev 82))))),
  .set (.var .kf) (.exp (.sub (.add (.neg (.num 35387408478311023 15)) (.mul (.num 76 1) (.rd (.var .logT)))) (.div (.neg (.num 17763650639528441 13)) (.rd (.var .T))))),
  .set (.var .kr) (.div (.rd (.var .kf)) (.rd (.var .Kc))),
  .set (.arr .jac 25) (.add (.rd (.arr .jac 25)) (.mul (.neg (.num 15873365478103855 15)) (.mul (.rd (.var .jTemp)) (.num 92803892982949643 17)))),
  .set (.arr .jac 28) (.add (.rd (.arr .jac 28)) (.mul (.num 16373365478103853 15) (.mul (.rd (.var .jTemp)) (.num 92803892982949643 17)))),
  .set (.arr .jac 36) (.add (.rd (.arr .jac 36)) (.mul (.num 14894874694922317 15) (.mul (.rd (.var .jTemp)) (.num 92803892982949643 17)))),
  .set (.arr .jac 37) (.add (.rd (.arr .jac 37)) (.mul (.neg (.num 15394874694922315 15)) (.mul (.rd (.var .jTemp)) (.num 92803892982949643 17)))),
  .set (.arr .jac 46) (.add (.rd (.arr .jac 46)) (.mul (.neg (.num 3174673095620771 14)) (.mul (.rd (.var .jTemp)) (.num 96401946491474821 17)))),
  .set (.arr .jac 49) (.add (.rd (.arr .jac 49)) (.mul (.num 32746730956207706 15) (.mul (.rd (.var .jTemp)) (.num 96401946491474821 17)))),
  .set (.arr .jac 57) (.add (.rd (.arr .jac 57)) (.mul (.num 29789749389844633 15) (.mul (.rd (.var .jTemp)) (.num 96401946491474821 17)))),
  .set (.arr .jac 58) (.add (.rd (.arr .jac 58)) (.mul (.neg (.num 3078974938984463 14)) (.mul (.rd (.var .jTemp)) (.num 96401946491474821 17)))),
  .set (.arr .jac 67) (.add (.rd (.arr .jac 67)) (.mul (.neg (.num 2 0)) (.mul (.rd (.var .jTemp)) (.num 42886781649405936 17)))),
  .set (.arr .jac 70) (.add (.rd (.arr .jac 70)) (.mul (.num 20629986124479669 16) (.mul (.rd (.var .jTemp)) (.num 42886781649405936 17)))),
  .set (.arr .jac 78) (.add (.rd (.arr .jac 78)) (.mul (.num 18767128767328776 16) (.mul (.rd (.var .jTemp)) (.num 42886781649405936 17)))),
  .set (.arr .jac 79) (.add (.rd (.arr .jac 79)) (.mul (.neg (.num 19397114891808442 16)) (.mul (.rd (.var .jTemp)) (.num 42886781649405936 17)))),
  .set (.arr .jac 88) (.add (.rd (.arr .jac 88)) (.neg (.add (.mul (.rd (.var .jTemp)) (.neg (.num 14226436701188128 17))) (.mul (.rd (.var .kf)) (.rd (.arr .C 15)))))),
  .set (.arr .jac 91) (.add (.rd (.arr .jac 91)) (.mul (.num 10314993062239834 16) (.add (.mul (.rd (.var .jTemp)) (.neg (.num 14226436701188128 17))) (.mul (.rd (.var .kf)) (.rd (.arr .C 15)))))),
  .set (.arr .jac 99) (.add (.rd (.arr .jac 99)) (.mul (.num 93835643836643878 17) (.add (.mul (.rd (.var .jTemp)) (.neg (.num 14226436701188128 17))) (.mul (.rd (.var .kf)) (.rd (.arr .C 15)))))),
  .set (.arr .jac 100) (.add (.rd (.arr .jac 100)) (.mul (.neg (.num 96985574459042212 17)) (.add (.mul (.rd (.var .jTemp)) (.neg (.num 14226436701188128 17))) (.mul (.rd (.var .kf)) (.rd (.arr .C 15)))))),
  .set (.arr .jac 109) (.add (.rd (.arr .jac 109)) (.mul (.neg (.num 18814700005997411 16)) (.mul (.rd (.var .jTemp)) (.num 39288728140880758 17)))),
  .set (.arr .jac 112) (.add (.rd (.arr .jac 112)) (.mul (.num 19407350002998707 16) (.mul (.rd (.var .jTemp)) (.num 39288728140880758 17)))),
  .set (.arr .jac 120) (.add (.rd (.arr .jac 120)) (.mul (.num 17654894886560744 16) (.mul (.rd (.var .jTemp)) (.num 39288728140880758 17)))),
  .set (.arr .jac 121) (.add (.rd (.arr .jac 121)) (.mul (.neg (.num 18247544883562039 16)) (.mul (.rd (.var .jTemp)) (.num 39288728140880758 17)))),
  .set (.arr .jac 130) (.add (.rd (.arr .jac 130)) (.mul (.neg (.num 17762033118552694 16)) (.mul (.rd (.var .jTemp)) (.num 35690674632355568 17)))),
  .set (.arr .jac 133) (.add (.rd (.arr .jac 133)) (.mul (.num 1832152483891452 15) (.mul (.rd (.var .jTemp)) (.num 35690674632355568 17)))),
  .set (.arr .jac 141) (.add (.rd (.arr .jac 141)) (.mul (.num 16667118135271835 16) (.mul (.rd (.var .jTemp)) (.num 35690674632355568 17)))),
  .set (.arr .jac 142) (.add (.rd (.arr .jac 142)) (.mul (.neg (.num 17226609855633661 16)) (.mul (.rd (.var .jTemp)) (.num 35690674632355568 17)))),
  .set (.arr .jac 151) (.add (.rd (.arr .jac 151)) (.mul (.neg (.num 96946260066883305 17)) (.sub (.mul (.rd (.var .jTemp)) (.neg (.num 17824490209713328 17))) (.mul (.rd (.var .kr)) (.rd (.arr .C 14)))))),
  .set (.arr .jac 154) (.add (.rd (.arr .jac 154)) (.sub (.mul (.rd (.var .jTemp)) (.neg (.num 17824490209713328 17))) (.mul (.rd (.var .kr)) (.rd (.arr .C 14))))),
  .set (.arr .jac 162) (.add (.rd (.arr .jac 162)) (.mul (.num 90970147309307126 17) (.sub (.mul (.rd (.var .jTemp)) (.neg (.num 17824490209713328 17))) (.mul (.rd (.var .kr)) (.rd (.arr .C 14)))))),
  .set (.arr .jac 163) (.add (.rd (.arr .jac 163)) (.mul (.neg (.num 94023887242423809 17)) (.sub (.mul (.rd (.var .jTemp)) (.neg (.num 17824490209713328 17))) (.mul (.rd (.var .kr)) (.rd (.arr .C 14)))))),
  .set (.arr .jac 172) (.add (.rd (.arr .jac 172)) (.mul (.neg (.num 22812485741661725 16)) (.mul (.rd (.var .jTemp)) (.num 49928106040377707 17)))),
  .set (.arr .jac 175) (.add (.rd (.arr .jac 175)) (.mul (.num 23531063215768584 16) (.mul (.rd (.var .jTemp)) (.num 49928106040377707 17)))),
  .set (.arr .jac 183) (.add (.rd (.arr .jac 183)) (.mul (.num 21406242870830865 16) (.mul (.rd (.var .jTemp)) (.num 49928106040377707 17)))),
  .set (.arr .jac 184) (.add (.rd (.arr .jac 184)) (.mul (.neg (.num 22124820344937719 16)) (.mul (.rd (.var .jTemp)) (.num 49928106040377707 17)))),
  .set (.arr .jac 193) (.add (.rd (.arr .jac 193)) (.mul (.neg (.num 22812485741661725 16)) (.mul (.rd (.var .jTemp)) (.num 49928106040377707 17)))),
  .set (.arr .jac 196) (.add (.rd (.arr .jac 196)) (.mul (.num 23531063215768584 16) (.mul (.rd (.var .jTemp)) (.num 49928106040377707 17)))),
  .set (.arr .jac 204) (.add (.rd (.arr .jac 204)) (.mul (.num 21406242870830865 16) (.mul (.rd (.var .jTemp)) (.num 49928106040377707 17)))),
  .set (.arr .jac 205) (.add (.rd (.arr .jac 205)) (.mul (.neg (.num 22124820344937719 16)) (.mul (.rd (.var .jTemp)) (.num 49928106040377707 17)))),
  .set (.arr .jac 214) (.add (.rd (.arr .jac 214)) (.mul (.neg (.num 21283128098640356 16)) (.mul (.rd (.var .jTemp)) (.num 46330052531852528 17)))),
  .set (.arr .jac 217) (.add (.rd (.arr .jac 217)) (.mul (.num 21953531868023695 16) (.mul (.rd (.var .jTemp)) (.num 46330052531852528 17)))),
  .set (.arr .jac 225) (.add (.rd (.arr .jac 225)) (.mul (.num 19971160279936839 16) (.mul (.rd (.var .jTemp)) (.num 46330052531852528 17)))),
  .set (.arr .jac 226) (.add (.rd (.arr .jac 226)) (.mul (.neg (.num 20641564049320178 16)) (.mul (.rd (.var .jTemp)) (.num 46330052531852528 17)))),
  .set (.arr .jac 235) (.add (.rd (.arr .jac 235)) (.mul (.neg (.num 19945944463421503 16)) (.mul (.rd (.var .jTemp)) (.num 42731999023327338 17)))),
  .set (.arr .jac 238) (.add (.rd (.arr .jac 238)) (.mul (.num 20574227876001383 16) (.mul (.rd (.var .jTemp)) (.num 42731999023327338 17)))),
  .set (.arr .jac 246) (.add (.rd (.arr .jac 246)) (.mul (.num 18716405406550991 16) (.mul (.rd (.var .jTemp)) (.num 42731999023327338 17)))),
  .set (.arr .jac 247) (.add (.rd (.arr .jac 247)) (.mul (.neg (.num 19344688819130871 16)) (.mul (.rd (.var .jTemp)) (.num 42731999023327338 17)))),
  .set (.arr .jac 256) (.add (.rd (.arr .jac 256)) (.mul (.neg (.num 11423899694399224 16)) (.mul (.rd (.var .jTemp)) (.num 10994706834011048 20)))),
  .set (.arr .jac 259) (.add (.rd (.arr .jac 259)) (.mul (.num 11783744609145177 16) (.mul (.rd (.var .jTemp)) (.num 10994706834011048 20)))),
  .set (.arr .jac 267) (.add (.rd (.arr .jac 267)) (.mul (.num 10719689829491903 16) (.mul (.rd (.var .jTemp)) (.num 10994706834011048 20)))),
  .set (.arr .jac 268) (.add (.rd (.arr .jac 268)) (.mul (.neg (.num 11079534744237856 16)) (.mul (.rd (.var .jTemp)) (.num 10994706834011048 20)))),
  .set (.arr .jac 277) (.add (.rd (.arr .jac 277)) (.mul (.neg (.num 72708351321751064 17)) (.mul (.rd (.var .jTemp)) (.neg (.num 57102223643760053 17))))),
  .set (.arr .jac 280) (.add (.rd (.arr .jac 280)) (.mul (.num 74998613945075876 17) (.mul (.rd (.var .jTemp)) (.neg (.num 57102223643760053 17))))),
  .set (.arr .jac 288) (.add (.rd (.arr .jac 288)) (.mul (.num 68226349585774082 17) (.mul (.rd (.var .jTemp)) (.neg (.num 57102223643760053 17))))),
  .set (.arr .jac 289) (.add (.rd (.arr .jac 289)) (.mul (.neg (.num 70516612209098883 17)) (.mul (.rd (.var .jTemp)) (.neg (.num 57102223643760053 17))))),
  .set (.arr .jac 298) (.add (.rd (.arr .jac 298)) (.mul (.neg (.num 11027095278365338 16)) (.mul (.rd (.var .jTemp)) (.neg (.num 35870588016911675 18))))),
  .set (.arr .jac 301) (.add (.rd (.arr .jac 301)) (.mul (.num 11374441129299608 16) (.mul (.rd (.var .jTemp)) (.neg (.num 35870588016911675 18))))),
  .set (.arr .jac 309) (.add (.rd (.arr .jac 309)) (.mul (.num 10347345850934271 16) (.mul (.rd (.var .jTemp)) (.neg (.num 35870588016911675 18))))),
  .set (.arr .jac 310) (.add (.rd (.arr .jac 310)) (.mul (.neg (.num 10694691701868542 16)) (.mul (.rd (.var .jTemp)) (.neg (.num 35870588016911675 18))))),
  .set (.arr .jac 319) (.add (.rd (.arr .jac 319)) (.mul (.neg (.num 10656931194939898 16)) (.sub (.mul (.rd (.var .jTemp)) (.neg (.num 71851123102163683 18))) (.mul (.rd (.var .kr)) (.rd (.arr .C 6)))))),
  .set (.arr .jac 322) (.add (.rd (.arr .jac 322)) (.mul (.num 10992617134057232 16) (.sub (.mul (.rd (.var .jTemp)) (.neg (.num 71851123102163683 18))) (.mul (.rd (.var .kr)) (.rd (.arr .C 6)))))),
  .set (.arr .jac 330) (.add (.rd (.arr .jac 330)) (.sub (.mul (.rd (.var .jTemp)) (.neg (.num 71851123102163683 18))) (.mul (.rd (.var .kr)) (.rd (.arr .C 6))))),
  .set (.arr .jac 331) (.add (.rd (.arr .jac 331)) (.mul (.neg (.num 10335685939117332 16)) (.sub (.mul (.rd (.var .jTemp)) (.neg (.num 71851123102163683 18))) (.mul (.rd (.var .kr)) (.rd (.arr .C 6)))))),
  .set (.arr .jac 340) (.add (.rd (.arr .jac 340)) (.mul (.neg (.num 10310811742650532 16)) (.add (.mul (.rd (.var .jTemp)) (.neg (.num 10783165818741525 17))) (.mul (.rd (.var .kf)) (.rd (.arr .C 3)))))),
  .set (.arr .jac 343) (.add (.rd (.arr .jac 343)) (.mul (.num 10635595159150126 16) (.add (.mul (.rd (.var .jTemp)) (.neg (.num 10783165818741525 17))) (.mul (.rd (.var .kf)) (.rd (.arr .C 3)))))),
  .set (.arr .jac 351) (.add (.rd (.arr .jac 351)) (.mul (.num 96752165835004078 17) (.add (.mul (.rd (.var .jTemp)) (.neg (.num 10783165818741525 17))) (.mul (.rd (.var .kf)) (.rd (.arr .C 3)))))),
  .set (.arr .jac 352) (.add (.rd (.arr .jac 352)) (.neg (.add (.mul (.rd (.var .jTemp)) (.neg (.num 10783165818741525 17))) (.mul (.rd (.var .kf)) (.rd (.arr .C 3)))))),
  .set (.arr .jac 361) (.add (.rd (.arr .jac 361)) (.mul (.neg (.num 11406242870830863 16)) (.mul (.rd (.var .jTemp)) (.neg (.num 14378791924458678 19))))),
  .set (.arr .jac 364) (.add (.rd (.arr .jac 364)) (.mul (.num 11765531607884292 16) (.mul (.rd (.var .jTemp)) (.neg (.num 14378791924458678 19))))),
  .set (.arr .jac 372) (.add (.rd (.arr .jac 372)) (.mul (.num 10703121435415432 16) (.mul (.rd (.var .jTemp)) (.neg (.num 14378791924458678 19))))),
  .set (.arr .jac 373) (.add (.rd (.arr .jac 373)) (.mul (.neg (.num 11062410172468859 16)) (.mul (.rd (.var .jTemp)) (.neg (.num 14378791924458678 19))))),
  .set (.arr .jac 382) (.add (.rd (.arr .jac 382)) (.mul (.neg (.num 11010642873610286 16)) (.mul (.rd (.var .jTemp)) (.neg (.num 37418414277697654 18))))),
  .set (.arr .jac 385) (.add (.rd (.arr .jac 385)) (.mul (.num 11357470485209056 16) (.mul (.rd (.var .jTemp)) (.neg (.num 37418414277697654 18))))),
  .set (.arr .jac 393) (.add (.rd (.arr .jac 393)) (.mul (.num 10331907631005757 16) (.mul (.rd (.var .jTemp)) (.neg (.num 37418414277697654 18))))),
  .set (.arr .jac 394) (.add (.rd (.arr .jac 394)) (.mul (.neg (.num 10678735242604527 16)) (.mul (.rd (.var .jTemp)) (.neg (.num 37418414277697654 18))))),
  .set (.arr .jac 403) (.add (.rd (.arr .jac 403)) (.mul (.neg (.num 10641564049320178 16)) (.mul (.rd (.var .jTemp)) (.neg (.num 73398949362949439 18))))),
  .set (.arr .jac 406) (.add (.rd (.arr .jac 406)) (.mul (.num 10976765934011847 16) (.mul (.rd (.var .jTemp)) (.neg (.num 73398949362949439 18))))),
  .set (.arr .jac 414) (.add (.rd (.arr .jac 414)) (.mul (.num 99855801399684196 17) (.mul (.rd (.var .jTemp)) (.neg (.num 73398949362949439 18))))),
  .set (.arr .jac 415) (.add (.rd (.arr .jac 415)) (.mul (.neg (.num 10320782024660089 16)) (.mul (.rd (.var .jTemp)) (.neg (.num 73398949362949439 18))))),
  .set (.arr .jac 424) (.add (.rd (.arr .jac 424)) (.mul (.neg (.num 80101131470912179 17)) (.mul (.rd (.var .jTemp)) (.neg (.num 42602775520927771 17))))),
  .set (.arr .jac 427) (.add (.rd (.arr .jac 427)) (.mul (.num 82624261540002009 17) (.mul (.rd (.var .jTemp)) (.neg (.num 42602775520927771 17))))),
  .set (.arr .jac 435) (.add (.rd (.arr .jac 435)) (.mul (.num 75163412436167021 17) (.mul (.rd (.var .jTemp)) (.neg (.num 42602775520927771 17))))),
  .set (.arr .jac 436) (.add (.rd (.arr .jac 436)) (.mul (.neg (.num 77686542505256828 17)) (.mul (.rd (.var .jTemp)) (.neg (.num 42602775520927771 17)))))]

/-- utilities/mechanisms/drm19/lib/src/jacobs/jacob_2.c:289-295 -/
def jacobT83 : List CStmt := [
  .set (.var .jTemp) (.mul (.mul (.div (.num 1 0) (.rd (.var .T))) (.sub (.add (.mul (.sub (.rd (.arr .fwd 83)) (.rd (.arr .rev 83))) (.div (.num 19499758138292552 13) (.rd (.var .T)))) (.mul (.rd (.arr .fwd 83)) (.neg (.num 1 0)))) (.mul (.rd (.arr .rev 83)) (.add (.neg (.num 1 0)) (.mul (.neg (.rd (.var .T))) (.sub (.sub (.add (.rd (.arr .dBdT 16)) (.rd (.arr .dBdT 6))) (.rd (.arr .dBdT 17))) (.rd (.arr .dBdT 3)))))))) (.rd (.var .rhoInv))),
  .set (.arr .jac 17) (.add (.rd (.arr .jac 17)) (.mul (.rd (.var .jTemp)) (.num 28053759999999997 15))),
  .set (.arr .jac 18) (.add (.rd (.arr .jac 18)) (.mul (.neg (.rd (.var .jTemp))) (.num 29061699999999998 15))),
  .set (.arr .jac 4) (.add (.rd (.arr .jac 4)) (.mul (.neg (.rd (.var .jTemp))) (.num 31998799999999999 15))),
  .set (.arr .jac 7) (.add (.rd (.arr .jac 7)) (.mul (.rd (.var .jTemp)) (.num 33006740000000001 15)))]

/-- utilities/mechanisms/drm19/lib/src/jacobs/jacob_2.c:296-387 -/
def jacobS83 : List CStmt := [
  .ite (.rd (.var .T)) (.num 1000 0) (.var .Kc) (.sub (.add (.add (.neg (.num 72296901000000036 17)) (.mul (.num 17207745000000019 17) (.rd (.var .logT)))) (.mul (.rd (.var .T)) (.add (.neg (.num 25681599500000001 19)) (.mul (.rd (.var .T)) (.add (.num 31159559316666656 22) (.mul (.rd (.var .T)) (.add (.neg (.num 19867757508333335 25)) (.mul (.num 49930298850000008 29) (.rd (.var .T)))))))))) (.div (.neg (.num 63930989700000009 13)) (.rd (.var .T)))) (.sub (.add (.add (.neg (.num 56413219399999974 16)) (.mul (.num 81612780000000029 17) (.rd (.var .logT)))) (.mul (.rd (.var .T)) (.add (.neg (.num 99756225500000051 20)) (.mul (.rd (.var .T)) (.add (.num 23259934149999995 23) (.mul (.rd (.var .T)) (.add (.neg (.num 31264320416666639 27)) (.mul (.num 17408220449999998 31) (.rd (.var .T)))))))))) (.div (.neg (.num 67173194270000004 13)) (.rd (.var .T)))),
  .set (.var .Kc) (.exp (.rd (.var .Kc))),
  .set (.var .jTemp) (.mul (.mul (.neg (.rd (.var .mwAvg))) (.rd (.var .rhoInv))) (.sub (.mul (.num 2 0) (.rd (.arr .fwd 83))) (.mul (.num 2 0) (.rd (.arr .rev 83))))),
  .set (.var .kf) (.exp (.sub (.num 20548912449801634 15) (.div (.num 19499758138292552 13) (.rd (.var .T))))),
  .set (.var .kr) (.div (.rd (.var .kf)) (.rd (.var .Kc))),
  .set (.arr .jac 38) (.add (.rd (.arr .jac 38)) (.mul (.num 13916383911740775 15) (.mul (.rd (.var .jTemp)) (.num 92803892982949643 17)))),
  .set (.arr .jac 39) (.add (.rd (.arr .jac 39)) (.mul (.neg (.num 14416383911740777 15)) (.mul (.rd (.var .jTemp)) (.num 92803892982949643 17)))),
  .set (.arr .jac 25) (.add (.rd (.arr .jac 25)) (.mul (.neg (.num 15873365478103855 15)) (.mul (.rd (.var .jTemp)) (.num 92803892982949643 17)))),
  .set (.arr .jac 28) (.add (.rd (.arr .jac 28)) (.mul (.num 16373365478103853 15) (.mul (.rd (.var .jTemp)) (.num 92803892982949643 17)))),
  .set (.arr .jac 59) (.add (.rd (.arr .jac 59)) (.mul (.num 2783276782348155 14) (.mul (.rd (.var .jTemp)) (.num 96401946491474821 17)))),
  .set (.arr .jac 60) (.add (.rd (.arr .jac 60)) (.mul (.neg (.num 28832767823481554 15)) (.mul (.rd (.var .jTemp)) (.num 96401946491474821 17)))),
  .set (.arr .jac 46) (.add (.rd (.arr .jac 46)) (.mul (.neg (.num 3174673095620771 14)) (.mul (.rd (.var .jTemp)) (.num 96401946491474821 17)))),
  .set (.arr .jac 49) (.add (.rd (.arr .jac 49)) (.mul (.num 32746730956207706 15) (.mul (.rd (.var .jTemp)) (.num 96401946491474821 17)))),
  .set (.arr .jac 80) (.add (.rd (.arr .jac 80)) (.mul (.num 17534257534657549 16) (.mul (.rd (.var .jTemp)) (.num 42886781649405936 17)))),
  .set (.arr .jac 81) (.add (.rd (.arr .jac 81)) (.mul (.neg (.num 18164243659137218 16)) (.mul (.rd (.var .jTemp)) (.num 42886781649405936 17)))),
  .set (.arr .jac 67) (.add (.rd (.arr .jac 67)) (.mul (.neg (.num 2 0)) (.mul (.rd (.var .jTemp)) (.num 42886781649405936 17)))),
  .set (.arr .jac 70) (.add (.rd (.arr .jac 70)) (.mul (.num 20629986124479669 16) (.mul (.rd (.var .jTemp)) (.num 42886781649405936 17)))),
  .set (.arr .jac 101) (.add (.rd (.arr .jac 101)) (.mul (.num 87671287673287746 17) (.add (.mul (.rd (.var .jTemp)) (.neg (.num 14226436701188128 17))) (.mul (.rd (.var .kf)) (.rd (.arr .C 17)))))),
  .set (.arr .jac 102) (.add (.rd (.arr .jac 102)) (.mul (.neg (.num 9082121829568609 16)) (.add (.mul (.rd (.var .jTemp)) (.neg (.num 14226436701188128 17))) (.mul (.rd (.var .kf)) (.rd (.arr .C 17)))))),
  .set (.arr .jac 88) (.add (.rd (.arr .jac 88)) (.neg (.add (.mul (.rd (.var .jTemp)) (.neg (.num 14226436701188128 17))) (.mul (.rd (.var .kf)) (.rd (.arr .C 17)))))),
  .set (.arr .jac 91) (.add (.rd (.arr .jac 91)) (.mul (.num 10314993062239834 16) (.add (.mul (.rd (.var .jTemp)) (.neg (.num 14226436701188128 17))) (.mul (.rd (.var .kf)) (.rd (.arr .C 17)))))),
  .set (.arr .jac 122) (.add (.rd (.arr .jac 122)) (.mul (.num 16495089767124076 16) (.mul (.rd (.var .jTemp)) (.num 39288728140880758 17)))),
  .set (.arr .jac 123) (.add (.rd (.arr .jac 123)) (.mul (.neg (.num 17087739764125371 16)) (.mul (.rd (.var .jTemp)) (.num 39288728140880758 17)))),
  .set (.arr .jac 109) (.add (.rd (.arr .jac 109)) (.mul (.neg (.num 18814700005997411 16)) (.mul (.rd (.var .jTemp)) (.num 39288728140880758 17)))),
  .set (.arr .jac 112) (.add (.rd (.arr .jac 112)) (.mul (.num 19407350002998707 16) (.mul (.rd (.var .jTemp)) (.num 39288728140880758 17)))),
  .set (.arr .jac 143) (.add (.rd (.arr .jac 143)) (.mul (.num 15572203151990975 16) (.mul (.rd (.var .jTemp)) (.num 35690674632355568 17)))),
  .set (.arr .jac 144) (.add (.rd (.arr .jac 144)) (.mul (.neg (.num 16131694872352802 16)) (.mul (.rd (.var .jTemp)) (.num 35690674632355568 17)))),
  .set (.arr .jac 130) (.add (.rd (.arr .jac 130)) (.mul (.neg (.num 17762033118552694 16)) (.mul (.rd (.var .jTemp)) (.num 35690674632355568 17)))),
  .set (.arr .jac 133) (.add (.rd (.arr .jac 133)) (.mul (.num 1832152483891452 15) (.mul (.rd (.var .jTemp)) (.num 35690674632355568 17)))),
  .set (.arr .jac 164) (.add (.rd (.arr .jac 164)) (.mul (.num 84994034551730935 17) (.sub (.mul (.rd (.var .jTemp)) (.neg (.num 17824490209713328 17))) (.mul (.rd (.var .kr)) (.rd (.arr .C 16)))))),
  .set (.arr .jac 165) (.add (.rd (.arr .jac 165)) (.mul (.neg (.num 8804777448484763 16)) (.sub (.mul (.rd (.var .jTemp)) (.neg (.num 17824490209713328 17))) (.mul (.rd (.var .kr)) (.rd (.arr .C 16)))))),
  .set (.arr .jac 151) (.add (.rd (.arr .jac 151)) (.mul (.neg (.num 96946260066883305 17)) (.sub (.mul (.rd (.var .jTemp)) (.neg (.num 17824490209713328 17))) (.mul (.rd (.var .kr)) (.rd (.arr .C 16)))))),
  .set (.arr .jac 154) (.add (.rd (.arr .jac 154)) (.sub (.mul (.rd (.var .jTemp)) (.neg (.num 17824490209713328 17))) (.mul (.rd (.var .kr)) (.rd (.arr .C 16))))),
  .set (.arr .jac 185) (.add (.rd (.arr .jac 185)) (.mul (.num 2 0) (.mul (.rd (.var .jTemp)) (.num 49928106040377707 17)))),
  .set (.arr .jac 186) (.add (.rd (.arr .jac 186)) (.mul (.neg (.num 20718577474106858 16)) (.mul (.rd (.var .jTemp)) (.num 49928106040377707 17)))),
  .set (.arr .jac 172) (.add (.rd (.arr .jac 172)) (.mul (.neg (.num 22812485741661725 16)) (.mul (.rd (.var .jTemp)) (.num 49928106040377707 17)))),
  .set (.arr .jac 175) (.add (.rd (.arr .jac 175)) (.mul (.num 23531063215768584 16) (.mul (.rd (.var .jTemp)) (.num 49928106040377707 17)))),
  .set (.arr .jac 206) (.add (.rd (.arr .jac 206)) (.mul (.num 2 0) (.mul (.rd (.var .jTemp)) (.num 49928106040377707 17)))),
  .set (.arr .jac 207) (.add (.rd (.arr .jac 207)) (.mul (.neg (.num 20718577474106858 16)) (.mul (.rd (.var .jTemp)) (.num 49928106040377707 17)))),
  .set (.arr .jac 193) (.add (.rd (.arr .jac 193)) (.mul (.neg (.num 22812485741661725 16)) (.mul (.rd (.var .jTemp)) (.num 49928106040377707 17)))),
  .set (.arr .jac 196) (.add (.rd (.arr .jac 196)) (.mul (.num 23531063215768584 16) (.mul (.rd (.var .jTemp)) (.num 49928106040377707 17)))),
  .set (.arr .jac 227) (.add (.rd (.arr .jac 227)) (.mul (.num 18659192461233323 16) (.mul (.rd (.var .jTemp)) (.num 46330052531852528 17)))),
  .set (.arr .jac 228) (.add (.rd (.arr .jac 228)) (.mul (.neg (.num 19329596230616661 16)) (.mul (.rd (.var .jTemp)) (.num 46330052531852528 17)))),
  .set (.arr .jac 214) (.add (.rd (.arr .jac 214)) (.mul (.neg (.num 21283128098640356 16)) (.mul (.rd (.var .jTemp)) (.num 46330052531852528 17)))),
  .set (.arr .jac 217) (.add (.rd (.arr .jac 217)) (.mul (.num 21953531868023695 16) (.mul (.rd (.var .jTemp)) (.num 46330052531852528 17)))),
  .set (.arr .jac 248) (.add (.rd (.arr .jac 248)) (.mul (.num 17486866349680477 16) (.mul (.rd (.var .jTemp)) (.num 42731999023327338 17)))),
  .set (.arr .jac 249) (.add (.rd (.arr .jac 249)) (.mul (.neg (.num 18115149762260356 16)) (.mul (.rd (.var .jTemp)) (.num 42731999023327338 17)))),
  .set (.arr .jac 235) (.add (.rd (.arr .jac 235)) (.mul (.neg (.num 19945944463421503 16)) (.mul (.rd (.var .jTemp)) (.num 42731999023327338 17)))),
  .set (.arr .jac 238) (.add (.rd (.arr .jac 238)) (.mul (.num 20574227876001383 16) (.mul (.rd (.var .jTemp)) (.num 42731999023327338 17)))),
  .set (.arr .jac 269) (.add (.rd (.arr .jac 269)) (.mul (.num 10015479964584584 16) (.mul (.rd (.var .jTemp)) (.num 10994706834011048 20)))),
  .set (.arr .jac 270) (.add (.rd (.arr .jac 270)) (.mul (.neg (.num 10375324879330534 16)) (.mul (.rd (.var .jTemp)) (.num 10994706834011048 20)))),
  .set (.arr .jac 256) (.add (.rd (.arr .jac 256)) (.mul (.neg (.num 11423899694399224 16)) (.mul (.rd (.var .jTemp)) (.num 10994706834011048 20)))),
  .set (.arr .jac 259) (.add (.rd (.arr .jac 259)) (.mul (.num 11783744609145177 16) (.mul (.rd (.var .jTemp)) (.num 10994706834011048 20)))),
  .set (.arr .jac 290) (.add (.rd (.arr .jac 290)) (.mul (.num 63744347849797089 17) (.mul (.rd (.var .jTemp)) (.neg (.num 57102223643760053 17))))),
  .set (.arr .jac 291) (.add (.rd (.arr .jac 291)) (.mul (.neg (.num 66034610473121891 17)) (.mul (.rd (.var .jTemp)) (.neg (.num 57102223643760053 17))))),
  .set (.arr .jac 277) (.add (.rd (.arr .jac 277)) (.mul (.neg (.num 72708351321751064 17)) (.mul (.rd (.var .jTemp)) (.neg (.num 57102223643760053 17))))),
  .set (.arr .jac 280) (.add (.rd (.arr .jac 280)) (.mul (.num 74998613945075876 17) (.mul (.rd (.var .jTemp)) (.neg (.num 57102223643760053 17))))),
  .set (.arr .jac 311) (.add (.rd (.arr .jac 311)) (.mul (.num 96675964235032041 17) (.mul (.rd (.var .jTemp)) (.neg (.num 35870588016911675 18))))),
  .set (.arr .jac 312) (.add (.rd (.arr .jac 312)) (.mul (.neg (.num 10014942274437477 16)) (.mul (.rd (.var .jTemp)) (.neg (.num 35870588016911675 18))))),
  .set (.arr .jac 298) (.add (.rd (.arr .jac 298)) (.mul (.neg (.num 11027095278365338 16)) (.mul (.rd (.var .jTemp)) (.neg (.num 35870588016911675 18))))),
  .set (.arr .jac 301) (.add (.rd (.arr .jac 301)) (.mul (.num 11374441129299608 16) (.mul (.rd (.var .jTemp)) (.neg (.num 35870588016911675 18))))),
  .set (.arr .jac 332) (.add (.rd (.arr .jac 332)) (.mul (.num 93430688050600996 17) (.mul (.rd (.var .jTemp)) (.neg (.num 71851123102163683 18))))),
  .set (.arr .jac 333) (.add (.rd (.arr .jac 333)) (.mul (.neg (.num 96787547441774335 17)) (.mul (.rd (.var .jTemp)) (.neg (.num 71851123102163683 18))))),
  .set (.arr .jac 319) (.add (.rd (.arr .jac 319)) (.mul (.neg (.num 10656931194939898 16)) (.mul (.rd (.var .jTemp)) (.neg (.num 71851123102163683 18))))),
  .set (.arr .jac 322) (.add (.rd (.arr .jac 322)) (.mul (.num 10992617134057232 16) (.mul (.rd (.var .jTemp)) (.neg (.num 71851123102163683 18))))),
  .set (.arr .jac 353) (.add (.rd (.arr .jac 353)) (.mul (.num 90396214243502815 17) (.mul (.rd (.var .jTemp)) (.neg (.num 10783165818741525 17))))),
  .set (.arr .jac 354) (.add (.rd (.arr .jac 354)) (.mul (.neg (.num 93644048408498748 17)) (.mul (.rd (.var .jTemp)) (.neg (.num 10783165818741525 17))))),
  .set (.arr .jac 340) (.add (.rd (.arr .jac 340)) (.mul (.neg (.num 10310811742650532 16)) (.mul (.rd (.var .jTemp)) (.neg (.num 10783165818741525 17))))),
  .set (.arr .jac 343) (.add (.rd (.arr .jac 343)) (.mul (.num 10635595159150126 16) (.mul (.rd (.var .jTemp)) (.neg (.num 10783165818741525 17))))),
  .set (.arr .jac 374) (.add (.rd (.arr .jac 374)) (.sub (.mul (.rd (.var .jTemp)) (.neg (.num 14378791924458678 19))) (.mul (.rd (.var .kr)) (.rd (.arr .C 6))))),
  .set (.arr .jac 375) (.add (.rd (.arr .jac 375)) (.mul (.neg (.num 10359288737053429 16)) (.sub (.mul (.rd (.var .jTemp)) (.neg (.num 14378791924458678 19))) (.mul (.rd (.var .kr)) (.rd (.arr .C 6)))))),
  .set (.arr .jac 361) (.add (.rd (.arr .jac 361)) (.mul (.neg (.num 11406242870830863 16)) (.sub (.mul (.rd (.var .jTemp)) (.neg (.num 14378791924458678 19))) (.mul (.rd (.var .kr)) (.rd (.arr .C 6)))))),
  .set (.arr .jac 364) (.add (.rd (.arr .jac 364)) (.mul (.num 11765531607884292 16) (.sub (.mul (.rd (.var .jTemp)) (.neg (.num 14378791924458678 19))) (.mul (.rd (.var .kr)) (.rd (.arr .C 6)))))),
  .set (.arr .jac 395) (.add (.rd (.arr .jac 395)) (.mul (.num 96531723884012288 17) (.add (.mul (.rd (.var .jTemp)) (.neg (.num 37418414277697654 18))) (.mul (.rd (.var .kf)) (.rd (.arr .C 3)))))),
  .set (.arr .jac 396) (.add (.rd (.arr .jac 396)) (.neg (.add (.mul (.rd (.var .jTemp)) (.neg (.num 37418414277697654 18))) (.mul (.rd (.var .kf)) (.rd (.arr .C 3)))))),
  .set (.arr .jac 382) (.add (.rd (.arr .jac 382)) (.mul (.neg (.num 11010642873610286 16)) (.add (.mul (.rd (.var .jTemp)) (.neg (.num 37418414277697654 18))) (.mul (.rd (.var .kf)) (.rd (.arr .C 3)))))),
  .set (.arr .jac 385) (.add (.rd (.arr .jac 385)) (.mul (.num 11357470485209056 16) (.add (.mul (.rd (.var .jTemp)) (.neg (.num 37418414277697654 18))) (.mul (.rd (.var .kf)) (.rd (.arr .C 3)))))),
  .set (.arr .jac 416) (.add (.rd (.arr .jac 416)) (.mul (.num 93295962306166613 17) (.mul (.rd (.var .jTemp)) (.neg (.num 73398949362949439 18))))),
  .set (.arr .jac 417) (.add (.rd (.arr .jac 417)) (.mul (.neg (.num 96647981153083307 17)) (.mul (.rd (.var .jTemp)) (.neg (.num 73398949362949439 18))))),
  .set (.arr .jac 403) (.add (.rd (.arr .jac 403)) (.mul (.neg (.num 10641564049320178 16)) (.mul (.rd (.var .jTemp)) (.neg (.num 73398949362949439 18))))),
  .set (.arr .jac 406) (.add (.rd (.arr .jac 406)) (.mul (.num 10976765934011847 16) (.mul (.rd (.var .jTemp)) (.neg (.num 73398949362949439 18))))),
  .set (.arr .jac 437) (.add (.rd (.arr .jac 437)) (.mul (.num 7022569340142184 16) (.mul (.rd (.var .jTemp)) (.neg (.num 42602775520927771 17))))),
  .set (.arr .jac 438) (.add (.rd (.arr .jac 438)) (.mul (.neg (.num 72748823470511659 17)) (.mul (.rd (.var .jTemp)) (.neg (.num 42602775520927771 17))))),
  .set (.arr .jac 424) (.add (.rd (.arr .jac 424)) (.mul (.neg (.num 80101131470912179 17)) (.mul (.rd (.var .jTemp)) (.neg (.num 42602775520927771 17))))),
  .set (.arr .jac 427) (.add (.rd (.arr .jac 427)) (.mul (.num 82624261540002009 17) (.mul (.rd (.var .jTemp)) (.neg (.num 42602775520927771 17)))))]

/-- The blocks of `eval_jacob_2`, one per reaction, utilities/mechanisms/drm19/lib/src/jacobs/jacob_2.c:5-387: derivatives with respect to the temperature and to the mass fractions. -/
def jacob2Blocks : List (List CStmt × List CStmt) := [
  (jacobT80, jacobS80), (jacobT81, jacobS81), (jacobT82, jacobS82), (jacobT83, jacobS83)]

end DLB.Mech.Drm19
