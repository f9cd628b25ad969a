/- Generated by tools/gen_mechanisms.py from utilities/mechanisms/drm19/lib/src/jacobs/jacob_0.c. Do not edit. -/
import Verif.Model.CLang
set_option autoImplicit false

namespace DLB.Mech.Drm19
open DLB

/-- utilities/mechanisms/drm19/lib/src/jacobs/jacob_0.c:5-17 -/
def jacob0Start : List CStmt := [
  .set (.var .logT) (.log (.rd (.var .T))),
  .set (.var .kf) (.num 0 0),
  .set (.var .jTemp) (.num 0 0),
  .set (.var .presModTemp) (.num 0 0),
  .set (.var .Kc) (.num 0 0),
  .set (.var .kr) (.num 0 0),
  .set (.var .Pr) (.num 0 0),
  .set (.var .Fcent) (.num 0 0),
  .set (.var .A) (.num 0 0),
  .set (.var .B) (.num 0 0),
  .set (.var .lnFAB) (.num 0 0),
  .set (.var .rhoInv) (.div (.num 1 0) (.rd (.var .rho)))]

/-- utilities/mechanisms/drm19/lib/src/jacobs/jacob_0.c:18-23 -/
def jacobT0 : List CStmt := [
  .set (.var .jTemp) (.mul (.add (.div (.mul (.neg (.rd (.arr .presMod 0))) (.sub (.rd (.arr .fwd 0)) (.rd (.arr .rev 0)))) (.rd (.var .T))) (.mul (.div (.rd (.arr .presMod 0)) (.rd (.var .T))) (.sub (.add (.mul (.sub (.rd (.arr .fwd 0)) (.rd (.arr .rev 0))) (.neg (.num 1 0))) (.mul (.rd (.arr .fwd 0)) (.neg (.num 1 0)))) (.mul (.rd (.arr .rev 0)) (.mul (.neg (.rd (.var .T))) (.sub (.sub (.rd (.arr .dBdT 4)) (.rd (.arr .dBdT 1))) (.rd (.arr .dBdT 2)))))))) (.rd (.var .rhoInv))),
  .set (.arr .jac 2) (.mul (.neg (.rd (.var .jTemp))) (.num 10079400000000001 16)),
  .set (.arr .jac 3) (.mul (.neg (.rd (.var .jTemp))) (.num 159994 4)),
  .set (.arr .jac 5) (.mul (.rd (.var .jTemp)) (.num 17007339999999999 15))]

/-- utilities/mechanisms/drm19/lib/src/jacobs/jacob_0.c:24-96 -/
def jacobS0 : List CStmt := [
  .ite (.rd (.var .T)) (.num 1000 0) (.var .Kc) (.sub (.add (.add (.neg (.num 32924395000000217 18)) (.mul (.neg (.num 67625167000000008 17)) (.rd (.var .logT)))) (.mul (.rd (.var .T)) (.add (.num 43900065964733344 20) (.mul (.rd (.var .T)) (.add (.neg (.num 3375209246673467 22)) (.mul (.rd (.var .T)) (.add (.num 18724440897493195 26) (.mul (.neg (.num 37427250453613386 30)) (.rd (.var .T)))))))))) (.div (.neg (.num 50980838539999997 12)) (.rd (.var .T)))) (.sub (.add (.add (.num 21155734940000004 16) (.mul (.neg (.num 97653312000000003 17)) (.rd (.var .logT)))) (.mul (.rd (.var .T)) (.add (.num 31720192639214862 20) (.mul (.rd (.var .T)) (.add (.num 14092792157300865 24) (.mul (.rd (.var .T)) (.add (.neg (.num 64940309137373039 28)) (.mul (.num 52564500959013211 32) (.rd (.var .T)))))))))) (.div (.neg (.num 50832582000000002 12)) (.rd (.var .T)))),
  .set (.var .Kc) (.mul (.num 82057360967184814 18) (.exp (.rd (.var .Kc)))),
  .set (.var .presModTemp) (.sub (.rd (.arr .fwd 0)) (.rd (.arr .rev 0))),
  .set (.var .jTemp) (.mul (.mul (.mul (.neg (.rd (.var .mwAvg))) (.rd (.var .rhoInv))) (.rd (.arr .presMod 0))) (.sub (.mul (.num 3 0) (.rd (.arr .fwd 0))) (.mul (.num 2 0) (.rd (.arr .rev 0))))),
  .set (.var .kf) (.exp (.sub (.num 26937873935368604 15) (.mul (.num 1 0) (.rd (.var .logT))))),
  .set (.var .kr) (.div (.rd (.var .kf)) (.rd (.var .Kc))),
  .set (.arr .jac 23) (.mul (.neg (.num 5 1)) (.add (.mul (.rd (.var .jTemp)) (.num 92803892982949643 17)) (.mul (.num 19280389298294964 16) (.rd (.var .presModTemp))))),
  .set (.arr .jac 24) (.mul (.neg (.num 79366827390519274 16)) (.add (.mul (.rd (.var .jTemp)) (.num 92803892982949643 17)) (.mul (.num 19280389298294964 16) (.rd (.var .presModTemp))))),
  .set (.arr .jac 26) (.mul (.num 84366827390519266 16) (.add (.mul (.rd (.var .jTemp)) (.num 92803892982949643 17)) (.mul (.num 19280389298294964 16) (.rd (.var .presModTemp))))),
  .set (.arr .jac 44) (.neg (.add (.add (.mul (.rd (.var .jTemp)) (.num 96401946491474821 17)) (.mul (.num 96401946491474821 17) (.rd (.var .presModTemp)))) (.mul (.rd (.arr .presMod 0)) (.mul (.rd (.var .kf)) (.rd (.arr .C 2)))))),
  .set (.arr .jac 45) (.mul (.neg (.num 15873365478103855 15)) (.add (.add (.mul (.rd (.var .jTemp)) (.num 96401946491474821 17)) (.mul (.num 96401946491474821 17) (.rd (.var .presModTemp)))) (.mul (.rd (.arr .presMod 0)) (.mul (.rd (.var .kf)) (.rd (.arr .C 2)))))),
  .set (.arr .jac 47) (.mul (.num 16873365478103853 15) (.add (.add (.mul (.rd (.var .jTemp)) (.num 96401946491474821 17)) (.mul (.num 96401946491474821 17) (.rd (.var .presModTemp)))) (.mul (.rd (.arr .presMod 0)) (.mul (.rd (.var .kf)) (.rd (.arr .C 2)))))),
  .set (.arr .jac 65) (.mul (.neg (.num 62998612447966798 18)) (.add (.add (.mul (.rd (.var .jTemp)) (.num 42886781649405936 17)) (.mul (.num 42886781649405936 17) (.rd (.var .presModTemp)))) (.mul (.rd (.arr .presMod 0)) (.mul (.rd (.var .kf)) (.rd (.arr .C 1)))))),
  .set (.arr .jac 66) (.neg (.add (.add (.mul (.rd (.var .jTemp)) (.num 42886781649405936 17)) (.mul (.num 42886781649405936 17) (.rd (.var .presModTemp)))) (.mul (.rd (.arr .presMod 0)) (.mul (.rd (.var .kf)) (.rd (.arr .C 1)))))),
  .set (.arr .jac 68) (.mul (.num 10629986124479667 16) (.add (.add (.mul (.rd (.var .jTemp)) (.num 42886781649405936 17)) (.mul (.num 42886781649405936 17) (.rd (.var .presModTemp)))) (.mul (.rd (.arr .presMod 0)) (.mul (.rd (.var .kf)) (.rd (.arr .C 1)))))),
  .set (.arr .jac 86) (.mul (.neg (.num 31499306223983399 18)) (.add (.mul (.rd (.var .jTemp)) (.neg (.num 14226436701188128 17))) (.mul (.neg (.num 14226436701188128 17)) (.rd (.var .presModTemp))))),
  .set (.arr .jac 87) (.mul (.neg (.num 5 1)) (.add (.mul (.rd (.var .jTemp)) (.neg (.num 14226436701188128 17))) (.mul (.neg (.num 14226436701188128 17)) (.rd (.var .presModTemp))))),
  .set (.arr .jac 89) (.mul (.num 53149930622398334 17) (.add (.mul (.rd (.var .jTemp)) (.neg (.num 14226436701188128 17))) (.mul (.neg (.num 14226436701188128 17)) (.rd (.var .presModTemp))))),
  .set (.arr .jac 107) (.mul (.neg (.num 59264999700129481 18)) (.add (.add (.mul (.rd (.var .jTemp)) (.num 39288728140880758 17)) (.mul (.num 39288728140880758 17) (.rd (.var .presModTemp)))) (.mul (.rd (.arr .presMod 0)) (.neg (.rd (.var .kr)))))),
  .set (.arr .jac 108) (.mul (.neg (.num 94073500029987056 17)) (.add (.add (.mul (.rd (.var .jTemp)) (.num 39288728140880758 17)) (.mul (.num 39288728140880758 17) (.rd (.var .presModTemp)))) (.mul (.rd (.arr .presMod 0)) (.neg (.rd (.var .kr)))))),
  .set (.arr .jac 110) (.add (.add (.mul (.rd (.var .jTemp)) (.num 39288728140880758 17)) (.mul (.num 39288728140880758 17) (.rd (.var .presModTemp)))) (.mul (.rd (.arr .presMod 0)) (.neg (.rd (.var .kr))))),
  .set (.arr .jac 128) (.mul (.neg (.num 55949172036182618 18)) (.add (.mul (.rd (.var .jTemp)) (.num 35690674632355568 17)) (.mul (.num 53569067463235553 16) (.rd (.var .presModTemp))))),
  .set (.arr .jac 129) (.mul (.neg (.num 88810165592763468 17)) (.add (.mul (.rd (.var .jTemp)) (.num 35690674632355568 17)) (.mul (.num 53569067463235553 16) (.rd (.var .presModTemp))))),
  .set (.arr .jac 131) (.mul (.num 94405082796381734 17) (.add (.mul (.rd (.var .jTemp)) (.num 35690674632355568 17)) (.mul (.num 53569067463235553 16) (.rd (.var .presModTemp))))),
  .set (.arr .jac 149) (.mul (.neg (.num 3053739933116691 17)) (.add (.mul (.rd (.var .jTemp)) (.neg (.num 17824490209713328 17))) (.mul (.neg (.num 17824490209713328 17)) (.rd (.var .presModTemp))))),
  .set (.arr .jac 150) (.mul (.neg (.num 48473130033441653 17)) (.add (.mul (.rd (.var .jTemp)) (.neg (.num 17824490209713328 17))) (.mul (.neg (.num 17824490209713328 17)) (.rd (.var .presModTemp))))),
  .set (.arr .jac 152) (.mul (.num 51526869966558342 17) (.add (.mul (.rd (.var .jTemp)) (.neg (.num 17824490209713328 17))) (.mul (.neg (.num 17824490209713328 17)) (.rd (.var .presModTemp))))),
  .set (.arr .jac 170) (.mul (.neg (.num 71857747410685777 18)) (.add (.mul (.rd (.var .jTemp)) (.num 49928106040377707 17)) (.mul (.num 49928106040377707 17) (.rd (.var .presModTemp))))),
  .set (.arr .jac 171) (.mul (.neg (.num 11406242870830863 16)) (.add (.mul (.rd (.var .jTemp)) (.num 49928106040377707 17)) (.mul (.num 49928106040377707 17) (.rd (.var .presModTemp))))),
  .set (.arr .jac 173) (.mul (.num 12124820344937721 16) (.add (.mul (.rd (.var .jTemp)) (.num 49928106040377707 17)) (.mul (.num 49928106040377707 17) (.rd (.var .presModTemp))))),
  .set (.arr .jac 191) (.mul (.neg (.num 71857747410685777 18)) (.add (.mul (.rd (.var .jTemp)) (.num 49928106040377707 17)) (.mul (.num 49928106040377707 17) (.rd (.var .presModTemp))))),
  .set (.arr .jac 192) (.mul (.neg (.num 11406242870830863 16)) (.add (.mul (.rd (.var .jTemp)) (.num 49928106040377707 17)) (.mul (.num 49928106040377707 17) (.rd (.var .presModTemp))))),
  .set (.arr .jac 194) (.mul (.num 12124820344937721 16) (.add (.mul (.rd (.var .jTemp)) (.num 49928106040377707 17)) (.mul (.num 49928106040377707 17) (.rd (.var .presModTemp))))),
  .set (.arr .jac 212) (.mul (.neg (.num 67040376938333812 18)) (.add (.mul (.rd (.var .jTemp)) (.num 46330052531852528 17)) (.mul (.num 46330052531852528 17) (.rd (.var .presModTemp))))),
  .set (.arr .jac 213) (.mul (.neg (.num 10641564049320178 16)) (.add (.mul (.rd (.var .jTemp)) (.num 46330052531852528 17)) (.mul (.num 46330052531852528 17) (.rd (.var .presModTemp))))),
  .set (.arr .jac 215) (.mul (.num 11311967818703517 16) (.add (.mul (.rd (.var .jTemp)) (.num 46330052531852528 17)) (.mul (.num 46330052531852528 17) (.rd (.var .presModTemp))))),
  .set (.arr .jac 233) (.mul (.neg (.num 6282834125798803 17)) (.add (.mul (.rd (.var .jTemp)) (.num 42731999023327338 17)) (.mul (.num 14273199902332734 16) (.rd (.var .presModTemp))))),
  .set (.arr .jac 234) (.mul (.neg (.num 99729722317107516 17)) (.add (.mul (.rd (.var .jTemp)) (.num 42731999023327338 17)) (.mul (.num 14273199902332734 16) (.rd (.var .presModTemp))))),
  .set (.arr .jac 236) (.mul (.num 10601255644290632 16) (.add (.mul (.rd (.var .jTemp)) (.num 42731999023327338 17)) (.mul (.num 14273199902332734 16) (.rd (.var .presModTemp))))),
  .set (.arr .jac 254) (.mul (.neg (.num 35984491474595155 18)) (.add (.mul (.rd (.var .jTemp)) (.num 10994706834011048 20)) (.mul (.num 50010994706834011 17) (.rd (.var .presModTemp))))),
  .set (.arr .jac 255) (.mul (.neg (.num 57119498471996122 17)) (.add (.mul (.rd (.var .jTemp)) (.num 10994706834011048 20)) (.mul (.num 50010994706834011 17) (.rd (.var .presModTemp))))),
  .set (.arr .jac 257) (.mul (.num 60717947619455637 17) (.add (.mul (.rd (.var .jTemp)) (.num 10994706834011048 20)) (.mul (.num 50010994706834011 17) (.rd (.var .presModTemp))))),
  .set (.arr .jac 275) (.mul (.neg (.num 22902626233248052 18)) (.add (.mul (.rd (.var .jTemp)) (.neg (.num 57102223643760053 17))) (.mul (.num 42897776356239947 17) (.rd (.var .presModTemp))))),
  .set (.arr .jac 276) (.mul (.neg (.num 36354175660875532 17)) (.add (.mul (.rd (.var .jTemp)) (.neg (.num 57102223643760053 17))) (.mul (.num 42897776356239947 17) (.rd (.var .presModTemp))))),
  .set (.arr .jac 278) (.mul (.num 38644438284200339 17) (.add (.mul (.rd (.var .jTemp)) (.neg (.num 57102223643760053 17))) (.mul (.num 42897776356239947 17) (.rd (.var .presModTemp))))),
  .set (.arr .jac 296) (.mul (.neg (.num 34734585093427126 18)) (.add (.mul (.rd (.var .jTemp)) (.neg (.num 35870588016911675 18))) (.mul (.neg (.num 35870588016911675 18)) (.rd (.var .presModTemp))))),
  .set (.arr .jac 297) (.mul (.neg (.num 55135476391826688 17)) (.add (.mul (.rd (.var .jTemp)) (.neg (.num 35870588016911675 18))) (.mul (.neg (.num 35870588016911675 18)) (.rd (.var .presModTemp))))),
  .set (.arr .jac 299) (.mul (.num 58608934901169396 17) (.add (.mul (.rd (.var .jTemp)) (.neg (.num 35870588016911675 18))) (.mul (.neg (.num 35870588016911675 18)) (.rd (.var .presModTemp))))),
  .set (.arr .jac 317) (.mul (.neg (.num 33568593911733322 18)) (.add (.mul (.rd (.var .jTemp)) (.neg (.num 71851123102163683 18))) (.mul (.neg (.num 71851123102163683 18)) (.rd (.var .presModTemp))))),
  .set (.arr .jac 318) (.mul (.neg (.num 53284655974699491 17)) (.add (.mul (.rd (.var .jTemp)) (.neg (.num 71851123102163683 18))) (.mul (.neg (.num 71851123102163683 18)) (.rd (.var .presModTemp))))),
  .set (.arr .jac 320) (.mul (.num 5664151536587283 16) (.add (.mul (.rd (.var .jTemp)) (.neg (.num 71851123102163683 18))) (.mul (.neg (.num 71851123102163683 18)) (.rd (.var .presModTemp))))),
  .set (.arr .jac 338) (.mul (.neg (.num 32478341649959309 18)) (.add (.mul (.rd (.var .jTemp)) (.neg (.num 10783165818741525 17))) (.mul (.neg (.num 10783165818741525 17)) (.rd (.var .presModTemp))))),
  .set (.arr .jac 339) (.mul (.neg (.num 5155405871325266 16)) (.add (.mul (.rd (.var .jTemp)) (.neg (.num 10783165818741525 17))) (.mul (.neg (.num 10783165818741525 17)) (.rd (.var .presModTemp))))),
  .set (.arr .jac 341) (.mul (.num 54801892878248593 17) (.add (.mul (.rd (.var .jTemp)) (.neg (.num 10783165818741525 17))) (.mul (.neg (.num 10783165818741525 17)) (.rd (.var .presModTemp))))),
  .set (.arr .jac 359) (.mul (.neg (.num 35928873705342888 18)) (.add (.mul (.rd (.var .jTemp)) (.neg (.num 14378791924458678 19))) (.mul (.neg (.num 14378791924458678 19)) (.rd (.var .presModTemp))))),
  .set (.arr .jac 360) (.mul (.neg (.num 57031214354154314 17)) (.add (.mul (.rd (.var .jTemp)) (.neg (.num 14378791924458678 19))) (.mul (.neg (.num 14378791924458678 19)) (.rd (.var .presModTemp))))),
  .set (.arr .jac 362) (.mul (.num 60624101724688606 17) (.add (.mul (.rd (.var .jTemp)) (.neg (.num 14378791924458678 19))) (.mul (.neg (.num 14378791924458678 19)) (.rd (.var .presModTemp))))),
  .set (.arr .jac 380) (.mul (.neg (.num 3468276115987709 17)) (.add (.mul (.rd (.var .jTemp)) (.neg (.num 37418414277697654 18))) (.mul (.neg (.num 37418414277697654 18)) (.rd (.var .presModTemp))))),
  .set (.arr .jac 381) (.mul (.neg (.num 55053214368051429 17)) (.add (.mul (.rd (.var .jTemp)) (.neg (.num 37418414277697654 18))) (.mul (.neg (.num 37418414277697654 18)) (.rd (.var .presModTemp))))),
  .set (.arr .jac 383) (.mul (.num 58521490484039129 17) (.add (.mul (.rd (.var .jTemp)) (.neg (.num 37418414277697654 18))) (.mul (.neg (.num 37418414277697654 18)) (.rd (.var .presModTemp))))),
  .set (.arr .jac 401) (.mul (.neg (.num 33520188469166906 18)) (.add (.mul (.rd (.var .jTemp)) (.neg (.num 73398949362949439 18))) (.mul (.num 19266010506370506 16) (.rd (.var .presModTemp))))),
  .set (.arr .jac 402) (.mul (.neg (.num 5320782024660089 16)) (.add (.mul (.rd (.var .jTemp)) (.neg (.num 73398949362949439 18))) (.mul (.num 19266010506370506 16) (.rd (.var .presModTemp))))),
  .set (.arr .jac 404) (.mul (.num 56559839093517583 17) (.add (.mul (.rd (.var .jTemp)) (.neg (.num 73398949362949439 18))) (.mul (.num 19266010506370506 16) (.rd (.var .presModTemp))))),
  .set (.arr .jac 422) (.mul (.neg (.num 2523130069089817 17)) (.add (.mul (.rd (.var .jTemp)) (.neg (.num 42602775520927771 17))) (.mul (.neg (.num 72602775520927776 17)) (.rd (.var .presModTemp))))),
  .set (.arr .jac 423) (.mul (.neg (.num 4005056573545609 16)) (.add (.mul (.rd (.var .jTemp)) (.neg (.num 42602775520927771 17))) (.mul (.neg (.num 72602775520927776 17)) (.rd (.var .presModTemp))))),
  .set (.arr .jac 425) (.mul (.num 42573695804545908 17) (.add (.mul (.rd (.var .jTemp)) (.neg (.num 42602775520927771 17))) (.mul (.neg (.num 72602775520927776 17)) (.rd (.var .presModTemp)))))]

/-- utilities/mechanisms/drm19/lib/src/jacobs/jacob_0.c:97-103 -/
def jacobT1 : List CStmt := [
  .set (.var .jTemp) (.mul (.mul (.div (.num 1 0) (.rd (.var .T))) (.sub (.add (.mul (.sub (.rd (.arr .fwd 1)) (.rd (.arr .rev 1))) (.add (.num 26699999999999999 16) (.div (.num 31652510629641329 13) (.rd (.var .T))))) (.mul (.rd (.arr .fwd 1)) (.neg (.num 1 0)))) (.mul (.rd (.arr .rev 1)) (.add (.neg (.num 1 0)) (.mul (.neg (.rd (.var .T))) (.sub (.sub (.add (.rd (.arr .dBdT 1)) (.rd (.arr .dBdT 4))) (.rd (.arr .dBdT 0))) (.rd (.arr .dBdT 2)))))))) (.rd (.var .rhoInv))),
  .set (.arr .jac 1) (.mul (.neg (.rd (.var .jTemp))) (.num 20158800000000001 16)),
  .set (.arr .jac 2) (.add (.rd (.arr .jac 2)) (.mul (.rd (.var .jTemp)) (.num 10079400000000001 16))),
  .set (.arr .jac 3) (.add (.rd (.arr .jac 3)) (.mul (.neg (.rd (.var .jTemp))) (.num 159994 4))),
  .set (.arr .jac 5) (.add (.rd (.arr .jac 5)) (.mul (.rd (.var .jTemp)) (.num 17007339999999999 15)))]

/-- utilities/mechanisms/drm19/lib/src/jacobs/jacob_0.c:104-195 -/
def jacobS1 : List CStmt := [
  .ite (.rd (.var .T)) (.num 1000 0) (.var .Kc) (.sub (.add (.add (.neg (.num 42649692190000001 16)) (.mul (.num 97941720999999982 17) (.rd (.var .logT)))) (.mul (.rd (.var .T)) (.add (.neg (.num 35512597146473328 19)) (.mul (.rd (.var .T)) (.add (.num 29088375746673469 22) (.mul (.rd (.var .T)) (.add (.neg (.num 14925230406415989 25)) (.mul (.num 33137862995361342 29) (.rd (.var .T)))))))))) (.div (.num 88441643299999987 14) (.rd (.var .T)))) (.sub (.add (.add (.num 27645101560000001 16) (.mul (.neg (.num 31381229999999993 17)) (.rd (.var .logT)))) (.mul (.rd (.var .T)) (.add (.num 34190313985785133 20) (.mul (.rd (.var .T)) (.add (.neg (.num 69149998790634198 24)) (.mul (.rd (.var .T)) (.add (.num 84698344637373041 28) (.mul (.neg (.num 47563182059013212 32)) (.rd (.var .T)))))))))) (.div (.num 10648967219999986 13) (.rd (.var .T)))),
  .set (.var .Kc) (.exp (.rd (.var .Kc))),
  .set (.var .jTemp) (.mul (.mul (.neg (.rd (.var .mwAvg))) (.rd (.var .rhoInv))) (.sub (.mul (.num 2 0) (.rd (.arr .fwd 1))) (.mul (.num 2 0) (.rd (.arr .rev 1))))),
  .set (.var .kf) (.exp (.sub (.add (.num 3912023005428146 15) (.mul (.num 267 2) (.rd (.var .logT)))) (.div (.num 31652510629641329 13) (.rd (.var .T))))),
  .set (.var .kr) (.div (.rd (.var .kf)) (.rd (.var .Kc))),
  .set (.arr .jac 22) (.neg (.add (.mul (.rd (.var .jTemp)) (.num 92803892982949643 17)) (.mul (.rd (.var .kf)) (.rd (.arr .C 2))))),
  .set (.arr .jac 23) (.add (.rd (.arr .jac 23)) (.mul (.num 5 1) (.add (.mul (.rd (.var .jTemp)) (.num 92803892982949643 17)) (.mul (.rd (.var .kf)) (.rd (.arr .C 2)))))),
  .set (.arr .jac 24) (.add (.rd (.arr .jac 24)) (.mul (.neg (.num 79366827390519274 16)) (.add (.mul (.rd (.var .jTemp)) (.num 92803892982949643 17)) (.mul (.rd (.var .kf)) (.rd (.arr .C 2)))))),
  .set (.arr .jac 26) (.add (.rd (.arr .jac 26)) (.mul (.num 84366827390519266 16) (.add (.mul (.rd (.var .jTemp)) (.num 92803892982949643 17)) (.mul (.rd (.var .kf)) (.rd (.arr .C 2)))))),
  .set (.arr .jac 43) (.mul (.neg (.num 2 0)) (.sub (.mul (.rd (.var .jTemp)) (.num 96401946491474821 17)) (.mul (.rd (.var .kr)) (.rd (.arr .C 4))))),
  .set (.arr .jac 44) (.add (.rd (.arr .jac 44)) (.sub (.mul (.rd (.var .jTemp)) (.num 96401946491474821 17)) (.mul (.rd (.var .kr)) (.rd (.arr .C 4))))),
  .set (.arr .jac 45) (.add (.rd (.arr .jac 45)) (.mul (.neg (.num 15873365478103855 15)) (.sub (.mul (.rd (.var .jTemp)) (.num 96401946491474821 17)) (.mul (.rd (.var .kr)) (.rd (.arr .C 4)))))),
  .set (.arr .jac 47) (.add (.rd (.arr .jac 47)) (.mul (.num 16873365478103853 15) (.sub (.mul (.rd (.var .jTemp)) (.num 96401946491474821 17)) (.mul (.rd (.var .kr)) (.rd (.arr .C 4)))))),
  .set (.arr .jac 64) (.mul (.neg (.num 1259972248959336 16)) (.add (.mul (.rd (.var .jTemp)) (.num 42886781649405936 17)) (.mul (.rd (.var .kf)) (.rd (.arr .C 0))))),
  .set (.arr .jac 65) (.add (.rd (.arr .jac 65)) (.mul (.num 62998612447966798 18) (.add (.mul (.rd (.var .jTemp)) (.num 42886781649405936 17)) (.mul (.rd (.var .kf)) (.rd (.arr .C 0)))))),
  .set (.arr .jac 66) (.add (.rd (.arr .jac 66)) (.neg (.add (.mul (.rd (.var .jTemp)) (.num 42886781649405936 17)) (.mul (.rd (.var .kf)) (.rd (.arr .C 0)))))),
  .set (.arr .jac 68) (.add (.rd (.arr .jac 68)) (.mul (.num 10629986124479667 16) (.add (.mul (.rd (.var .jTemp)) (.num 42886781649405936 17)) (.mul (.rd (.var .kf)) (.rd (.arr .C 0)))))),
  .set (.arr .jac 85) (.mul (.neg (.num 62998612447966798 18)) (.mul (.rd (.var .jTemp)) (.neg (.num 14226436701188128 17)))),
  .set (.arr .jac 86) (.add (.rd (.arr .jac 86)) (.mul (.num 31499306223983399 18) (.mul (.rd (.var .jTemp)) (.neg (.num 14226436701188128 17))))),
  .set (.arr .jac 87) (.add (.rd (.arr .jac 87)) (.mul (.neg (.num 5 1)) (.mul (.rd (.var .jTemp)) (.neg (.num 14226436701188128 17))))),
  .set (.arr .jac 89) (.add (.rd (.arr .jac 89)) (.mul (.num 53149930622398334 17) (.mul (.rd (.var .jTemp)) (.neg (.num 14226436701188128 17))))),
  .set (.arr .jac 106) (.mul (.neg (.num 11852999940025896 17)) (.sub (.mul (.rd (.var .jTemp)) (.num 39288728140880758 17)) (.mul (.rd (.var .kr)) (.rd (.arr .C 1))))),
  .set (.arr .jac 107) (.add (.rd (.arr .jac 107)) (.mul (.num 59264999700129481 18) (.sub (.mul (.rd (.var .jTemp)) (.num 39288728140880758 17)) (.mul (.rd (.var .kr)) (.rd (.arr .C 1)))))),
  .set (.arr .jac 108) (.add (.rd (.arr .jac 108)) (.mul (.neg (.num 94073500029987056 17)) (.sub (.mul (.rd (.var .jTemp)) (.num 39288728140880758 17)) (.mul (.rd (.var .kr)) (.rd (.arr .C 1)))))),
  .set (.arr .jac 110) (.add (.rd (.arr .jac 110)) (.sub (.mul (.rd (.var .jTemp)) (.num 39288728140880758 17)) (.mul (.rd (.var .kr)) (.rd (.arr .C 1))))),
  .set (.arr .jac 127) (.mul (.neg (.num 11189834407236524 17)) (.mul (.rd (.var .jTemp)) (.num 35690674632355568 17))),
  .set (.arr .jac 128) (.add (.rd (.arr .jac 128)) (.mul (.num 55949172036182618 18) (.mul (.rd (.var .jTemp)) (.num 35690674632355568 17)))),
  .set (.arr .jac 129) (.add (.rd (.arr .jac 129)) (.mul (.neg (.num 88810165592763468 17)) (.mul (.rd (.var .jTemp)) (.num 35690674632355568 17)))),
  .set (.arr .jac 131) (.add (.rd (.arr .jac 131)) (.mul (.num 94405082796381734 17) (.mul (.rd (.var .jTemp)) (.num 35690674632355568 17)))),
  .set (.arr .jac 148) (.mul (.neg (.num 61074798662333819 18)) (.mul (.rd (.var .jTemp)) (.neg (.num 17824490209713328 17)))),
  .set (.arr .jac 149) (.add (.rd (.arr .jac 149)) (.mul (.num 3053739933116691 17) (.mul (.rd (.var .jTemp)) (.neg (.num 17824490209713328 17))))),
  .set (.arr .jac 150) (.add (.rd (.arr .jac 150)) (.mul (.neg (.num 48473130033441653 17)) (.mul (.rd (.var .jTemp)) (.neg (.num 17824490209713328 17))))),
  .set (.arr .jac 152) (.add (.rd (.arr .jac 152)) (.mul (.num 51526869966558342 17) (.mul (.rd (.var .jTemp)) (.neg (.num 17824490209713328 17))))),
  .set (.arr .jac 169) (.mul (.neg (.num 14371549482137155 17)) (.mul (.rd (.var .jTemp)) (.num 49928106040377707 17))),
  .set (.arr .jac 170) (.add (.rd (.arr .jac 170)) (.mul (.num 71857747410685777 18) (.mul (.rd (.var .jTemp)) (.num 49928106040377707 17)))),
  .set (.arr .jac 171) (.add (.rd (.arr .jac 171)) (.mul (.neg (.num 11406242870830863 16)) (.mul (.rd (.var .jTemp)) (.num 49928106040377707 17)))),
  .set (.arr .jac 173) (.add (.rd (.arr .jac 173)) (.mul (.num 12124820344937721 16) (.mul (.rd (.var .jTemp)) (.num 49928106040377707 17)))),
  .set (.arr .jac 190) (.mul (.neg (.num 14371549482137155 17)) (.mul (.rd (.var .jTemp)) (.num 49928106040377707 17))),
  .set (.arr .jac 191) (.add (.rd (.arr .jac 191)) (.mul (.num 71857747410685777 18) (.mul (.rd (.var .jTemp)) (.num 49928106040377707 17)))),
  .set (.arr .jac 192) (.add (.rd (.arr .jac 192)) (.mul (.neg (.num 11406242870830863 16)) (.mul (.rd (.var .jTemp)) (.num 49928106040377707 17)))),
  .set (.arr .jac 194) (.add (.rd (.arr .jac 194)) (.mul (.num 12124820344937721 16) (.mul (.rd (.var .jTemp)) (.num 49928106040377707 17)))),
  .set (.arr .jac 211) (.mul (.neg (.num 13408075387666762 17)) (.mul (.rd (.var .jTemp)) (.num 46330052531852528 17))),
  .set (.arr .jac 212) (.add (.rd (.arr .jac 212)) (.mul (.num 67040376938333812 18) (.mul (.rd (.var .jTemp)) (.num 46330052531852528 17)))),
  .set (.arr .jac 213) (.add (.rd (.arr .jac 213)) (.mul (.neg (.num 10641564049320178 16)) (.mul (.rd (.var .jTemp)) (.num 46330052531852528 17)))),
  .set (.arr .jac 215) (.add (.rd (.arr .jac 215)) (.mul (.num 11311967818703517 16) (.mul (.rd (.var .jTemp)) (.num 46330052531852528 17)))),
  .set (.arr .jac 232) (.mul (.neg (.num 12565668251597606 17)) (.mul (.rd (.var .jTemp)) (.num 42731999023327338 17))),
  .set (.arr .jac 233) (.add (.rd (.arr .jac 233)) (.mul (.num 6282834125798803 17) (.mul (.rd (.var .jTemp)) (.num 42731999023327338 17)))),
  .set (.arr .jac 234) (.add (.rd (.arr .jac 234)) (.mul (.neg (.num 99729722317107516 17)) (.mul (.rd (.var .jTemp)) (.num 42731999023327338 17)))),
  .set (.arr .jac 236) (.add (.rd (.arr .jac 236)) (.mul (.num 10601255644290632 16) (.mul (.rd (.var .jTemp)) (.num 42731999023327338 17)))),
  .set (.arr .jac 253) (.mul (.neg (.num 7196898294919031 17)) (.mul (.rd (.var .jTemp)) (.num 10994706834011048 20))),
  .set (.arr .jac 254) (.add (.rd (.arr .jac 254)) (.mul (.num 35984491474595155 18) (.mul (.rd (.var .jTemp)) (.num 10994706834011048 20)))),
  .set (.arr .jac 255) (.add (.rd (.arr .jac 255)) (.mul (.neg (.num 57119498471996122 17)) (.mul (.rd (.var .jTemp)) (.num 10994706834011048 20)))),
  .set (.arr .jac 257) (.add (.rd (.arr .jac 257)) (.mul (.num 60717947619455637 17) (.mul (.rd (.var .jTemp)) (.num 10994706834011048 20)))),
  .set (.arr .jac 274) (.mul (.neg (.num 45805252466496103 18)) (.mul (.rd (.var .jTemp)) (.neg (.num 57102223643760053 17)))),
  .set (.arr .jac 275) (.add (.rd (.arr .jac 275)) (.mul (.num 22902626233248052 18) (.mul (.rd (.var .jTemp)) (.neg (.num 57102223643760053 17))))),
  .set (.arr .jac 276) (.add (.rd (.arr .jac 276)) (.mul (.neg (.num 36354175660875532 17)) (.mul (.rd (.var .jTemp)) (.neg (.num 57102223643760053 17))))),
  .set (.arr .jac 278) (.add (.rd (.arr .jac 278)) (.mul (.num 38644438284200339 17) (.mul (.rd (.var .jTemp)) (.neg (.num 57102223643760053 17))))),
  .set (.arr .jac 295) (.mul (.neg (.num 69469170186854251 18)) (.mul (.rd (.var .jTemp)) (.neg (.num 35870588016911675 18)))),
  .set (.arr .jac 296) (.add (.rd (.arr .jac 296)) (.mul (.num 34734585093427126 18) (.mul (.rd (.var .jTemp)) (.neg (.num 35870588016911675 18))))),
  .set (.arr .jac 297) (.add (.rd (.arr .jac 297)) (.mul (.neg (.num 55135476391826688 17)) (.mul (.rd (.var .jTemp)) (.neg (.num 35870588016911675 18))))),
  .set (.arr .jac 299) (.add (.rd (.arr .jac 299)) (.mul (.num 58608934901169396 17) (.mul (.rd (.var .jTemp)) (.neg (.num 35870588016911675 18))))),
  .set (.arr .jac 316) (.mul (.neg (.num 67137187823466643 18)) (.mul (.rd (.var .jTemp)) (.neg (.num 71851123102163683 18)))),
  .set (.arr .jac 317) (.add (.rd (.arr .jac 317)) (.mul (.num 33568593911733322 18) (.mul (.rd (.var .jTemp)) (.neg (.num 71851123102163683 18))))),
  .set (.arr .jac 318) (.add (.rd (.arr .jac 318)) (.mul (.neg (.num 53284655974699491 17)) (.mul (.rd (.var .jTemp)) (.neg (.num 71851123102163683 18))))),
  .set (.arr .jac 320) (.add (.rd (.arr .jac 320)) (.mul (.num 5664151536587283 16) (.mul (.rd (.var .jTemp)) (.neg (.num 71851123102163683 18))))),
  .set (.arr .jac 337) (.mul (.neg (.num 64956683299918619 18)) (.mul (.rd (.var .jTemp)) (.neg (.num 10783165818741525 17)))),
  .set (.arr .jac 338) (.add (.rd (.arr .jac 338)) (.mul (.num 32478341649959309 18) (.mul (.rd (.var .jTemp)) (.neg (.num 10783165818741525 17))))),
  .set (.arr .jac 339) (.add (.rd (.arr .jac 339)) (.mul (.neg (.num 5155405871325266 16)) (.mul (.rd (.var .jTemp)) (.neg (.num 10783165818741525 17))))),
  .set (.arr .jac 341) (.add (.rd (.arr .jac 341)) (.mul (.num 54801892878248593 17) (.mul (.rd (.var .jTemp)) (.neg (.num 10783165818741525 17))))),
  .set (.arr .jac 358) (.mul (.neg (.num 71857747410685777 18)) (.mul (.rd (.var .jTemp)) (.neg (.num 14378791924458678 19)))),
  .set (.arr .jac 359) (.add (.rd (.arr .jac 359)) (.mul (.num 35928873705342888 18) (.mul (.rd (.var .jTemp)) (.neg (.num 14378791924458678 19))))),
  .set (.arr .jac 360) (.add (.rd (.arr .jac 360)) (.mul (.neg (.num 57031214354154314 17)) (.mul (.rd (.var .jTemp)) (.neg (.num 14378791924458678 19))))),
  .set (.arr .jac 362) (.add (.rd (.arr .jac 362)) (.mul (.num 60624101724688606 17) (.mul (.rd (.var .jTemp)) (.neg (.num 14378791924458678 19))))),
  .set (.arr .jac 379) (.mul (.neg (.num 6936552231975418 17)) (.mul (.rd (.var .jTemp)) (.neg (.num 37418414277697654 18)))),
  .set (.arr .jac 380) (.add (.rd (.arr .jac 380)) (.mul (.num 3468276115987709 17) (.mul (.rd (.var .jTemp)) (.neg (.num 37418414277697654 18))))),
  .set (.arr .jac 381) (.add (.rd (.arr .jac 381)) (.mul (.neg (.num 55053214368051429 17)) (.mul (.rd (.var .jTemp)) (.neg (.num 37418414277697654 18))))),
  .set (.arr .jac 383) (.add (.rd (.arr .jac 383)) (.mul (.num 58521490484039129 17) (.mul (.rd (.var .jTemp)) (.neg (.num 37418414277697654 18))))),
  .set (.arr .jac 400) (.mul (.neg (.num 67040376938333812 18)) (.mul (.rd (.var .jTemp)) (.neg (.num 73398949362949439 18)))),
  .set (.arr .jac 401) (.add (.rd (.arr .jac 401)) (.mul (.num 33520188469166906 18) (.mul (.rd (.var .jTemp)) (.neg (.num 73398949362949439 18))))),
  .set (.arr .jac 402) (.add (.rd (.arr .jac 402)) (.mul (.neg (.num 5320782024660089 16)) (.mul (.rd (.var .jTemp)) (.neg (.num 73398949362949439 18))))),
  .set (.arr .jac 404) (.add (.rd (.arr .jac 404)) (.mul (.num 56559839093517583 17) (.mul (.rd (.var .jTemp)) (.neg (.num 73398949362949439 18))))),
  .set (.arr .jac 421) (.mul (.neg (.num 5046260138179634 17)) (.mul (.rd (.var .jTemp)) (.neg (.num 42602775520927771 17)))),
  .set (.arr .jac 422) (.add (.rd (.arr .jac 422)) (.mul (.num 2523130069089817 17) (.mul (.rd (.var .jTemp)) (.neg (.num 42602775520927771 17))))),
  .set (.arr .jac 423) (.add (.rd (.arr .jac 423)) (.mul (.neg (.num 4005056573545609 16)) (.mul (.rd (.var .jTemp)) (.neg (.num 42602775520927771 17))))),
  .set (.arr .jac 425) (.add (.rd (.arr .jac 425)) (.mul (.num 42573695804545908 17) (.mul (.rd (.var .jTemp)) (.neg (.num 42602775520927771 17)))))]

/-- utilities/mechanisms/drm19/lib/src/jacobs/jacob_0.c:196-202 -/
def jacobT2 : List CStmt := [
  .set (.var .jTemp) (.mul (.mul (.div (.num 1 0) (.rd (.var .T))) (.sub (.mul (.rd (.arr .fwd 2)) (.neg (.num 1 0))) (.mul (.rd (.arr .rev 2)) (.add (.neg (.num 1 0)) (.mul (.neg (.rd (.var .T))) (.sub (.sub (.add (.rd (.arr .dBdT 3)) (.rd (.arr .dBdT 4))) (.rd (.arr .dBdT 6))) (.rd (.arr .dBdT 2)))))))) (.rd (.var .rhoInv))),
  .set (.arr .jac 3) (.add (.rd (.arr .jac 3)) (.mul (.neg (.rd (.var .jTemp))) (.num 159994 4))),
  .set (.arr .jac 4) (.mul (.rd (.var .jTemp)) (.num 31998799999999999 15)),
  .set (.arr .jac 5) (.add (.rd (.arr .jac 5)) (.mul (.rd (.var .jTemp)) (.num 17007339999999999 15))),
  .set (.arr .jac 7) (.mul (.neg (.rd (.var .jTemp))) (.num 33006740000000001 15))]

/-- utilities/mechanisms/drm19/lib/src/jacobs/jacob_0.c:203-294 -/
def jacobS2 : List CStmt := [
  .ite (.rd (.var .T)) (.num 1000 0) (.var .Kc) (.sub (.add (.add (.neg (.num 25192523180000004 16)) (.mul (.num 30440668000000004 17) (.rd (.var .logT)))) (.mul (.rd (.var .T)) (.add (.num 13151938349999998 19) (.mul (.rd (.var .T)) (.add (.neg (.num 22226854399999996 22)) (.mul (.rd (.var .T)) (.add (.num 14035022683333334 25) (.mul (.neg (.num 33985339400000004 29)) (.rd (.var .T)))))))))) (.div (.neg (.num 26865930240000002 12)) (.rd (.var .T)))) (.sub (.add (.add (.num 15716927700000003 16) (.mul (.neg (.num 21120617000000053 17)) (.rd (.var .logT)))) (.mul (.rd (.var .T)) (.add (.neg (.num 61164380150000074 21)) (.mul (.rd (.var .T)) (.add (.neg (.num 66252916499999993 25)) (.mul (.rd (.var .T)) (.add (.num 14413174416666625 28) (.mul (.neg (.num 18401260499999993 33)) (.rd (.var .T)))))))))) (.div (.neg (.num 26559236532999999 12)) (.rd (.var .T)))),
  .set (.var .Kc) (.exp (.rd (.var .Kc))),
  .set (.var .jTemp) (.mul (.mul (.neg (.rd (.var .mwAvg))) (.rd (.var .rhoInv))) (.sub (.mul (.num 2 0) (.rd (.arr .fwd 2))) (.mul (.num 2 0) (.rd (.arr .rev 2))))),
  .set (.var .kf) (.num 20000000000 0),
  .set (.var .kr) (.div (.rd (.var .kf)) (.rd (.var .Kc))),
  .set (.arr .jac 24) (.add (.rd (.arr .jac 24)) (.mul (.neg (.num 79366827390519274 16)) (.mul (.rd (.var .jTemp)) (.num 92803892982949643 17)))),
  .set (.arr .jac 25) (.mul (.num 15873365478103855 15) (.mul (.rd (.var .jTemp)) (.num 92803892982949643 17))),
  .set (.arr .jac 26) (.add (.rd (.arr .jac 26)) (.mul (.num 84366827390519266 16) (.mul (.rd (.var .jTemp)) (.num 92803892982949643 17)))),
  .set (.arr .jac 28) (.mul (.neg (.num 16373365478103853 15)) (.mul (.rd (.var .jTemp)) (.num 92803892982949643 17))),
  .set (.arr .jac 45) (.add (.rd (.arr .jac 45)) (.mul (.neg (.num 15873365478103855 15)) (.mul (.rd (.var .jTemp)) (.num 96401946491474821 17)))),
  .set (.arr .jac 46) (.mul (.num 3174673095620771 14) (.mul (.rd (.var .jTemp)) (.num 96401946491474821 17))),
  .set (.arr .jac 47) (.add (.rd (.arr .jac 47)) (.mul (.num 16873365478103853 15) (.mul (.rd (.var .jTemp)) (.num 96401946491474821 17)))),
  .set (.arr .jac 49) (.mul (.neg (.num 32746730956207706 15)) (.mul (.rd (.var .jTemp)) (.num 96401946491474821 17))),
  .set (.arr .jac 66) (.add (.rd (.arr .jac 66)) (.neg (.add (.mul (.rd (.var .jTemp)) (.num 42886781649405936 17)) (.mul (.rd (.var .kf)) (.rd (.arr .C 6)))))),
  .set (.arr .jac 67) (.mul (.num 2 0) (.add (.mul (.rd (.var .jTemp)) (.num 42886781649405936 17)) (.mul (.rd (.var .kf)) (.rd (.arr .C 6))))),
  .set (.arr .jac 68) (.add (.rd (.arr .jac 68)) (.mul (.num 10629986124479667 16) (.add (.mul (.rd (.var .jTemp)) (.num 42886781649405936 17)) (.mul (.rd (.var .kf)) (.rd (.arr .C 6)))))),
  .set (.arr .jac 70) (.mul (.neg (.num 20629986124479669 16)) (.add (.mul (.rd (.var .jTemp)) (.num 42886781649405936 17)) (.mul (.rd (.var .kf)) (.rd (.arr .C 6))))),
  .set (.arr .jac 87) (.add (.rd (.arr .jac 87)) (.mul (.neg (.num 5 1)) (.sub (.mul (.rd (.var .jTemp)) (.neg (.num 14226436701188128 17))) (.mul (.rd (.var .kr)) (.rd (.arr .C 4)))))),
  .set (.arr .jac 88) (.sub (.mul (.rd (.var .jTemp)) (.neg (.num 14226436701188128 17))) (.mul (.rd (.var .kr)) (.rd (.arr .C 4)))),
  .set (.arr .jac 89) (.add (.rd (.arr .jac 89)) (.mul (.num 53149930622398334 17) (.sub (.mul (.rd (.var .jTemp)) (.neg (.num 14226436701188128 17))) (.mul (.rd (.var .kr)) (.rd (.arr .C 4)))))),
  .set (.arr .jac 91) (.mul (.neg (.num 10314993062239834 16)) (.sub (.mul (.rd (.var .jTemp)) (.neg (.num 14226436701188128 17))) (.mul (.rd (.var .kr)) (.rd (.arr .C 4))))),
  .set (.arr .jac 108) (.add (.rd (.arr .jac 108)) (.mul (.neg (.num 94073500029987056 17)) (.sub (.mul (.rd (.var .jTemp)) (.num 39288728140880758 17)) (.mul (.rd (.var .kr)) (.rd (.arr .C 3)))))),
  .set (.arr .jac 109) (.mul (.num 18814700005997411 16) (.sub (.mul (.rd (.var .jTemp)) (.num 39288728140880758 17)) (.mul (.rd (.var .kr)) (.rd (.arr .C 3))))),
  .set (.arr .jac 110) (.add (.rd (.arr .jac 110)) (.sub (.mul (.rd (.var .jTemp)) (.num 39288728140880758 17)) (.mul (.rd (.var .kr)) (.rd (.arr .C 3))))),
  .set (.arr .jac 112) (.mul (.neg (.num 19407350002998707 16)) (.sub (.mul (.rd (.var .jTemp)) (.num 39288728140880758 17)) (.mul (.rd (.var .kr)) (.rd (.arr .C 3))))),
  .set (.arr .jac 129) (.add (.rd (.arr .jac 129)) (.mul (.neg (.num 88810165592763468 17)) (.mul (.rd (.var .jTemp)) (.num 35690674632355568 17)))),
  .set (.arr .jac 130) (.mul (.num 17762033118552694 16) (.mul (.rd (.var .jTemp)) (.num 35690674632355568 17))),
  .set (.arr .jac 131) (.add (.rd (.arr .jac 131)) (.mul (.num 94405082796381734 17) (.mul (.rd (.var .jTemp)) (.num 35690674632355568 17)))),
  .set (.arr .jac 133) (.mul (.neg (.num 1832152483891452 15)) (.mul (.rd (.var .jTemp)) (.num 35690674632355568 17))),
  .set (.arr .jac 150) (.add (.rd (.arr .jac 150)) (.mul (.neg (.num 48473130033441653 17)) (.add (.mul (.rd (.var .jTemp)) (.neg (.num 17824490209713328 17))) (.mul (.rd (.var .kf)) (.rd (.arr .C 2)))))),
  .set (.arr .jac 151) (.mul (.num 96946260066883305 17) (.add (.mul (.rd (.var .jTemp)) (.neg (.num 17824490209713328 17))) (.mul (.rd (.var .kf)) (.rd (.arr .C 2))))),
  .set (.arr .jac 152) (.add (.rd (.arr .jac 152)) (.mul (.num 51526869966558342 17) (.add (.mul (.rd (.var .jTemp)) (.neg (.num 17824490209713328 17))) (.mul (.rd (.var .kf)) (.rd (.arr .C 2)))))),
  .set (.arr .jac 154) (.neg (.add (.mul (.rd (.var .jTemp)) (.neg (.num 17824490209713328 17))) (.mul (.rd (.var .kf)) (.rd (.arr .C 2))))),
  .set (.arr .jac 171) (.add (.rd (.arr .jac 171)) (.mul (.neg (.num 11406242870830863 16)) (.mul (.rd (.var .jTemp)) (.num 49928106040377707 17)))),
  .set (.arr .jac 172) (.mul (.num 22812485741661725 16) (.mul (.rd (.var .jTemp)) (.num 49928106040377707 17))),
  .set (.arr .jac 173) (.add (.rd (.arr .jac 173)) (.mul (.num 12124820344937721 16) (.mul (.rd (.var .jTemp)) (.num 49928106040377707 17)))),
  .set (.arr .jac 175) (.mul (.neg (.num 23531063215768584 16)) (.mul (.rd (.var .jTemp)) (.num 49928106040377707 17))),
  .set (.arr .jac 192) (.add (.rd (.arr .jac 192)) (.mul (.neg (.num 11406242870830863 16)) (.mul (.rd (.var .jTemp)) (.num 49928106040377707 17)))),
  .set (.arr .jac 193) (.mul (.num 22812485741661725 16) (.mul (.rd (.var .jTemp)) (.num 49928106040377707 17))),
  .set (.arr .jac 194) (.add (.rd (.arr .jac 194)) (.mul (.num 12124820344937721 16) (.mul (.rd (.var .jTemp)) (.num 49928106040377707 17)))),
  .set (.arr .jac 196) (.mul (.neg (.num 23531063215768584 16)) (.mul (.rd (.var .jTemp)) (.num 49928106040377707 17))),
  .set (.arr .jac 213) (.add (.rd (.arr .jac 213)) (.mul (.neg (.num 10641564049320178 16)) (.mul (.rd (.var .jTemp)) (.num 46330052531852528 17)))),
  .set (.arr .jac 214) (.mul (.num 21283128098640356 16) (.mul (.rd (.var .jTemp)) (.num 46330052531852528 17))),
  .set (.arr .jac 215) (.add (.rd (.arr .jac 215)) (.mul (.num 11311967818703517 16) (.mul (.rd (.var .jTemp)) (.num 46330052531852528 17)))),
  .set (.arr .jac 217) (.mul (.neg (.num 21953531868023695 16)) (.mul (.rd (.var .jTemp)) (.num 46330052531852528 17))),
  .set (.arr .jac 234) (.add (.rd (.arr .jac 234)) (.mul (.neg (.num 99729722317107516 17)) (.mul (.rd (.var .jTemp)) (.num 42731999023327338 17)))),
  .set (.arr .jac 235) (.mul (.num 19945944463421503 16) (.mul (.rd (.var .jTemp)) (.num 42731999023327338 17))),
  .set (.arr .jac 236) (.add (.rd (.arr .jac 236)) (.mul (.num 10601255644290632 16) (.mul (.rd (.var .jTemp)) (.num 42731999023327338 17)))),
  .set (.arr .jac 238) (.mul (.neg (.num 20574227876001383 16)) (.mul (.rd (.var .jTemp)) (.num 42731999023327338 17))),
  .set (.arr .jac 255) (.add (.rd (.arr .jac 255)) (.mul (.neg (.num 57119498471996122 17)) (.mul (.rd (.var .jTemp)) (.num 10994706834011048 20)))),
  .set (.arr .jac 256) (.mul (.num 11423899694399224 16) (.mul (.rd (.var .jTemp)) (.num 10994706834011048 20))),
  .set (.arr .jac 257) (.add (.rd (.arr .jac 257)) (.mul (.num 60717947619455637 17) (.mul (.rd (.var .jTemp)) (.num 10994706834011048 20)))),
  .set (.arr .jac 259) (.mul (.neg (.num 11783744609145177 16)) (.mul (.rd (.var .jTemp)) (.num 10994706834011048 20))),
  .set (.arr .jac 276) (.add (.rd (.arr .jac 276)) (.mul (.neg (.num 36354175660875532 17)) (.mul (.rd (.var .jTemp)) (.neg (.num 57102223643760053 17))))),
  .set (.arr .jac 277) (.mul (.num 72708351321751064 17) (.mul (.rd (.var .jTemp)) (.neg (.num 57102223643760053 17)))),
  .set (.arr .jac 278) (.add (.rd (.arr .jac 278)) (.mul (.num 38644438284200339 17) (.mul (.rd (.var .jTemp)) (.neg (.num 57102223643760053 17))))),
  .set (.arr .jac 280) (.mul (.neg (.num 74998613945075876 17)) (.mul (.rd (.var .jTemp)) (.neg (.num 57102223643760053 17)))),
  .set (.arr .jac 297) (.add (.rd (.arr .jac 297)) (.mul (.neg (.num 55135476391826688 17)) (.mul (.rd (.var .jTemp)) (.neg (.num 35870588016911675 18))))),
  .set (.arr .jac 298) (.mul (.num 11027095278365338 16) (.mul (.rd (.var .jTemp)) (.neg (.num 35870588016911675 18)))),
  .set (.arr .jac 299) (.add (.rd (.arr .jac 299)) (.mul (.num 58608934901169396 17) (.mul (.rd (.var .jTemp)) (.neg (.num 35870588016911675 18))))),
  .set (.arr .jac 301) (.mul (.neg (.num 11374441129299608 16)) (.mul (.rd (.var .jTemp)) (.neg (.num 35870588016911675 18)))),
  .set (.arr .jac 318) (.add (.rd (.arr .jac 318)) (.mul (.neg (.num 53284655974699491 17)) (.mul (.rd (.var .jTemp)) (.neg (.num 71851123102163683 18))))),
  .set (.arr .jac 319) (.mul (.num 10656931194939898 16) (.mul (.rd (.var .jTemp)) (.neg (.num 71851123102163683 18)))),
  .set (.arr .jac 320) (.add (.rd (.arr .jac 320)) (.mul (.num 5664151536587283 16) (.mul (.rd (.var .jTemp)) (.neg (.num 71851123102163683 18))))),
  .set (.arr .jac 322) (.mul (.neg (.num 10992617134057232 16)) (.mul (.rd (.var .jTemp)) (.neg (.num 71851123102163683 18)))),
  .set (.arr .jac 339) (.add (.rd (.arr .jac 339)) (.mul (.neg (.num 5155405871325266 16)) (.mul (.rd (.var .jTemp)) (.neg (.num 10783165818741525 17))))),
  .set (.arr .jac 340) (.mul (.num 10310811742650532 16) (.mul (.rd (.var .jTemp)) (.neg (.num 10783165818741525 17)))),
  .set (.arr .jac 341) (.add (.rd (.arr .jac 341)) (.mul (.num 54801892878248593 17) (.mul (.rd (.var .jTemp)) (.neg (.num 10783165818741525 17))))),
  .set (.arr .jac 343) (.mul (.neg (.num 10635595159150126 16)) (.mul (.rd (.var .jTemp)) (.neg (.num 10783165818741525 17)))),
  .set (.arr .jac 360) (.add (.rd (.arr .jac 360)) (.mul (.neg (.num 57031214354154314 17)) (.mul (.rd (.var .jTemp)) (.neg (.num 14378791924458678 19))))),
  .set (.arr .jac 361) (.mul (.num 11406242870830863 16) (.mul (.rd (.var .jTemp)) (.neg (.num 14378791924458678 19)))),
  .set (.arr .jac 362) (.add (.rd (.arr .jac 362)) (.mul (.num 60624101724688606 17) (.mul (.rd (.var .jTemp)) (.neg (.num 14378791924458678 19))))),
  .set (.arr .jac 364) (.mul (.neg (.num 11765531607884292 16)) (.mul (.rd (.var .jTemp)) (.neg (.num 14378791924458678 19)))),
  .set (.arr .jac 381) (.add (.rd (.arr .jac 381)) (.mul (.neg (.num 55053214368051429 17)) (.mul (.rd (.var .jTemp)) (.neg (.num 37418414277697654 18))))),
  .set (.arr .jac 382) (.mul (.num 11010642873610286 16) (.mul (.rd (.var .jTemp)) (.neg (.num 37418414277697654 18)))),
  .set (.arr .jac 383) (.add (.rd (.arr .jac 383)) (.mul (.num 58521490484039129 17) (.mul (.rd (.var .jTemp)) (.neg (.num 37418414277697654 18))))),
  .set (.arr .jac 385) (.mul (.neg (.num 11357470485209056 16)) (.mul (.rd (.var .jTemp)) (.neg (.num 37418414277697654 18)))),
  .set (.arr .jac 402) (.add (.rd (.arr .jac 402)) (.mul (.neg (.num 5320782024660089 16)) (.mul (.rd (.var .jTemp)) (.neg (.num 73398949362949439 18))))),
  .set (.arr .jac 403) (.mul (.num 10641564049320178 16) (.mul (.rd (.var .jTemp)) (.neg (.num 73398949362949439 18)))),
  .set (.arr .jac 404) (.add (.rd (.arr .jac 404)) (.mul (.num 56559839093517583 17) (.mul (.rd (.var .jTemp)) (.neg (.num 73398949362949439 18))))),
  .set (.arr .jac 406) (.mul (.neg (.num 10976765934011847 16)) (.mul (.rd (.var .jTemp)) (.neg (.num 73398949362949439 18)))),
  .set (.arr .jac 423) (.add (.rd (.arr .jac 423)) (.mul (.neg (.num 4005056573545609 16)) (.mul (.rd (.var .jTemp)) (.neg (.num 42602775520927771 17))))),
  .set (.arr .jac 424) (.mul (.num 80101131470912179 17) (.mul (.rd (.var .jTemp)) (.neg (.num 42602775520927771 17)))),
  .set (.arr .jac 425) (.add (.rd (.arr .jac 425)) (.mul (.num 42573695804545908 17) (.mul (.rd (.var .jTemp)) (.neg (.num 42602775520927771 17))))),
  .set (.arr .jac 427) (.mul (.neg (.num 82624261540002009 17)) (.mul (.rd (.var .jTemp)) (.neg (.num 42602775520927771 17))))]

/-- utilities/mechanisms/drm19/lib/src/jacobs/jacob_0.c:295-301 -/
def jacobT3 : List CStmt := [
  .set (.var .jTemp) (.mul (.mul (.div (.num 1 0) (.rd (.var .T))) (.sub (.mul (.rd (.arr .fwd 3)) (.neg (.num 1 0))) (.mul (.rd (.arr .rev 3)) (.add (.neg (.num 1 0)) (.mul (.neg (.rd (.var .T))) (.sub (.sub (.add (.rd (.arr .dBdT 1)) (.rd (.arr .dBdT 13))) (.rd (.arr .dBdT 7))) (.rd (.arr .dBdT 2)))))))) (.rd (.var .rhoInv))),
  .set (.arr .jac 2) (.add (.rd (.arr .jac 2)) (.mul (.rd (.var .jTemp)) (.num 10079400000000001 16))),
  .set (.arr .jac 3) (.add (.rd (.arr .jac 3)) (.mul (.neg (.rd (.var .jTemp))) (.num 159994 4))),
  .set (.arr .jac 14) (.mul (.rd (.var .jTemp)) (.num 29018339999999998 15)),
  .set (.arr .jac 8) (.mul (.neg (.rd (.var .jTemp))) (.num 14026879999999998 15))]

/-- utilities/mechanisms/drm19/lib/src/jacobs/jacob_0.c:302-393 -/
def jacobS3 : List CStmt := [
  .ite (.rd (.var .T)) (.num 1000 0) (.var .Kc) (.sub (.add (.add (.neg (.num 457015803 9)) (.mul (.neg (.num 20975992999999971 17)) (.rd (.var .logT)))) (.mul (.rd (.var .T)) (.add (.neg (.num 46673931114733357 20)) (.mul (.rd (.var .T)) (.add (.num 72366370466734655 23) (.mul (.rd (.var .T)) (.add (.neg (.num 2779526273082653 25)) (.mul (.num 26880587453613394 30) (.rd (.var .T)))))))))) (.div (.neg (.num 45813074439999997 12)) (.rd (.var .T)))) (.sub (.add (.add (.neg (.num 14325223539999992 16)) (.mul (.neg (.num 17134752000000031 17)) (.rd (.var .logT)))) (.mul (.rd (.var .T)) (.add (.num 69326821530785111 20) (.mul (.rd (.var .T)) (.add (.neg (.num 18624310045730086 23)) (.mul (.rd (.var .T)) (.add (.num 28250000347070641 27) (.mul (.neg (.num 17903225405901325 31)) (.rd (.var .T)))))))))) (.div (.neg (.num 45995605049999998 12)) (.rd (.var .T)))),
  .set (.var .Kc) (.exp (.rd (.var .Kc))),
  .set (.var .jTemp) (.mul (.mul (.neg (.rd (.var .mwAvg))) (.rd (.var .rhoInv))) (.sub (.mul (.num 2 0) (.rd (.arr .fwd 3))) (.mul (.num 2 0) (.rd (.arr .rev 3))))),
  .set (.var .kf) (.num 80000000000 0),
  .set (.var .kr) (.div (.rd (.var .kf)) (.rd (.var .Kc))),
  .set (.arr .jac 23) (.add (.rd (.arr .jac 23)) (.mul (.num 5 1) (.mul (.rd (.var .jTemp)) (.num 92803892982949643 17)))),
  .set (.arr .jac 24) (.add (.rd (.arr .jac 24)) (.mul (.neg (.num 79366827390519274 16)) (.mul (.rd (.var .jTemp)) (.num 92803892982949643 17)))),
  .set (.arr .jac 35) (.mul (.num 14394874694922315 15) (.mul (.rd (.var .jTemp)) (.num 92803892982949643 17))),
  .set (.arr .jac 29) (.mul (.neg (.num 69581919558703875 16)) (.mul (.rd (.var .jTemp)) (.num 92803892982949643 17))),
  .set (.arr .jac 44) (.add (.rd (.arr .jac 44)) (.sub (.mul (.rd (.var .jTemp)) (.num 96401946491474821 17)) (.mul (.rd (.var .kr)) (.rd (.arr .C 13))))),
  .set (.arr .jac 45) (.add (.rd (.arr .jac 45)) (.mul (.neg (.num 15873365478103855 15)) (.sub (.mul (.rd (.var .jTemp)) (.num 96401946491474821 17)) (.mul (.rd (.var .kr)) (.rd (.arr .C 13)))))),
  .set (.arr .jac 56) (.mul (.num 2878974938984463 14) (.sub (.mul (.rd (.var .jTemp)) (.num 96401946491474821 17)) (.mul (.rd (.var .kr)) (.rd (.arr .C 13))))),
  .set (.arr .jac 50) (.mul (.neg (.num 13916383911740775 15)) (.sub (.mul (.rd (.var .jTemp)) (.num 96401946491474821 17)) (.mul (.rd (.var .kr)) (.rd (.arr .C 13))))),
  .set (.arr .jac 65) (.add (.rd (.arr .jac 65)) (.mul (.num 62998612447966798 18) (.add (.mul (.rd (.var .jTemp)) (.num 42886781649405936 17)) (.mul (.rd (.var .kf)) (.rd (.arr .C 7)))))),
  .set (.arr .jac 66) (.add (.rd (.arr .jac 66)) (.neg (.add (.mul (.rd (.var .jTemp)) (.num 42886781649405936 17)) (.mul (.rd (.var .kf)) (.rd (.arr .C 7)))))),
  .set (.arr .jac 77) (.mul (.num 18137142642849107 16) (.add (.mul (.rd (.var .jTemp)) (.num 42886781649405936 17)) (.mul (.rd (.var .kf)) (.rd (.arr .C 7))))),
  .set (.arr .jac 71) (.mul (.neg (.num 87671287673287746 17)) (.add (.mul (.rd (.var .jTemp)) (.num 42886781649405936 17)) (.mul (.rd (.var .kf)) (.rd (.arr .C 7))))),
  .set (.arr .jac 86) (.add (.rd (.arr .jac 86)) (.mul (.num 31499306223983399 18) (.mul (.rd (.var .jTemp)) (.neg (.num 14226436701188128 17))))),
  .set (.arr .jac 87) (.add (.rd (.arr .jac 87)) (.mul (.neg (.num 5 1)) (.mul (.rd (.var .jTemp)) (.neg (.num 14226436701188128 17))))),
  .set (.arr .jac 98) (.mul (.num 90685713214245534 17) (.mul (.rd (.var .jTemp)) (.neg (.num 14226436701188128 17)))),
  .set (.arr .jac 92) (.mul (.neg (.num 43835643836643873 17)) (.mul (.rd (.var .jTemp)) (.neg (.num 14226436701188128 17)))),
  .set (.arr .jac 107) (.add (.rd (.arr .jac 107)) (.mul (.num 59264999700129481 18) (.mul (.rd (.var .jTemp)) (.num 39288728140880758 17)))),
  .set (.arr .jac 108) (.add (.rd (.arr .jac 108)) (.mul (.neg (.num 94073500029987056 17)) (.mul (.rd (.var .jTemp)) (.num 39288728140880758 17)))),
  .set (.arr .jac 119) (.mul (.num 17062244889559448 16) (.mul (.rd (.var .jTemp)) (.num 39288728140880758 17))),
  .set (.arr .jac 113) (.mul (.neg (.num 8247544883562038 16)) (.mul (.rd (.var .jTemp)) (.num 39288728140880758 17))),
  .set (.arr .jac 128) (.add (.rd (.arr .jac 128)) (.mul (.num 55949172036182618 18) (.mul (.rd (.var .jTemp)) (.num 35690674632355568 17)))),
  .set (.arr .jac 129) (.add (.rd (.arr .jac 129)) (.mul (.neg (.num 88810165592763468 17)) (.mul (.rd (.var .jTemp)) (.num 35690674632355568 17)))),
  .set (.arr .jac 140) (.mul (.num 16107626414910008 16) (.mul (.rd (.var .jTemp)) (.num 35690674632355568 17))),
  .set (.arr .jac 134) (.mul (.neg (.num 77861015759954877 17)) (.mul (.rd (.var .jTemp)) (.num 35690674632355568 17))),
  .set (.arr .jac 149) (.add (.rd (.arr .jac 149)) (.mul (.num 3053739933116691 17) (.mul (.rd (.var .jTemp)) (.neg (.num 17824490209713328 17))))),
  .set (.arr .jac 150) (.add (.rd (.arr .jac 150)) (.mul (.neg (.num 48473130033441653 17)) (.mul (.rd (.var .jTemp)) (.neg (.num 17824490209713328 17))))),
  .set (.arr .jac 161) (.mul (.num 87916407376190431 17) (.mul (.rd (.var .jTemp)) (.neg (.num 17824490209713328 17)))),
  .set (.arr .jac 155) (.mul (.neg (.num 42497017275865467 17)) (.mul (.rd (.var .jTemp)) (.neg (.num 17824490209713328 17)))),
  .set (.arr .jac 170) (.add (.rd (.arr .jac 170)) (.mul (.num 71857747410685777 18) (.add (.mul (.rd (.var .jTemp)) (.num 49928106040377707 17)) (.mul (.rd (.var .kf)) (.rd (.arr .C 2)))))),
  .set (.arr .jac 171) (.add (.rd (.arr .jac 171)) (.mul (.neg (.num 11406242870830863 16)) (.add (.mul (.rd (.var .jTemp)) (.num 49928106040377707 17)) (.mul (.rd (.var .kf)) (.rd (.arr .C 2)))))),
  .set (.arr .jac 182) (.mul (.num 20687665396724007 16) (.add (.mul (.rd (.var .jTemp)) (.num 49928106040377707 17)) (.mul (.rd (.var .kf)) (.rd (.arr .C 2))))),
  .set (.arr .jac 176) (.neg (.add (.mul (.rd (.var .jTemp)) (.num 49928106040377707 17)) (.mul (.rd (.var .kf)) (.rd (.arr .C 2))))),
  .set (.arr .jac 191) (.add (.rd (.arr .jac 191)) (.mul (.num 71857747410685777 18) (.mul (.rd (.var .jTemp)) (.num 49928106040377707 17)))),
  .set (.arr .jac 192) (.add (.rd (.arr .jac 192)) (.mul (.neg (.num 11406242870830863 16)) (.mul (.rd (.var .jTemp)) (.num 49928106040377707 17)))),
  .set (.arr .jac 203) (.mul (.num 20687665396724007 16) (.mul (.rd (.var .jTemp)) (.num 49928106040377707 17))),
  .set (.arr .jac 197) (.neg (.mul (.rd (.var .jTemp)) (.num 49928106040377707 17))),
  .set (.arr .jac 212) (.add (.rd (.arr .jac 212)) (.mul (.num 67040376938333812 18) (.mul (.rd (.var .jTemp)) (.num 46330052531852528 17)))),
  .set (.arr .jac 213) (.add (.rd (.arr .jac 213)) (.mul (.neg (.num 10641564049320178 16)) (.mul (.rd (.var .jTemp)) (.num 46330052531852528 17)))),
  .set (.arr .jac 224) (.mul (.num 19300756510553501 16) (.mul (.rd (.var .jTemp)) (.num 46330052531852528 17))),
  .set (.arr .jac 218) (.mul (.neg (.num 93295962306166613 17)) (.mul (.rd (.var .jTemp)) (.num 46330052531852528 17))),
  .set (.arr .jac 233) (.add (.rd (.arr .jac 233)) (.mul (.num 6282834125798803 17) (.mul (.rd (.var .jTemp)) (.num 42731999023327338 17)))),
  .set (.arr .jac 234) (.add (.rd (.arr .jac 234)) (.mul (.neg (.num 99729722317107516 17)) (.mul (.rd (.var .jTemp)) (.num 42731999023327338 17)))),
  .set (.arr .jac 245) (.mul (.num 18088121993971109 16) (.mul (.rd (.var .jTemp)) (.num 42731999023327338 17))),
  .set (.arr .jac 239) (.mul (.neg (.num 87434331748402383 17)) (.mul (.rd (.var .jTemp)) (.num 42731999023327338 17))),
  .set (.arr .jac 254) (.add (.rd (.arr .jac 254)) (.mul (.num 35984491474595155 18) (.mul (.rd (.var .jTemp)) (.num 10994706834011048 20)))),
  .set (.arr .jac 255) (.add (.rd (.arr .jac 255)) (.mul (.neg (.num 57119498471996122 17)) (.mul (.rd (.var .jTemp)) (.num 10994706834011048 20)))),
  .set (.arr .jac 266) (.mul (.num 10359844914745953 16) (.mul (.rd (.var .jTemp)) (.num 10994706834011048 20))),
  .set (.arr .jac 260) (.mul (.neg (.num 50077399822922919 17)) (.mul (.rd (.var .jTemp)) (.num 10994706834011048 20))),
  .set (.arr .jac 275) (.add (.rd (.arr .jac 275)) (.mul (.num 22902626233248052 18) (.mul (.rd (.var .jTemp)) (.neg (.num 57102223643760053 17))))),
  .set (.arr .jac 276) (.add (.rd (.arr .jac 276)) (.mul (.neg (.num 36354175660875532 17)) (.mul (.rd (.var .jTemp)) (.neg (.num 57102223643760053 17))))),
  .set (.arr .jac 287) (.mul (.num 6593608696244927 16) (.mul (.rd (.var .jTemp)) (.neg (.num 57102223643760053 17)))),
  .set (.arr .jac 281) (.mul (.neg (.num 31872173924898545 17)) (.mul (.rd (.var .jTemp)) (.neg (.num 57102223643760053 17)))),
  .set (.arr .jac 296) (.add (.rd (.arr .jac 296)) (.mul (.num 34734585093427126 18) (.sub (.mul (.rd (.var .jTemp)) (.neg (.num 35870588016911675 18))) (.mul (.rd (.var .kr)) (.rd (.arr .C 1)))))),
  .set (.arr .jac 297) (.add (.rd (.arr .jac 297)) (.mul (.neg (.num 55135476391826688 17)) (.sub (.mul (.rd (.var .jTemp)) (.neg (.num 35870588016911675 18))) (.mul (.rd (.var .kr)) (.rd (.arr .C 1)))))),
  .set (.arr .jac 308) (.sub (.mul (.rd (.var .jTemp)) (.neg (.num 35870588016911675 18))) (.mul (.rd (.var .kr)) (.rd (.arr .C 1)))),
  .set (.arr .jac 302) (.mul (.neg (.num 48337982117516021 17)) (.sub (.mul (.rd (.var .jTemp)) (.neg (.num 35870588016911675 18))) (.mul (.rd (.var .kr)) (.rd (.arr .C 1))))),
  .set (.arr .jac 317) (.add (.rd (.arr .jac 317)) (.mul (.num 33568593911733322 18) (.mul (.rd (.var .jTemp)) (.neg (.num 71851123102163683 18))))),
  .set (.arr .jac 318) (.add (.rd (.arr .jac 318)) (.mul (.neg (.num 53284655974699491 17)) (.mul (.rd (.var .jTemp)) (.neg (.num 71851123102163683 18))))),
  .set (.arr .jac 329) (.mul (.num 96643140608826661 17) (.mul (.rd (.var .jTemp)) (.neg (.num 71851123102163683 18)))),
  .set (.arr .jac 323) (.mul (.neg (.num 46715344025300498 17)) (.mul (.rd (.var .jTemp)) (.neg (.num 71851123102163683 18)))),
  .set (.arr .jac 338) (.add (.rd (.arr .jac 338)) (.mul (.num 32478341649959309 18) (.mul (.rd (.var .jTemp)) (.neg (.num 10783165818741525 17))))),
  .set (.arr .jac 339) (.add (.rd (.arr .jac 339)) (.mul (.neg (.num 5155405871325266 16)) (.mul (.rd (.var .jTemp)) (.neg (.num 10783165818741525 17))))),
  .set (.arr .jac 350) (.mul (.num 93504331670008145 17) (.mul (.rd (.var .jTemp)) (.neg (.num 10783165818741525 17)))),
  .set (.arr .jac 344) (.mul (.neg (.num 45198107121751407 17)) (.mul (.rd (.var .jTemp)) (.neg (.num 10783165818741525 17)))),
  .set (.arr .jac 359) (.add (.rd (.arr .jac 359)) (.mul (.num 35928873705342888 18) (.mul (.rd (.var .jTemp)) (.neg (.num 14378791924458678 19))))),
  .set (.arr .jac 360) (.add (.rd (.arr .jac 360)) (.mul (.neg (.num 57031214354154314 17)) (.mul (.rd (.var .jTemp)) (.neg (.num 14378791924458678 19))))),
  .set (.arr .jac 371) (.mul (.num 10343832698362003 16) (.mul (.rd (.var .jTemp)) (.neg (.num 14378791924458678 19)))),
  .set (.arr .jac 365) (.mul (.neg (.num 5 1)) (.mul (.rd (.var .jTemp)) (.neg (.num 14378791924458678 19)))),
  .set (.arr .jac 380) (.add (.rd (.arr .jac 380)) (.mul (.num 3468276115987709 17) (.mul (.rd (.var .jTemp)) (.neg (.num 37418414277697654 18))))),
  .set (.arr .jac 381) (.add (.rd (.arr .jac 381)) (.mul (.neg (.num 55053214368051429 17)) (.mul (.rd (.var .jTemp)) (.neg (.num 37418414277697654 18))))),
  .set (.arr .jac 392) (.mul (.num 99850800194069855 17) (.mul (.rd (.var .jTemp)) (.neg (.num 37418414277697654 18)))),
  .set (.arr .jac 386) (.mul (.neg (.num 48265861942006144 17)) (.mul (.rd (.var .jTemp)) (.neg (.num 37418414277697654 18)))),
  .set (.arr .jac 401) (.add (.rd (.arr .jac 401)) (.mul (.num 33520188469166906 18) (.mul (.rd (.var .jTemp)) (.neg (.num 73398949362949439 18))))),
  .set (.arr .jac 402) (.add (.rd (.arr .jac 402)) (.mul (.neg (.num 5320782024660089 16)) (.mul (.rd (.var .jTemp)) (.neg (.num 73398949362949439 18))))),
  .set (.arr .jac 413) (.mul (.num 96503782552767503 17) (.mul (.rd (.var .jTemp)) (.neg (.num 73398949362949439 18)))),
  .set (.arr .jac 407) (.mul (.neg (.num 46647981153083307 17)) (.mul (.rd (.var .jTemp)) (.neg (.num 73398949362949439 18)))),
  .set (.arr .jac 422) (.add (.rd (.arr .jac 422)) (.mul (.num 2523130069089817 17) (.mul (.rd (.var .jTemp)) (.neg (.num 42602775520927771 17))))),
  .set (.arr .jac 423) (.add (.rd (.arr .jac 423)) (.mul (.neg (.num 4005056573545609 16)) (.mul (.rd (.var .jTemp)) (.neg (.num 42602775520927771 17))))),
  .set (.arr .jac 434) (.mul (.num 72640282367077191 17) (.mul (.rd (.var .jTemp)) (.neg (.num 42602775520927771 17)))),
  .set (.arr .jac 428) (.mul (.neg (.num 3511284670071092 16)) (.mul (.rd (.var .jTemp)) (.neg (.num 42602775520927771 17))))]

/-- utilities/mechanisms/drm19/lib/src/jacobs/jacob_0.c:394-400 -/
def jacobT4 : List CStmt := [
  .set (.var .jTemp) (.mul (.mul (.div (.num 1 0) (.rd (.var .T))) (.sub (.mul (.rd (.arr .fwd 4)) (.neg (.num 1 0))) (.mul (.rd (.arr .rev 4)) (.add (.neg (.num 1 0)) (.mul (.neg (.rd (.var .T))) (.sub (.sub (.add (.rd (.arr .dBdT 1)) (.rd (.arr .dBdT 13))) (.rd (.arr .dBdT 8))) (.rd (.arr .dBdT 2)))))))) (.rd (.var .rhoInv))),
  .set (.arr .jac 9) (.mul (.neg (.rd (.var .jTemp))) (.num 14026879999999998 15)),
  .set (.arr .jac 2) (.add (.rd (.arr .jac 2)) (.mul (.rd (.var .jTemp)) (.num 10079400000000001 16))),
  .set (.arr .jac 3) (.add (.rd (.arr .jac 3)) (.mul (.neg (.rd (.var .jTemp))) (.num 159994 4))),
  .set (.arr .jac 14) (.add (.rd (.arr .jac 14)) (.mul (.rd (.var .jTemp)) (.num 29018339999999998 15)))]

/-- utilities/mechanisms/drm19/lib/src/jacobs/jacob_0.c:401-492 -/
def jacobS4 : List CStmt := [
  .ite (.rd (.var .T)) (.num 1000 0) (.var .Kc) (.sub (.add (.add (.num 23105604539999995 16) (.mul (.neg (.num 64568536999999937 17)) (.rd (.var .logT)))) (.mul (.rd (.var .T)) (.add (.num 12010038553526665 19) (.mul (.rd (.var .T)) (.add (.neg (.num 18268026033265348 23)) (.mul (.rd (.var .T)) (.add (.neg (.num 41515270641598609 27)) (.mul (.num 14094078453613402 30) (.rd (.var .T)))))))))) (.div (.neg (.num 50305850639999997 12)) (.rd (.var .T)))) (.sub (.add (.add (.neg (.num 44698935139999998 16)) (.mul (.num 4107151899999999 16) (.rd (.var .logT)))) (.mul (.rd (.var .T)) (.add (.num 19352149030785106 20) (.mul (.rd (.var .T)) (.add (.neg (.num 85747517123967536 24)) (.mul (.rd (.var .T)) (.add (.num 15106129430403969 27) (.mul (.neg (.num 10303785505901323 31)) (.rd (.var .T)))))))))) (.div (.neg (.num 50658000750000007 12)) (.rd (.var .T)))),
  .set (.var .Kc) (.exp (.rd (.var .Kc))),
  .set (.var .jTemp) (.mul (.mul (.neg (.rd (.var .mwAvg))) (.rd (.var .rhoInv))) (.sub (.mul (.num 2 0) (.rd (.arr .fwd 4))) (.mul (.num 2 0) (.rd (.arr .rev 4))))),
  .set (.var .kf) (.num 15000000000 0),
  .set (.var .kr) (.div (.rd (.var .kf)) (.rd (.var .Kc))),
  .set (.arr .jac 30) (.mul (.neg (.num 69581919558703875 16)) (.mul (.rd (.var .jTemp)) (.num 92803892982949643 17))),
  .set (.arr .jac 23) (.add (.rd (.arr .jac 23)) (.mul (.num 5 1) (.mul (.rd (.var .jTemp)) (.num 92803892982949643 17)))),
  .set (.arr .jac 24) (.add (.rd (.arr .jac 24)) (.mul (.neg (.num 79366827390519274 16)) (.mul (.rd (.var .jTemp)) (.num 92803892982949643 17)))),
  .set (.arr .jac 35) (.add (.rd (.arr .jac 35)) (.mul (.num 14394874694922315 15) (.mul (.rd (.var .jTemp)) (.num 92803892982949643 17)))),
  .set (.arr .jac 51) (.mul (.neg (.num 13916383911740775 15)) (.sub (.mul (.rd (.var .jTemp)) (.num 96401946491474821 17)) (.mul (.rd (.var .kr)) (.rd (.arr .C 13))))),
  .set (.arr .jac 44) (.add (.rd (.arr .jac 44)) (.sub (.mul (.rd (.var .jTemp)) (.num 96401946491474821 17)) (.mul (.rd (.var .kr)) (.rd (.arr .C 13))))),
  .set (.arr .jac 45) (.add (.rd (.arr .jac 45)) (.mul (.neg (.num 15873365478103855 15)) (.sub (.mul (.rd (.var .jTemp)) (.num 96401946491474821 17)) (.mul (.rd (.var .kr)) (.rd (.arr .C 13)))))),
  .set (.arr .jac 56) (.add (.rd (.arr .jac 56)) (.mul (.num 2878974938984463 14) (.sub (.mul (.rd (.var .jTemp)) (.num 96401946491474821 17)) (.mul (.rd (.var .kr)) (.rd (.arr .C 13)))))),
  .set (.arr .jac 72) (.mul (.neg (.num 87671287673287746 17)) (.add (.mul (.rd (.var .jTemp)) (.num 42886781649405936 17)) (.mul (.rd (.var .kf)) (.rd (.arr .C 8))))),
  .set (.arr .jac 65) (.add (.rd (.arr .jac 65)) (.mul (.num 62998612447966798 18) (.add (.mul (.rd (.var .jTemp)) (.num 42886781649405936 17)) (.mul (.rd (.var .kf)) (.rd (.arr .C 8)))))),
  .set (.arr .jac 66) (.add (.rd (.arr .jac 66)) (.neg (.add (.mul (.rd (.var .jTemp)) (.num 42886781649405936 17)) (.mul (.rd (.var .kf)) (.rd (.arr .C 8)))))),
  .set (.arr .jac 77) (.add (.rd (.arr .jac 77)) (.mul (.num 18137142642849107 16) (.add (.mul (.rd (.var .jTemp)) (.num 42886781649405936 17)) (.mul (.rd (.var .kf)) (.rd (.arr .C 8)))))),
  .set (.arr .jac 93) (.mul (.neg (.num 43835643836643873 17)) (.mul (.rd (.var .jTemp)) (.neg (.num 14226436701188128 17)))),
  .set (.arr .jac 86) (.add (.rd (.arr .jac 86)) (.mul (.num 31499306223983399 18) (.mul (.rd (.var .jTemp)) (.neg (.num 14226436701188128 17))))),
  .set (.arr .jac 87) (.add (.rd (.arr .jac 87)) (.mul (.neg (.num 5 1)) (.mul (.rd (.var .jTemp)) (.neg (.num 14226436701188128 17))))),
  .set (.arr .jac 98) (.add (.rd (.arr .jac 98)) (.mul (.num 90685713214245534 17) (.mul (.rd (.var .jTemp)) (.neg (.num 14226436701188128 17))))),
  .set (.arr .jac 114) (.mul (.neg (.num 8247544883562038 16)) (.mul (.rd (.var .jTemp)) (.num 39288728140880758 17))),
  .set (.arr .jac 107) (.add (.rd (.arr .jac 107)) (.mul (.num 59264999700129481 18) (.mul (.rd (.var .jTemp)) (.num 39288728140880758 17)))),
  .set (.arr .jac 108) (.add (.rd (.arr .jac 108)) (.mul (.neg (.num 94073500029987056 17)) (.mul (.rd (.var .jTemp)) (.num 39288728140880758 17)))),
  .set (.arr .jac 119) (.add (.rd (.arr .jac 119)) (.mul (.num 17062244889559448 16) (.mul (.rd (.var .jTemp)) (.num 39288728140880758 17)))),
  .set (.arr .jac 135) (.mul (.neg (.num 77861015759954877 17)) (.mul (.rd (.var .jTemp)) (.num 35690674632355568 17))),
  .set (.arr .jac 128) (.add (.rd (.arr .jac 128)) (.mul (.num 55949172036182618 18) (.mul (.rd (.var .jTemp)) (.num 35690674632355568 17)))),
  .set (.arr .jac 129) (.add (.rd (.arr .jac 129)) (.mul (.neg (.num 88810165592763468 17)) (.mul (.rd (.var .jTemp)) (.num 35690674632355568 17)))),
  .set (.arr .jac 140) (.add (.rd (.arr .jac 140)) (.mul (.num 16107626414910008 16) (.mul (.rd (.var .jTemp)) (.num 35690674632355568 17)))),
  .set (.arr .jac 156) (.mul (.neg (.num 42497017275865467 17)) (.mul (.rd (.var .jTemp)) (.neg (.num 17824490209713328 17)))),
  .set (.arr .jac 149) (.add (.rd (.arr .jac 149)) (.mul (.num 3053739933116691 17) (.mul (.rd (.var .jTemp)) (.neg (.num 17824490209713328 17))))),
  .set (.arr .jac 150) (.add (.rd (.arr .jac 150)) (.mul (.neg (.num 48473130033441653 17)) (.mul (.rd (.var .jTemp)) (.neg (.num 17824490209713328 17))))),
  .set (.arr .jac 161) (.add (.rd (.arr .jac 161)) (.mul (.num 87916407376190431 17) (.mul (.rd (.var .jTemp)) (.neg (.num 17824490209713328 17))))),
  .set (.arr .jac 177) (.neg (.mul (.rd (.var .jTemp)) (.num 49928106040377707 17))),
  .set (.arr .jac 170) (.add (.rd (.arr .jac 170)) (.mul (.num 71857747410685777 18) (.mul (.rd (.var .jTemp)) (.num 49928106040377707 17)))),
  .set (.arr .jac 171) (.add (.rd (.arr .jac 171)) (.mul (.neg (.num 11406242870830863 16)) (.mul (.rd (.var .jTemp)) (.num 49928106040377707 17)))),
  .set (.arr .jac 182) (.add (.rd (.arr .jac 182)) (.mul (.num 20687665396724007 16) (.mul (.rd (.var .jTemp)) (.num 49928106040377707 17)))),
  .set (.arr .jac 198) (.neg (.add (.mul (.rd (.var .jTemp)) (.num 49928106040377707 17)) (.mul (.rd (.var .kf)) (.rd (.arr .C 2))))),
  .set (.arr .jac 191) (.add (.rd (.arr .jac 191)) (.mul (.num 71857747410685777 18) (.add (.mul (.rd (.var .jTemp)) (.num 49928106040377707 17)) (.mul (.rd (.var .kf)) (.rd (.arr .C 2)))))),
  .set (.arr .jac 192) (.add (.rd (.arr .jac 192)) (.mul (.neg (.num 11406242870830863 16)) (.add (.mul (.rd (.var .jTemp)) (.num 49928106040377707 17)) (.mul (.rd (.var .kf)) (.rd (.arr .C 2)))))),
  .set (.arr .jac 203) (.add (.rd (.arr .jac 203)) (.mul (.num 20687665396724007 16) (.add (.mul (.rd (.var .jTemp)) (.num 49928106040377707 17)) (.mul (.rd (.var .kf)) (.rd (.arr .C 2)))))),
  .set (.arr .jac 219) (.mul (.neg (.num 93295962306166613 17)) (.mul (.rd (.var .jTemp)) (.num 46330052531852528 17))),
  .set (.arr .jac 212) (.add (.rd (.arr .jac 212)) (.mul (.num 67040376938333812 18) (.mul (.rd (.var .jTemp)) (.num 46330052531852528 17)))),
  .set (.arr .jac 213) (.add (.rd (.arr .jac 213)) (.mul (.neg (.num 10641564049320178 16)) (.mul (.rd (.var .jTemp)) (.num 46330052531852528 17)))),
  .set (.arr .jac 224) (.add (.rd (.arr .jac 224)) (.mul (.num 19300756510553501 16) (.mul (.rd (.var .jTemp)) (.num 46330052531852528 17)))),
  .set (.arr .jac 240) (.mul (.neg (.num 87434331748402383 17)) (.mul (.rd (.var .jTemp)) (.num 42731999023327338 17))),
  .set (.arr .jac 233) (.add (.rd (.arr .jac 233)) (.mul (.num 6282834125798803 17) (.mul (.rd (.var .jTemp)) (.num 42731999023327338 17)))),
  .set (.arr .jac 234) (.add (.rd (.arr .jac 234)) (.mul (.neg (.num 99729722317107516 17)) (.mul (.rd (.var .jTemp)) (.num 42731999023327338 17)))),
  .set (.arr .jac 245) (.add (.rd (.arr .jac 245)) (.mul (.num 18088121993971109 16) (.mul (.rd (.var .jTemp)) (.num 42731999023327338 17)))),
  .set (.arr .jac 261) (.mul (.neg (.num 50077399822922919 17)) (.mul (.rd (.var .jTemp)) (.num 10994706834011048 20))),
  .set (.arr .jac 254) (.add (.rd (.arr .jac 254)) (.mul (.num 35984491474595155 18) (.mul (.rd (.var .jTemp)) (.num 10994706834011048 20)))),
  .set (.arr .jac 255) (.add (.rd (.arr .jac 255)) (.mul (.neg (.num 57119498471996122 17)) (.mul (.rd (.var .jTemp)) (.num 10994706834011048 20)))),
  .set (.arr .jac 266) (.add (.rd (.arr .jac 266)) (.mul (.num 10359844914745953 16) (.mul (.rd (.var .jTemp)) (.num 10994706834011048 20)))),
  .set (.arr .jac 282) (.mul (.neg (.num 31872173924898545 17)) (.mul (.rd (.var .jTemp)) (.neg (.num 57102223643760053 17)))),
  .set (.arr .jac 275) (.add (.rd (.arr .jac 275)) (.mul (.num 22902626233248052 18) (.mul (.rd (.var .jTemp)) (.neg (.num 57102223643760053 17))))),
  .set (.arr .jac 276) (.add (.rd (.arr .jac 276)) (.mul (.neg (.num 36354175660875532 17)) (.mul (.rd (.var .jTemp)) (.neg (.num 57102223643760053 17))))),
  .set (.arr .jac 287) (.add (.rd (.arr .jac 287)) (.mul (.num 6593608696244927 16) (.mul (.rd (.var .jTemp)) (.neg (.num 57102223643760053 17))))),
  .set (.arr .jac 303) (.mul (.neg (.num 48337982117516021 17)) (.sub (.mul (.rd (.var .jTemp)) (.neg (.num 35870588016911675 18))) (.mul (.rd (.var .kr)) (.rd (.arr .C 1))))),
  .set (.arr .jac 296) (.add (.rd (.arr .jac 296)) (.mul (.num 34734585093427126 18) (.sub (.mul (.rd (.var .jTemp)) (.neg (.num 35870588016911675 18))) (.mul (.rd (.var .kr)) (.rd (.arr .C 1)))))),
  .set (.arr .jac 297) (.add (.rd (.arr .jac 297)) (.mul (.neg (.num 55135476391826688 17)) (.sub (.mul (.rd (.var .jTemp)) (.neg (.num 35870588016911675 18))) (.mul (.rd (.var .kr)) (.rd (.arr .C 1)))))),
  .set (.arr .jac 308) (.add (.rd (.arr .jac 308)) (.sub (.mul (.rd (.var .jTemp)) (.neg (.num 35870588016911675 18))) (.mul (.rd (.var .kr)) (.rd (.arr .C 1))))),
  .set (.arr .jac 324) (.mul (.neg (.num 46715344025300498 17)) (.mul (.rd (.var .jTemp)) (.neg (.num 71851123102163683 18)))),
  .set (.arr .jac 317) (.add (.rd (.arr .jac 317)) (.mul (.num 33568593911733322 18) (.mul (.rd (.var .jTemp)) (.neg (.num 71851123102163683 18))))),
  .set (.arr .jac 318) (.add (.rd (.arr .jac 318)) (.mul (.neg (.num 53284655974699491 17)) (.mul (.rd (.var .jTemp)) (.neg (.num 71851123102163683 18))))),
  .set (.arr .jac 329) (.add (.rd (.arr .jac 329)) (.mul (.num 96643140608826661 17) (.mul (.rd (.var .jTemp)) (.neg (.num 71851123102163683 18))))),
  .set (.arr .jac 345) (.mul (.neg (.num 45198107121751407 17)) (.mul (.rd (.var .jTemp)) (.neg (.num 10783165818741525 17)))),
  .set (.arr .jac 338) (.add (.rd (.arr .jac 338)) (.mul (.num 32478341649959309 18) (.mul (.rd (.var .jTemp)) (.neg (.num 10783165818741525 17))))),
  .set (.arr .jac 339) (.add (.rd (.arr .jac 339)) (.mul (.neg (.num 5155405871325266 16)) (.mul (.rd (.var .jTemp)) (.neg (.num 10783165818741525 17))))),
  .set (.arr .jac 350) (.add (.rd (.arr .jac 350)) (.mul (.num 93504331670008145 17) (.mul (.rd (.var .jTemp)) (.neg (.num 10783165818741525 17))))),
  .set (.arr .jac 366) (.mul (.neg (.num 5 1)) (.mul (.rd (.var .jTemp)) (.neg (.num 14378791924458678 19)))),
  .set (.arr .jac 359) (.add (.rd (.arr .jac 359)) (.mul (.num 35928873705342888 18) (.mul (.rd (.var .jTemp)) (.neg (.num 14378791924458678 19))))),
  .set (.arr .jac 360) (.add (.rd (.arr .jac 360)) (.mul (.neg (.num 57031214354154314 17)) (.mul (.rd (.var .jTemp)) (.neg (.num 14378791924458678 19))))),
  .set (.arr .jac 371) (.add (.rd (.arr .jac 371)) (.mul (.num 10343832698362003 16) (.mul (.rd (.var .jTemp)) (.neg (.num 14378791924458678 19))))),
  .set (.arr .jac 387) (.mul (.neg (.num 48265861942006144 17)) (.mul (.rd (.var .jTemp)) (.neg (.num 37418414277697654 18)))),
  .set (.arr .jac 380) (.add (.rd (.arr .jac 380)) (.mul (.num 3468276115987709 17) (.mul (.rd (.var .jTemp)) (.neg (.num 37418414277697654 18))))),
  .set (.arr .jac 381) (.add (.rd (.arr .jac 381)) (.mul (.neg (.num 55053214368051429 17)) (.mul (.rd (.var .jTemp)) (.neg (.num 37418414277697654 18))))),
  .set (.arr .jac 392) (.add (.rd (.arr .jac 392)) (.mul (.num 99850800194069855 17) (.mul (.rd (.var .jTemp)) (.neg (.num 37418414277697654 18))))),
  .set (.arr .jac 408) (.mul (.neg (.num 46647981153083307 17)) (.mul (.rd (.var .jTemp)) (.neg (.num 73398949362949439 18)))),
  .set (.arr .jac 401) (.add (.rd (.arr .jac 401)) (.mul (.num 33520188469166906 18) (.mul (.rd (.var .jTemp)) (.neg (.num 73398949362949439 18))))),
  .set (.arr .jac 402) (.add (.rd (.arr .jac 402)) (.mul (.neg (.num 5320782024660089 16)) (.mul (.rd (.var .jTemp)) (.neg (.num 73398949362949439 18))))),
  .set (.arr .jac 413) (.add (.rd (.arr .jac 413)) (.mul (.num 96503782552767503 17) (.mul (.rd (.var .jTemp)) (.neg (.num 73398949362949439 18))))),
  .set (.arr .jac 429) (.mul (.neg (.num 3511284670071092 16)) (.mul (.rd (.var .jTemp)) (.neg (.num 42602775520927771 17)))),
  .set (.arr .jac 422) (.add (.rd (.arr .jac 422)) (.mul (.num 2523130069089817 17) (.mul (.rd (.var .jTemp)) (.neg (.num 42602775520927771 17))))),
  .set (.arr .jac 423) (.add (.rd (.arr .jac 423)) (.mul (.neg (.num 4005056573545609 16)) (.mul (.rd (.var .jTemp)) (.neg (.num 42602775520927771 17))))),
  .set (.arr .jac 434) (.add (.rd (.arr .jac 434)) (.mul (.num 72640282367077191 17) (.mul (.rd (.var .jTemp)) (.neg (.num 42602775520927771 17)))))]

/-- utilities/mechanisms/drm19/lib/src/jacobs/jacob_0.c:493-499 -/
def jacobT5 : List CStmt := [
  .set (.var .jTemp) (.mul (.mul (.div (.num 1 0) (.rd (.var .T))) (.sub (.mul (.rd (.arr .fwd 5)) (.neg (.num 1 0))) (.mul (.rd (.arr .rev 5)) (.add (.neg (.num 1 0)) (.mul (.neg (.rd (.var .T))) (.sub (.sub (.add (.rd (.arr .dBdT 14)) (.rd (.arr .dBdT 1))) (.rd (.arr .dBdT 9))) (.rd (.arr .dBdT 2)))))))) (.rd (.var .rhoInv))),
  .set (.arr .jac 10) (.mul (.neg (.rd (.var .jTemp))) (.num 1503482 5)),
  .set (.arr .jac 3) (.add (.rd (.arr .jac 3)) (.mul (.neg (.rd (.var .jTemp))) (.num 159994 4))),
  .set (.arr .jac 15) (.mul (.rd (.var .jTemp)) (.num 3002628 5)),
  .set (.arr .jac 2) (.add (.rd (.arr .jac 2)) (.mul (.rd (.var .jTemp)) (.num 10079400000000001 16)))]

/-- utilities/mechanisms/drm19/lib/src/jacobs/jacob_0.c:500-591 -/
def jacobS5 : List CStmt := [
  .ite (.rd (.var .T)) (.num 1000 0) (.var .Kc) (.sub (.add (.add (.neg (.num 39522333929999998 16)) (.mul (.num 45186565000000023 17) (.rd (.var .logT)))) (.mul (.rd (.var .T)) (.add (.neg (.num 43199832996473333 19)) (.mul (.rd (.var .T)) (.add (.num 41581197130006792 22) (.mul (.rd (.var .T)) (.add (.neg (.num 20774404673082654 25)) (.mul (.num 42603740745361341 29) (.rd (.var .T)))))))))) (.div (.neg (.num 34402554800000005 12)) (.rd (.var .T)))) (.sub (.add (.add (.num 53967806600000134 17) (.mul (.neg (.num 59444841000000004 17)) (.rd (.var .logT)))) (.mul (.rd (.var .T)) (.add (.num 10230372703078513 19) (.mul (.rd (.var .T)) (.add (.neg (.num 24623218212396748 23)) (.mul (.rd (.var .T)) (.add (.num 35062104263737296 27) (.mul (.neg (.num 21449230505901326 31)) (.rd (.var .T)))))))))) (.div (.neg (.num 34515335800000001 12)) (.rd (.var .T)))),
  .set (.var .Kc) (.exp (.rd (.var .Kc))),
  .set (.var .jTemp) (.mul (.mul (.neg (.rd (.var .mwAvg))) (.rd (.var .rhoInv))) (.sub (.mul (.num 2 0) (.rd (.arr .fwd 5))) (.mul (.num 2 0) (.rd (.arr .rev 5))))),
  .set (.var .kf) (.num 84300000000 0),
  .set (.var .kr) (.div (.rd (.var .kf)) (.rd (.var .Kc))),
  .set (.arr .jac 31) (.mul (.neg (.num 74581919558703884 16)) (.mul (.rd (.var .jTemp)) (.num 92803892982949643 17))),
  .set (.arr .jac 24) (.add (.rd (.arr .jac 24)) (.mul (.neg (.num 79366827390519274 16)) (.mul (.rd (.var .jTemp)) (.num 92803892982949643 17)))),
  .set (.arr .jac 36) (.mul (.num 14894874694922317 15) (.mul (.rd (.var .jTemp)) (.num 92803892982949643 17))),
  .set (.arr .jac 23) (.add (.rd (.arr .jac 23)) (.mul (.num 5 1) (.mul (.rd (.var .jTemp)) (.num 92803892982949643 17)))),
  .set (.arr .jac 52) (.mul (.neg (.num 14916383911740777 15)) (.sub (.mul (.rd (.var .jTemp)) (.num 96401946491474821 17)) (.mul (.rd (.var .kr)) (.rd (.arr .C 14))))),
  .set (.arr .jac 45) (.add (.rd (.arr .jac 45)) (.mul (.neg (.num 15873365478103855 15)) (.sub (.mul (.rd (.var .jTemp)) (.num 96401946491474821 17)) (.mul (.rd (.var .kr)) (.rd (.arr .C 14)))))),
  .set (.arr .jac 57) (.mul (.num 29789749389844633 15) (.sub (.mul (.rd (.var .jTemp)) (.num 96401946491474821 17)) (.mul (.rd (.var .kr)) (.rd (.arr .C 14))))),
  .set (.arr .jac 44) (.add (.rd (.arr .jac 44)) (.sub (.mul (.rd (.var .jTemp)) (.num 96401946491474821 17)) (.mul (.rd (.var .kr)) (.rd (.arr .C 14))))),
  .set (.arr .jac 73) (.mul (.neg (.num 93971148918084424 17)) (.add (.mul (.rd (.var .jTemp)) (.num 42886781649405936 17)) (.mul (.rd (.var .kf)) (.rd (.arr .C 9))))),
  .set (.arr .jac 66) (.add (.rd (.arr .jac 66)) (.neg (.add (.mul (.rd (.var .jTemp)) (.num 42886781649405936 17)) (.mul (.rd (.var .kf)) (.rd (.arr .C 9)))))),
  .set (.arr .jac 78) (.mul (.num 18767128767328776 16) (.add (.mul (.rd (.var .jTemp)) (.num 42886781649405936 17)) (.mul (.rd (.var .kf)) (.rd (.arr .C 9))))),
  .set (.arr .jac 65) (.add (.rd (.arr .jac 65)) (.mul (.num 62998612447966798 18) (.add (.mul (.rd (.var .jTemp)) (.num 42886781649405936 17)) (.mul (.rd (.var .kf)) (.rd (.arr .C 9)))))),
  .set (.arr .jac 94) (.mul (.neg (.num 46985574459042212 17)) (.mul (.rd (.var .jTemp)) (.neg (.num 14226436701188128 17)))),
  .set (.arr .jac 87) (.add (.rd (.arr .jac 87)) (.mul (.neg (.num 5 1)) (.mul (.rd (.var .jTemp)) (.neg (.num 14226436701188128 17))))),
  .set (.arr .jac 99) (.mul (.num 93835643836643878 17) (.mul (.rd (.var .jTemp)) (.neg (.num 14226436701188128 17)))),
  .set (.arr .jac 86) (.add (.rd (.arr .jac 86)) (.mul (.num 31499306223983399 18) (.mul (.rd (.var .jTemp)) (.neg (.num 14226436701188128 17))))),
  .set (.arr .jac 115) (.mul (.neg (.num 88401948805633335 17)) (.mul (.rd (.var .jTemp)) (.num 39288728140880758 17))),
  .set (.arr .jac 108) (.add (.rd (.arr .jac 108)) (.mul (.neg (.num 94073500029987056 17)) (.mul (.rd (.var .jTemp)) (.num 39288728140880758 17)))),
  .set (.arr .jac 120) (.mul (.num 17654894886560744 16) (.mul (.rd (.var .jTemp)) (.num 39288728140880758 17))),
  .set (.arr .jac 107) (.add (.rd (.arr .jac 107)) (.mul (.num 59264999700129481 18) (.mul (.rd (.var .jTemp)) (.num 39288728140880758 17)))),
  .set (.arr .jac 136) (.mul (.neg (.num 83455932963573143 17)) (.mul (.rd (.var .jTemp)) (.num 35690674632355568 17))),
  .set (.arr .jac 129) (.add (.rd (.arr .jac 129)) (.mul (.neg (.num 88810165592763468 17)) (.mul (.rd (.var .jTemp)) (.num 35690674632355568 17)))),
  .set (.arr .jac 141) (.mul (.num 16667118135271835 16) (.mul (.rd (.var .jTemp)) (.num 35690674632355568 17))),
  .set (.arr .jac 128) (.add (.rd (.arr .jac 128)) (.mul (.num 55949172036182618 18) (.mul (.rd (.var .jTemp)) (.num 35690674632355568 17)))),
  .set (.arr .jac 157) (.mul (.neg (.num 45550757208982162 17)) (.mul (.rd (.var .jTemp)) (.neg (.num 17824490209713328 17)))),
  .set (.arr .jac 150) (.add (.rd (.arr .jac 150)) (.mul (.neg (.num 48473130033441653 17)) (.mul (.rd (.var .jTemp)) (.neg (.num 17824490209713328 17))))),
  .set (.arr .jac 162) (.mul (.num 90970147309307126 17) (.mul (.rd (.var .jTemp)) (.neg (.num 17824490209713328 17)))),
  .set (.arr .jac 149) (.add (.rd (.arr .jac 149)) (.mul (.num 3053739933116691 17) (.mul (.rd (.var .jTemp)) (.neg (.num 17824490209713328 17))))),
  .set (.arr .jac 178) (.mul (.neg (.num 10718577474106858 16)) (.mul (.rd (.var .jTemp)) (.num 49928106040377707 17))),
  .set (.arr .jac 171) (.add (.rd (.arr .jac 171)) (.mul (.neg (.num 11406242870830863 16)) (.mul (.rd (.var .jTemp)) (.num 49928106040377707 17)))),
  .set (.arr .jac 183) (.mul (.num 21406242870830865 16) (.mul (.rd (.var .jTemp)) (.num 49928106040377707 17))),
  .set (.arr .jac 170) (.add (.rd (.arr .jac 170)) (.mul (.num 71857747410685777 18) (.mul (.rd (.var .jTemp)) (.num 49928106040377707 17)))),
  .set (.arr .jac 199) (.mul (.neg (.num 10718577474106858 16)) (.mul (.rd (.var .jTemp)) (.num 49928106040377707 17))),
  .set (.arr .jac 192) (.add (.rd (.arr .jac 192)) (.mul (.neg (.num 11406242870830863 16)) (.mul (.rd (.var .jTemp)) (.num 49928106040377707 17)))),
  .set (.arr .jac 204) (.mul (.num 21406242870830865 16) (.mul (.rd (.var .jTemp)) (.num 49928106040377707 17))),
  .set (.arr .jac 191) (.add (.rd (.arr .jac 191)) (.mul (.num 71857747410685777 18) (.mul (.rd (.var .jTemp)) (.num 49928106040377707 17)))),
  .set (.arr .jac 220) (.neg (.add (.mul (.rd (.var .jTemp)) (.num 46330052531852528 17)) (.mul (.rd (.var .kf)) (.rd (.arr .C 2))))),
  .set (.arr .jac 213) (.add (.rd (.arr .jac 213)) (.mul (.neg (.num 10641564049320178 16)) (.add (.mul (.rd (.var .jTemp)) (.num 46330052531852528 17)) (.mul (.rd (.var .kf)) (.rd (.arr .C 2)))))),
  .set (.arr .jac 225) (.mul (.num 19971160279936839 16) (.add (.mul (.rd (.var .jTemp)) (.num 46330052531852528 17)) (.mul (.rd (.var .kf)) (.rd (.arr .C 2))))),
  .set (.arr .jac 212) (.add (.rd (.arr .jac 212)) (.mul (.num 67040376938333812 18) (.add (.mul (.rd (.var .jTemp)) (.num 46330052531852528 17)) (.mul (.rd (.var .kf)) (.rd (.arr .C 2)))))),
  .set (.arr .jac 241) (.mul (.neg (.num 93717165874201191 17)) (.mul (.rd (.var .jTemp)) (.num 42731999023327338 17))),
  .set (.arr .jac 234) (.add (.rd (.arr .jac 234)) (.mul (.neg (.num 99729722317107516 17)) (.mul (.rd (.var .jTemp)) (.num 42731999023327338 17)))),
  .set (.arr .jac 246) (.mul (.num 18716405406550991 16) (.mul (.rd (.var .jTemp)) (.num 42731999023327338 17))),
  .set (.arr .jac 233) (.add (.rd (.arr .jac 233)) (.mul (.num 6282834125798803 17) (.mul (.rd (.var .jTemp)) (.num 42731999023327338 17)))),
  .set (.arr .jac 262) (.mul (.neg (.num 53675848970382434 17)) (.mul (.rd (.var .jTemp)) (.num 10994706834011048 20))),
  .set (.arr .jac 255) (.add (.rd (.arr .jac 255)) (.mul (.neg (.num 57119498471996122 17)) (.mul (.rd (.var .jTemp)) (.num 10994706834011048 20)))),
  .set (.arr .jac 267) (.mul (.num 10719689829491903 16) (.mul (.rd (.var .jTemp)) (.num 10994706834011048 20))),
  .set (.arr .jac 254) (.add (.rd (.arr .jac 254)) (.mul (.num 35984491474595155 18) (.mul (.rd (.var .jTemp)) (.num 10994706834011048 20)))),
  .set (.arr .jac 283) (.mul (.neg (.num 34162436548223352 17)) (.mul (.rd (.var .jTemp)) (.neg (.num 57102223643760053 17)))),
  .set (.arr .jac 276) (.add (.rd (.arr .jac 276)) (.mul (.neg (.num 36354175660875532 17)) (.mul (.rd (.var .jTemp)) (.neg (.num 57102223643760053 17))))),
  .set (.arr .jac 288) (.mul (.num 68226349585774082 17) (.mul (.rd (.var .jTemp)) (.neg (.num 57102223643760053 17)))),
  .set (.arr .jac 275) (.add (.rd (.arr .jac 275)) (.mul (.num 22902626233248052 18) (.mul (.rd (.var .jTemp)) (.neg (.num 57102223643760053 17))))),
  .set (.arr .jac 304) (.mul (.neg (.num 5181144062685874 16)) (.mul (.rd (.var .jTemp)) (.neg (.num 35870588016911675 18)))),
  .set (.arr .jac 297) (.add (.rd (.arr .jac 297)) (.mul (.neg (.num 55135476391826688 17)) (.mul (.rd (.var .jTemp)) (.neg (.num 35870588016911675 18))))),
  .set (.arr .jac 309) (.mul (.num 10347345850934271 16) (.mul (.rd (.var .jTemp)) (.neg (.num 35870588016911675 18)))),
  .set (.arr .jac 296) (.add (.rd (.arr .jac 296)) (.mul (.num 34734585093427126 18) (.mul (.rd (.var .jTemp)) (.neg (.num 35870588016911675 18))))),
  .set (.arr .jac 325) (.mul (.neg (.num 50072203416473837 17)) (.sub (.mul (.rd (.var .jTemp)) (.neg (.num 71851123102163683 18))) (.mul (.rd (.var .kr)) (.rd (.arr .C 1))))),
  .set (.arr .jac 318) (.add (.rd (.arr .jac 318)) (.mul (.neg (.num 53284655974699491 17)) (.sub (.mul (.rd (.var .jTemp)) (.neg (.num 71851123102163683 18))) (.mul (.rd (.var .kr)) (.rd (.arr .C 1)))))),
  .set (.arr .jac 330) (.sub (.mul (.rd (.var .jTemp)) (.neg (.num 71851123102163683 18))) (.mul (.rd (.var .kr)) (.rd (.arr .C 1)))),
  .set (.arr .jac 317) (.add (.rd (.arr .jac 317)) (.mul (.num 33568593911733322 18) (.sub (.mul (.rd (.var .jTemp)) (.neg (.num 71851123102163683 18))) (.mul (.rd (.var .kr)) (.rd (.arr .C 1)))))),
  .set (.arr .jac 346) (.mul (.neg (.num 4844594128674734 16)) (.mul (.rd (.var .jTemp)) (.neg (.num 10783165818741525 17)))),
  .set (.arr .jac 339) (.add (.rd (.arr .jac 339)) (.mul (.neg (.num 5155405871325266 16)) (.mul (.rd (.var .jTemp)) (.neg (.num 10783165818741525 17))))),
  .set (.arr .jac 351) (.mul (.num 96752165835004078 17) (.mul (.rd (.var .jTemp)) (.neg (.num 10783165818741525 17)))),
  .set (.arr .jac 338) (.add (.rd (.arr .jac 338)) (.mul (.num 32478341649959309 18) (.mul (.rd (.var .jTemp)) (.neg (.num 10783165818741525 17))))),
  .set (.arr .jac 367) (.mul (.neg (.num 53592887370534292 17)) (.mul (.rd (.var .jTemp)) (.neg (.num 14378791924458678 19)))),
  .set (.arr .jac 360) (.add (.rd (.arr .jac 360)) (.mul (.neg (.num 57031214354154314 17)) (.mul (.rd (.var .jTemp)) (.neg (.num 14378791924458678 19))))),
  .set (.arr .jac 372) (.mul (.num 10703121435415432 16) (.mul (.rd (.var .jTemp)) (.neg (.num 14378791924458678 19)))),
  .set (.arr .jac 359) (.add (.rd (.arr .jac 359)) (.mul (.num 35928873705342888 18) (.mul (.rd (.var .jTemp)) (.neg (.num 14378791924458678 19))))),
  .set (.arr .jac 388) (.mul (.neg (.num 51734138057993861 17)) (.mul (.rd (.var .jTemp)) (.neg (.num 37418414277697654 18)))),
  .set (.arr .jac 381) (.add (.rd (.arr .jac 381)) (.mul (.neg (.num 55053214368051429 17)) (.mul (.rd (.var .jTemp)) (.neg (.num 37418414277697654 18))))),
  .set (.arr .jac 393) (.mul (.num 10331907631005757 16) (.mul (.rd (.var .jTemp)) (.neg (.num 37418414277697654 18)))),
  .set (.arr .jac 380) (.add (.rd (.arr .jac 380)) (.mul (.num 3468276115987709 17) (.mul (.rd (.var .jTemp)) (.neg (.num 37418414277697654 18))))),
  .set (.arr .jac 409) (.mul (.neg (.num 5 1)) (.mul (.rd (.var .jTemp)) (.neg (.num 73398949362949439 18)))),
  .set (.arr .jac 402) (.add (.rd (.arr .jac 402)) (.mul (.neg (.num 5320782024660089 16)) (.mul (.rd (.var .jTemp)) (.neg (.num 73398949362949439 18))))),
  .set (.arr .jac 414) (.mul (.num 99855801399684196 17) (.mul (.rd (.var .jTemp)) (.neg (.num 73398949362949439 18)))),
  .set (.arr .jac 401) (.add (.rd (.arr .jac 401)) (.mul (.num 33520188469166906 18) (.mul (.rd (.var .jTemp)) (.neg (.num 73398949362949439 18))))),
  .set (.arr .jac 430) (.mul (.neg (.num 37635976769800739 17)) (.mul (.rd (.var .jTemp)) (.neg (.num 42602775520927771 17)))),
  .set (.arr .jac 423) (.add (.rd (.arr .jac 423)) (.mul (.neg (.num 4005056573545609 16)) (.mul (.rd (.var .jTemp)) (.neg (.num 42602775520927771 17))))),
  .set (.arr .jac 435) (.mul (.num 75163412436167021 17) (.mul (.rd (.var .jTemp)) (.neg (.num 42602775520927771 17)))),
  .set (.arr .jac 422) (.add (.rd (.arr .jac 422)) (.mul (.num 2523130069089817 17) (.mul (.rd (.var .jTemp)) (.neg (.num 42602775520927771 17)))))]

/-- utilities/mechanisms/drm19/lib/src/jacobs/jacob_0.c:592-598 -/
def jacobT6 : List CStmt := [
  .set (.var .jTemp) (.mul (.mul (.div (.num 1 0) (.rd (.var .T))) (.sub (.add (.mul (.sub (.rd (.arr .fwd 6)) (.rd (.arr .rev 6))) (.add (.num 15 1) (.div (.num 43276882577887991 13) (.rd (.var .T))))) (.mul (.rd (.arr .fwd 6)) (.neg (.num 1 0)))) (.mul (.rd (.arr .rev 6)) (.add (.neg (.num 1 0)) (.mul (.neg (.rd (.var .T))) (.sub (.sub (.add (.rd (.arr .dBdT 9)) (.rd (.arr .dBdT 4))) (.rd (.arr .dBdT 10))) (.rd (.arr .dBdT 2)))))))) (.rd (.var .rhoInv))),
  .set (.arr .jac 10) (.add (.rd (.arr .jac 10)) (.mul (.rd (.var .jTemp)) (.num 1503482 5))),
  .set (.arr .jac 11) (.mul (.neg (.rd (.var .jTemp))) (.num 16042760000000001 15)),
  .set (.arr .jac 5) (.add (.rd (.arr .jac 5)) (.mul (.rd (.var .jTemp)) (.num 17007339999999999 15))),
  .set (.arr .jac 3) (.add (.rd (.arr .jac 3)) (.mul (.neg (.rd (.var .jTemp))) (.num 159994 4)))]

/-- utilities/mechanisms/drm19/lib/src/jacobs/jacob_0.c:599-690 -/
def jacobS6 : List CStmt := [
  .ite (.rd (.var .T)) (.num 1000 0) (.var .Kc) (.sub (.add (.add (.num 47425465719999984 16) (.mul (.neg (.num 65253739999999993 17)) (.rd (.var .logT)))) (.mul (.rd (.var .T)) (.add (.num 82799659350000013 19) (.mul (.rd (.var .T)) (.add (.neg (.num 7579161148333334 21)) (.mul (.rd (.var .T)) (.add (.num 3654171771666667 24) (.mul (.neg (.num 7437041635 22)) (.rd (.var .T)))))))))) (.div (.num 11844677599999995 13) (.rd (.var .T)))) (.sub (.add (.add (.neg (.num 12999221865000001 15)) (.mul (.num 27343331149999996 16) (.rd (.var .logT)))) (.mul (.rd (.var .T)) (.add (.neg (.num 27583212501499999 19)) (.mul (.rd (.var .T)) (.add (.num 47171189651666662 23) (.mul (.rd (.var .T)) (.add (.neg (.num 58764090141666669 27)) (.mul (.num 32806345645000004 31) (.rd (.var .T)))))))))) (.div (.num 88500678999999946 14) (.rd (.var .T)))),
  .set (.var .Kc) (.exp (.rd (.var .Kc))),
  .set (.var .jTemp) (.mul (.mul (.neg (.rd (.var .mwAvg))) (.rd (.var .rhoInv))) (.sub (.mul (.num 2 0) (.rd (.arr .fwd 6))) (.mul (.num 2 0) (.rd (.arr .rev 6))))),
  .set (.var .kf) (.exp (.sub (.add (.num 13835313185260453 15) (.mul (.num 15 1) (.rd (.var .logT)))) (.div (.num 43276882577887991 13) (.rd (.var .T))))),
  .set (.var .kr) (.div (.rd (.var .kf)) (.rd (.var .Kc))),
  .set (.arr .jac 31) (.add (.rd (.arr .jac 31)) (.mul (.num 74581919558703884 16) (.mul (.rd (.var .jTemp)) (.num 92803892982949643 17)))),
  .set (.arr .jac 32) (.mul (.neg (.num 79581919558703893 16)) (.mul (.rd (.var .jTemp)) (.num 92803892982949643 17))),
  .set (.arr .jac 26) (.add (.rd (.arr .jac 26)) (.mul (.num 84366827390519266 16) (.mul (.rd (.var .jTemp)) (.num 92803892982949643 17)))),
  .set (.arr .jac 24) (.add (.rd (.arr .jac 24)) (.mul (.neg (.num 79366827390519274 16)) (.mul (.rd (.var .jTemp)) (.num 92803892982949643 17)))),
  .set (.arr .jac 52) (.add (.rd (.arr .jac 52)) (.mul (.num 14916383911740777 15) (.mul (.rd (.var .jTemp)) (.num 96401946491474821 17)))),
  .set (.arr .jac 53) (.mul (.neg (.num 15916383911740779 15)) (.mul (.rd (.var .jTemp)) (.num 96401946491474821 17))),
  .set (.arr .jac 47) (.add (.rd (.arr .jac 47)) (.mul (.num 16873365478103853 15) (.mul (.rd (.var .jTemp)) (.num 96401946491474821 17)))),
  .set (.arr .jac 45) (.add (.rd (.arr .jac 45)) (.mul (.neg (.num 15873365478103855 15)) (.mul (.rd (.var .jTemp)) (.num 96401946491474821 17)))),
  .set (.arr .jac 73) (.add (.rd (.arr .jac 73)) (.mul (.num 93971148918084424 17) (.add (.mul (.rd (.var .jTemp)) (.num 42886781649405936 17)) (.mul (.rd (.var .kf)) (.rd (.arr .C 10)))))),
  .set (.arr .jac 74) (.mul (.neg (.num 10027101016288111 16)) (.add (.mul (.rd (.var .jTemp)) (.num 42886781649405936 17)) (.mul (.rd (.var .kf)) (.rd (.arr .C 10))))),
  .set (.arr .jac 68) (.add (.rd (.arr .jac 68)) (.mul (.num 10629986124479667 16) (.add (.mul (.rd (.var .jTemp)) (.num 42886781649405936 17)) (.mul (.rd (.var .kf)) (.rd (.arr .C 10)))))),
  .set (.arr .jac 66) (.add (.rd (.arr .jac 66)) (.neg (.add (.mul (.rd (.var .jTemp)) (.num 42886781649405936 17)) (.mul (.rd (.var .kf)) (.rd (.arr .C 10)))))),
  .set (.arr .jac 94) (.add (.rd (.arr .jac 94)) (.mul (.num 46985574459042212 17) (.mul (.rd (.var .jTemp)) (.neg (.num 14226436701188128 17))))),
  .set (.arr .jac 95) (.mul (.neg (.num 50135505081440557 17)) (.mul (.rd (.var .jTemp)) (.neg (.num 14226436701188128 17)))),
  .set (.arr .jac 89) (.add (.rd (.arr .jac 89)) (.mul (.num 53149930622398334 17) (.mul (.rd (.var .jTemp)) (.neg (.num 14226436701188128 17))))),
  .set (.arr .jac 87) (.add (.rd (.arr .jac 87)) (.mul (.neg (.num 5 1)) (.mul (.rd (.var .jTemp)) (.neg (.num 14226436701188128 17))))),
  .set (.arr .jac 115) (.add (.rd (.arr .jac 115)) (.mul (.num 88401948805633335 17) (.sub (.mul (.rd (.var .jTemp)) (.num 39288728140880758 17)) (.mul (.rd (.var .kr)) (.rd (.arr .C 9)))))),
  .set (.arr .jac 116) (.mul (.neg (.num 9432844877564629 16)) (.sub (.mul (.rd (.var .jTemp)) (.num 39288728140880758 17)) (.mul (.rd (.var .kr)) (.rd (.arr .C 9))))),
  .set (.arr .jac 110) (.add (.rd (.arr .jac 110)) (.sub (.mul (.rd (.var .jTemp)) (.num 39288728140880758 17)) (.mul (.rd (.var .kr)) (.rd (.arr .C 9))))),
  .set (.arr .jac 108) (.add (.rd (.arr .jac 108)) (.mul (.neg (.num 94073500029987056 17)) (.sub (.mul (.rd (.var .jTemp)) (.num 39288728140880758 17)) (.mul (.rd (.var .kr)) (.rd (.arr .C 9)))))),
  .set (.arr .jac 136) (.add (.rd (.arr .jac 136)) (.mul (.num 83455932963573143 17) (.mul (.rd (.var .jTemp)) (.num 35690674632355568 17)))),
  .set (.arr .jac 137) (.mul (.neg (.num 89050850167191409 17)) (.mul (.rd (.var .jTemp)) (.num 35690674632355568 17))),
  .set (.arr .jac 131) (.add (.rd (.arr .jac 131)) (.mul (.num 94405082796381734 17) (.mul (.rd (.var .jTemp)) (.num 35690674632355568 17)))),
  .set (.arr .jac 129) (.add (.rd (.arr .jac 129)) (.mul (.neg (.num 88810165592763468 17)) (.mul (.rd (.var .jTemp)) (.num 35690674632355568 17)))),
  .set (.arr .jac 157) (.add (.rd (.arr .jac 157)) (.mul (.num 45550757208982162 17) (.mul (.rd (.var .jTemp)) (.neg (.num 17824490209713328 17))))),
  .set (.arr .jac 158) (.mul (.neg (.num 48604497142098857 17)) (.mul (.rd (.var .jTemp)) (.neg (.num 17824490209713328 17)))),
  .set (.arr .jac 152) (.add (.rd (.arr .jac 152)) (.mul (.num 51526869966558342 17) (.mul (.rd (.var .jTemp)) (.neg (.num 17824490209713328 17))))),
  .set (.arr .jac 150) (.add (.rd (.arr .jac 150)) (.mul (.neg (.num 48473130033441653 17)) (.mul (.rd (.var .jTemp)) (.neg (.num 17824490209713328 17))))),
  .set (.arr .jac 178) (.add (.rd (.arr .jac 178)) (.mul (.num 10718577474106858 16) (.mul (.rd (.var .jTemp)) (.num 49928106040377707 17)))),
  .set (.arr .jac 179) (.mul (.neg (.num 11437154948213717 16)) (.mul (.rd (.var .jTemp)) (.num 49928106040377707 17))),
  .set (.arr .jac 173) (.add (.rd (.arr .jac 173)) (.mul (.num 12124820344937721 16) (.mul (.rd (.var .jTemp)) (.num 49928106040377707 17)))),
  .set (.arr .jac 171) (.add (.rd (.arr .jac 171)) (.mul (.neg (.num 11406242870830863 16)) (.mul (.rd (.var .jTemp)) (.num 49928106040377707 17)))),
  .set (.arr .jac 199) (.add (.rd (.arr .jac 199)) (.mul (.num 10718577474106858 16) (.mul (.rd (.var .jTemp)) (.num 49928106040377707 17)))),
  .set (.arr .jac 200) (.mul (.neg (.num 11437154948213717 16)) (.mul (.rd (.var .jTemp)) (.num 49928106040377707 17))),
  .set (.arr .jac 194) (.add (.rd (.arr .jac 194)) (.mul (.num 12124820344937721 16) (.mul (.rd (.var .jTemp)) (.num 49928106040377707 17)))),
  .set (.arr .jac 192) (.add (.rd (.arr .jac 192)) (.mul (.neg (.num 11406242870830863 16)) (.mul (.rd (.var .jTemp)) (.num 49928106040377707 17)))),
  .set (.arr .jac 220) (.add (.rd (.arr .jac 220)) (.sub (.mul (.rd (.var .jTemp)) (.num 46330052531852528 17)) (.mul (.rd (.var .kr)) (.rd (.arr .C 4))))),
  .set (.arr .jac 221) (.mul (.neg (.num 10670403769383339 16)) (.sub (.mul (.rd (.var .jTemp)) (.num 46330052531852528 17)) (.mul (.rd (.var .kr)) (.rd (.arr .C 4))))),
  .set (.arr .jac 215) (.add (.rd (.arr .jac 215)) (.mul (.num 11311967818703517 16) (.sub (.mul (.rd (.var .jTemp)) (.num 46330052531852528 17)) (.mul (.rd (.var .kr)) (.rd (.arr .C 4)))))),
  .set (.arr .jac 213) (.add (.rd (.arr .jac 213)) (.mul (.neg (.num 10641564049320178 16)) (.sub (.mul (.rd (.var .jTemp)) (.num 46330052531852528 17)) (.mul (.rd (.var .kr)) (.rd (.arr .C 4)))))),
  .set (.arr .jac 241) (.add (.rd (.arr .jac 241)) (.mul (.num 93717165874201191 17) (.add (.mul (.rd (.var .jTemp)) (.num 42731999023327338 17)) (.mul (.rd (.var .kf)) (.rd (.arr .C 2)))))),
  .set (.arr .jac 242) (.neg (.add (.mul (.rd (.var .jTemp)) (.num 42731999023327338 17)) (.mul (.rd (.var .kf)) (.rd (.arr .C 2))))),
  .set (.arr .jac 236) (.add (.rd (.arr .jac 236)) (.mul (.num 10601255644290632 16) (.add (.mul (.rd (.var .jTemp)) (.num 42731999023327338 17)) (.mul (.rd (.var .kf)) (.rd (.arr .C 2)))))),
  .set (.arr .jac 234) (.add (.rd (.arr .jac 234)) (.mul (.neg (.num 99729722317107516 17)) (.add (.mul (.rd (.var .jTemp)) (.num 42731999023327338 17)) (.mul (.rd (.var .kf)) (.rd (.arr .C 2)))))),
  .set (.arr .jac 262) (.add (.rd (.arr .jac 262)) (.mul (.num 53675848970382434 17) (.mul (.rd (.var .jTemp)) (.num 10994706834011048 20)))),
  .set (.arr .jac 263) (.mul (.neg (.num 5727429811784196 16)) (.mul (.rd (.var .jTemp)) (.num 10994706834011048 20))),
  .set (.arr .jac 257) (.add (.rd (.arr .jac 257)) (.mul (.num 60717947619455637 17) (.mul (.rd (.var .jTemp)) (.num 10994706834011048 20)))),
  .set (.arr .jac 255) (.add (.rd (.arr .jac 255)) (.mul (.neg (.num 57119498471996122 17)) (.mul (.rd (.var .jTemp)) (.num 10994706834011048 20)))),
  .set (.arr .jac 283) (.add (.rd (.arr .jac 283)) (.mul (.num 34162436548223352 17) (.mul (.rd (.var .jTemp)) (.neg (.num 57102223643760053 17))))),
  .set (.arr .jac 284) (.mul (.neg (.num 36452699171548159 17)) (.mul (.rd (.var .jTemp)) (.neg (.num 57102223643760053 17)))),
  .set (.arr .jac 278) (.add (.rd (.arr .jac 278)) (.mul (.num 38644438284200339 17) (.mul (.rd (.var .jTemp)) (.neg (.num 57102223643760053 17))))),
  .set (.arr .jac 276) (.add (.rd (.arr .jac 276)) (.mul (.neg (.num 36354175660875532 17)) (.mul (.rd (.var .jTemp)) (.neg (.num 57102223643760053 17))))),
  .set (.arr .jac 304) (.add (.rd (.arr .jac 304)) (.mul (.num 5181144062685874 16) (.mul (.rd (.var .jTemp)) (.neg (.num 35870588016911675 18))))),
  .set (.arr .jac 305) (.mul (.neg (.num 5528489913620146 16)) (.mul (.rd (.var .jTemp)) (.neg (.num 35870588016911675 18)))),
  .set (.arr .jac 299) (.add (.rd (.arr .jac 299)) (.mul (.num 58608934901169396 17) (.mul (.rd (.var .jTemp)) (.neg (.num 35870588016911675 18))))),
  .set (.arr .jac 297) (.add (.rd (.arr .jac 297)) (.mul (.neg (.num 55135476391826688 17)) (.mul (.rd (.var .jTemp)) (.neg (.num 35870588016911675 18))))),
  .set (.arr .jac 325) (.add (.rd (.arr .jac 325)) (.mul (.num 50072203416473837 17) (.mul (.rd (.var .jTemp)) (.neg (.num 71851123102163683 18))))),
  .set (.arr .jac 326) (.mul (.neg (.num 53429062807647176 17)) (.mul (.rd (.var .jTemp)) (.neg (.num 71851123102163683 18)))),
  .set (.arr .jac 320) (.add (.rd (.arr .jac 320)) (.mul (.num 5664151536587283 16) (.mul (.rd (.var .jTemp)) (.neg (.num 71851123102163683 18))))),
  .set (.arr .jac 318) (.add (.rd (.arr .jac 318)) (.mul (.neg (.num 53284655974699491 17)) (.mul (.rd (.var .jTemp)) (.neg (.num 71851123102163683 18))))),
  .set (.arr .jac 346) (.add (.rd (.arr .jac 346)) (.mul (.num 4844594128674734 16) (.mul (.rd (.var .jTemp)) (.neg (.num 10783165818741525 17))))),
  .set (.arr .jac 347) (.mul (.neg (.num 51693775451743273 17)) (.mul (.rd (.var .jTemp)) (.neg (.num 10783165818741525 17)))),
  .set (.arr .jac 341) (.add (.rd (.arr .jac 341)) (.mul (.num 54801892878248593 17) (.mul (.rd (.var .jTemp)) (.neg (.num 10783165818741525 17))))),
  .set (.arr .jac 339) (.add (.rd (.arr .jac 339)) (.mul (.neg (.num 5155405871325266 16)) (.mul (.rd (.var .jTemp)) (.neg (.num 10783165818741525 17))))),
  .set (.arr .jac 367) (.add (.rd (.arr .jac 367)) (.mul (.num 53592887370534292 17) (.mul (.rd (.var .jTemp)) (.neg (.num 14378791924458678 19))))),
  .set (.arr .jac 368) (.mul (.neg (.num 57185774741068585 17)) (.mul (.rd (.var .jTemp)) (.neg (.num 14378791924458678 19)))),
  .set (.arr .jac 362) (.add (.rd (.arr .jac 362)) (.mul (.num 60624101724688606 17) (.mul (.rd (.var .jTemp)) (.neg (.num 14378791924458678 19))))),
  .set (.arr .jac 360) (.add (.rd (.arr .jac 360)) (.mul (.neg (.num 57031214354154314 17)) (.mul (.rd (.var .jTemp)) (.neg (.num 14378791924458678 19))))),
  .set (.arr .jac 388) (.add (.rd (.arr .jac 388)) (.mul (.num 51734138057993861 17) (.mul (.rd (.var .jTemp)) (.neg (.num 37418414277697654 18))))),
  .set (.arr .jac 389) (.mul (.neg (.num 55202414173981573 17)) (.mul (.rd (.var .jTemp)) (.neg (.num 37418414277697654 18)))),
  .set (.arr .jac 383) (.add (.rd (.arr .jac 383)) (.mul (.num 58521490484039129 17) (.mul (.rd (.var .jTemp)) (.neg (.num 37418414277697654 18))))),
  .set (.arr .jac 381) (.add (.rd (.arr .jac 381)) (.mul (.neg (.num 55053214368051429 17)) (.mul (.rd (.var .jTemp)) (.neg (.num 37418414277697654 18))))),
  .set (.arr .jac 409) (.add (.rd (.arr .jac 409)) (.mul (.num 5 1) (.mul (.rd (.var .jTemp)) (.neg (.num 73398949362949439 18))))),
  .set (.arr .jac 410) (.mul (.neg (.num 53352018846916693 17)) (.mul (.rd (.var .jTemp)) (.neg (.num 73398949362949439 18)))),
  .set (.arr .jac 404) (.add (.rd (.arr .jac 404)) (.mul (.num 56559839093517583 17) (.mul (.rd (.var .jTemp)) (.neg (.num 73398949362949439 18))))),
  .set (.arr .jac 402) (.add (.rd (.arr .jac 402)) (.mul (.neg (.num 5320782024660089 16)) (.mul (.rd (.var .jTemp)) (.neg (.num 73398949362949439 18))))),
  .set (.arr .jac 430) (.add (.rd (.arr .jac 430)) (.mul (.num 37635976769800739 17) (.mul (.rd (.var .jTemp)) (.neg (.num 42602775520927771 17))))),
  .set (.arr .jac 431) (.mul (.neg (.num 40159106838890563 17)) (.mul (.rd (.var .jTemp)) (.neg (.num 42602775520927771 17)))),
  .set (.arr .jac 425) (.add (.rd (.arr .jac 425)) (.mul (.num 42573695804545908 17) (.mul (.rd (.var .jTemp)) (.neg (.num 42602775520927771 17))))),
  .set (.arr .jac 423) (.add (.rd (.arr .jac 423)) (.mul (.neg (.num 4005056573545609 16)) (.mul (.rd (.var .jTemp)) (.neg (.num 42602775520927771 17)))))]

/-- utilities/mechanisms/drm19/lib/src/jacobs/jacob_0.c:691-696 -/
def jacobT7 : List CStmt := [
  .set (.var .jTemp) (.mul (.add (.div (.mul (.neg (.rd (.arr .presMod 1))) (.sub (.rd (.arr .fwd 7)) (.rd (.arr .rev 7)))) (.rd (.var .T))) (.mul (.div (.rd (.arr .presMod 1)) (.rd (.var .T))) (.sub (.add (.mul (.sub (.rd (.arr .fwd 7)) (.rd (.arr .rev 7))) (.div (.num 15096586945774879 13) (.rd (.var .T)))) (.mul (.rd (.arr .fwd 7)) (.neg (.num 1 0)))) (.mul (.rd (.arr .rev 7)) (.mul (.neg (.rd (.var .T))) (.sub (.sub (.rd (.arr .dBdT 12)) (.rd (.arr .dBdT 11))) (.rd (.arr .dBdT 2)))))))) (.rd (.var .rhoInv))),
  .set (.arr .jac 3) (.add (.rd (.arr .jac 3)) (.mul (.neg (.rd (.var .jTemp))) (.num 159994 4))),
  .set (.arr .jac 12) (.mul (.neg (.rd (.var .jTemp))) (.num 28010399999999997 15)),
  .set (.arr .jac 13) (.mul (.rd (.var .jTemp)) (.num 44009799999999998 15))]

/-- utilities/mechanisms/drm19/lib/src/jacobs/jacob_0.c:697-769 -/
def jacobS7 : List CStmt := [
  .ite (.rd (.var .T)) (.num 1000 0) (.var .Kc) (.sub (.add (.add (.num 87317365300000009 16) (.mul (.neg (.num 33910270499999999 16)) (.rd (.var .logT)))) (.mul (.rd (.var .T)) (.add (.num 64371346450000002 19) (.mul (.rd (.var .T)) (.add (.neg (.num 24639068299999998 22)) (.mul (.rd (.var .T)) (.add (.num 64002088133333328 26) (.mul (.neg (.num 67596737949999993 30)) (.rd (.var .T)))))))))) (.div (.neg (.num 63150142900000006 12)) (.rd (.var .T)))) (.sub (.add (.add (.neg (.num 89042421999999988 16)) (.mul (.neg (.num 42714609999999986 17)) (.rd (.var .logT)))) (.mul (.rd (.var .T)) (.add (.num 12189084718499997 19) (.mul (.rd (.var .T)) (.add (.neg (.num 20965612131666668 23)) (.mul (.rd (.var .T)) (.add (.num 25287913325000004 27) (.mul (.neg (.num 14035990855000001 31)) (.rd (.var .T)))))))))) (.div (.neg (.num 63824872699999993 12)) (.rd (.var .T)))),
  .set (.var .Kc) (.mul (.num 82057360967184814 18) (.exp (.rd (.var .Kc)))),
  .set (.var .presModTemp) (.sub (.rd (.arr .fwd 7)) (.rd (.arr .rev 7))),
  .set (.var .jTemp) (.mul (.mul (.mul (.neg (.rd (.var .mwAvg))) (.rd (.var .rhoInv))) (.rd (.arr .presMod 1))) (.sub (.mul (.num 3 0) (.rd (.arr .fwd 7))) (.mul (.num 2 0) (.rd (.arr .rev 7))))),
  .set (.var .kf) (.exp (.sub (.num 20215768003273094 15) (.div (.num 15096586945774879 13) (.rd (.var .T))))),
  .set (.var .kr) (.div (.rd (.var .kf)) (.rd (.var .Kc))),
  .set (.arr .jac 24) (.add (.rd (.arr .jac 24)) (.mul (.neg (.num 79366827390519274 16)) (.add (.mul (.rd (.var .jTemp)) (.num 92803892982949643 17)) (.mul (.num 19280389298294964 16) (.rd (.var .presModTemp)))))),
  .set (.arr .jac 33) (.mul (.neg (.num 13894874694922315 15)) (.add (.mul (.rd (.var .jTemp)) (.num 92803892982949643 17)) (.mul (.num 19280389298294964 16) (.rd (.var .presModTemp))))),
  .set (.arr .jac 34) (.mul (.num 21831557433974243 15) (.add (.mul (.rd (.var .jTemp)) (.num 92803892982949643 17)) (.mul (.num 19280389298294964 16) (.rd (.var .presModTemp))))),
  .set (.arr .jac 45) (.add (.rd (.arr .jac 45)) (.mul (.neg (.num 15873365478103855 15)) (.add (.mul (.rd (.var .jTemp)) (.num 96401946491474821 17)) (.mul (.num 96401946491474821 17) (.rd (.var .presModTemp)))))),
  .set (.arr .jac 54) (.mul (.neg (.num 2778974938984463 14)) (.add (.mul (.rd (.var .jTemp)) (.num 96401946491474821 17)) (.mul (.num 96401946491474821 17) (.rd (.var .presModTemp))))),
  .set (.arr .jac 55) (.mul (.num 43663114867948487 15) (.add (.mul (.rd (.var .jTemp)) (.num 96401946491474821 17)) (.mul (.num 96401946491474821 17) (.rd (.var .presModTemp))))),
  .set (.arr .jac 66) (.add (.rd (.arr .jac 66)) (.neg (.add (.add (.mul (.rd (.var .jTemp)) (.num 42886781649405936 17)) (.mul (.num 42886781649405936 17) (.rd (.var .presModTemp)))) (.mul (.rd (.arr .presMod 1)) (.mul (.rd (.var .kf)) (.rd (.arr .C 11))))))),
  .set (.arr .jac 75) (.mul (.neg (.num 17507156518369438 16)) (.add (.add (.mul (.rd (.var .jTemp)) (.num 42886781649405936 17)) (.mul (.num 42886781649405936 17) (.rd (.var .presModTemp)))) (.mul (.rd (.arr .presMod 1)) (.mul (.rd (.var .kf)) (.rd (.arr .C 11)))))),
  .set (.arr .jac 76) (.mul (.num 2750715651836944 15) (.add (.add (.mul (.rd (.var .jTemp)) (.num 42886781649405936 17)) (.mul (.num 42886781649405936 17) (.rd (.var .presModTemp)))) (.mul (.rd (.arr .presMod 1)) (.mul (.rd (.var .kf)) (.rd (.arr .C 11)))))),
  .set (.arr .jac 87) (.add (.rd (.arr .jac 87)) (.mul (.neg (.num 5 1)) (.add (.mul (.rd (.var .jTemp)) (.neg (.num 14226436701188128 17))) (.mul (.num 48577356329881187 16) (.rd (.var .presModTemp)))))),
  .set (.arr .jac 96) (.mul (.neg (.num 87535782591847189 17)) (.add (.mul (.rd (.var .jTemp)) (.neg (.num 14226436701188128 17))) (.mul (.num 48577356329881187 16) (.rd (.var .presModTemp))))),
  .set (.arr .jac 97) (.mul (.num 1375357825918472 15) (.add (.mul (.rd (.var .jTemp)) (.neg (.num 14226436701188128 17))) (.mul (.num 48577356329881187 16) (.rd (.var .presModTemp))))),
  .set (.arr .jac 108) (.add (.rd (.arr .jac 108)) (.mul (.neg (.num 94073500029987056 17)) (.add (.mul (.rd (.var .jTemp)) (.num 39288728140880758 17)) (.mul (.num 39288728140880758 17) (.rd (.var .presModTemp)))))),
  .set (.arr .jac 117) (.mul (.neg (.num 16469594892558153 16)) (.add (.mul (.rd (.var .jTemp)) (.num 39288728140880758 17)) (.mul (.num 39288728140880758 17) (.rd (.var .presModTemp))))),
  .set (.arr .jac 118) (.mul (.num 25876944895556862 16) (.add (.mul (.rd (.var .jTemp)) (.num 39288728140880758 17)) (.mul (.num 39288728140880758 17) (.rd (.var .presModTemp))))),
  .set (.arr .jac 129) (.add (.rd (.arr .jac 129)) (.mul (.neg (.num 88810165592763468 17)) (.add (.mul (.rd (.var .jTemp)) (.num 35690674632355568 17)) (.mul (.num 53569067463235553 16) (.rd (.var .presModTemp)))))),
  .set (.arr .jac 138) (.mul (.neg (.num 15548134694548181 16)) (.add (.mul (.rd (.var .jTemp)) (.num 35690674632355568 17)) (.mul (.num 53569067463235553 16) (.rd (.var .presModTemp))))),
  .set (.arr .jac 139) (.mul (.num 2442915125382453 15) (.add (.mul (.rd (.var .jTemp)) (.num 35690674632355568 17)) (.mul (.num 53569067463235553 16) (.rd (.var .presModTemp))))),
  .set (.arr .jac 150) (.add (.rd (.arr .jac 150)) (.mul (.neg (.num 48473130033441653 17)) (.add (.mul (.rd (.var .jTemp)) (.neg (.num 17824490209713328 17))) (.mul (.neg (.num 17824490209713328 17)) (.rd (.var .presModTemp)))))),
  .set (.arr .jac 159) (.mul (.neg (.num 84862667443073736 17)) (.add (.mul (.rd (.var .jTemp)) (.neg (.num 17824490209713328 17))) (.mul (.neg (.num 17824490209713328 17)) (.rd (.var .presModTemp))))),
  .set (.arr .jac 160) (.mul (.num 13333579747651541 16) (.add (.mul (.rd (.var .jTemp)) (.neg (.num 17824490209713328 17))) (.mul (.neg (.num 17824490209713328 17)) (.rd (.var .presModTemp))))),
  .set (.arr .jac 171) (.add (.rd (.arr .jac 171)) (.mul (.neg (.num 11406242870830863 16)) (.add (.mul (.rd (.var .jTemp)) (.num 49928106040377707 17)) (.mul (.num 49928106040377707 17) (.rd (.var .presModTemp)))))),
  .set (.arr .jac 180) (.mul (.neg (.num 19969087922617146 16)) (.add (.mul (.rd (.var .jTemp)) (.num 49928106040377707 17)) (.mul (.num 49928106040377707 17) (.rd (.var .presModTemp))))),
  .set (.arr .jac 181) (.mul (.num 31375330793448009 16) (.add (.mul (.rd (.var .jTemp)) (.num 49928106040377707 17)) (.mul (.num 49928106040377707 17) (.rd (.var .presModTemp))))),
  .set (.arr .jac 192) (.add (.rd (.arr .jac 192)) (.mul (.neg (.num 11406242870830863 16)) (.add (.mul (.rd (.var .jTemp)) (.num 49928106040377707 17)) (.mul (.num 49928106040377707 17) (.rd (.var .presModTemp)))))),
  .set (.arr .jac 201) (.mul (.neg (.num 19969087922617146 16)) (.add (.mul (.rd (.var .jTemp)) (.num 49928106040377707 17)) (.mul (.num 49928106040377707 17) (.rd (.var .presModTemp))))),
  .set (.arr .jac 202) (.mul (.num 31375330793448009 16) (.add (.mul (.rd (.var .jTemp)) (.num 49928106040377707 17)) (.mul (.num 49928106040377707 17) (.rd (.var .presModTemp))))),
  .set (.arr .jac 213) (.add (.rd (.arr .jac 213)) (.mul (.neg (.num 10641564049320178 16)) (.add (.mul (.rd (.var .jTemp)) (.num 46330052531852528 17)) (.mul (.num 46330052531852528 17) (.rd (.var .presModTemp)))))),
  .set (.arr .jac 222) (.mul (.neg (.num 18630352741170162 16)) (.add (.mul (.rd (.var .jTemp)) (.num 46330052531852528 17)) (.mul (.num 46330052531852528 17) (.rd (.var .presModTemp))))),
  .set (.arr .jac 223) (.mul (.num 2927191679049034 15) (.add (.mul (.rd (.var .jTemp)) (.num 46330052531852528 17)) (.mul (.num 46330052531852528 17) (.rd (.var .presModTemp))))),
  .set (.arr .jac 234) (.add (.rd (.arr .jac 234)) (.mul (.neg (.num 99729722317107516 17)) (.add (.mul (.rd (.var .jTemp)) (.num 42731999023327338 17)) (.mul (.num 14273199902332734 16) (.rd (.var .presModTemp)))))),
  .set (.arr .jac 243) (.mul (.neg (.num 17459838581391229 16)) (.add (.mul (.rd (.var .jTemp)) (.num 42731999023327338 17)) (.mul (.num 14273199902332734 16) (.rd (.var .presModTemp))))),
  .set (.arr .jac 244) (.mul (.num 27432810813101982 16) (.add (.mul (.rd (.var .jTemp)) (.num 42731999023327338 17)) (.mul (.num 14273199902332734 16) (.rd (.var .presModTemp))))),
  .set (.arr .jac 255) (.add (.rd (.arr .jac 255)) (.mul (.neg (.num 57119498471996122 17)) (.add (.add (.mul (.rd (.var .jTemp)) (.num 10994706834011048 20)) (.mul (.num 50010994706834011 17) (.rd (.var .presModTemp)))) (.mul (.rd (.arr .presMod 1)) (.mul (.rd (.var .kf)) (.rd (.arr .C 2))))))),
  .set (.arr .jac 264) (.neg (.add (.add (.mul (.rd (.var .jTemp)) (.num 10994706834011048 20)) (.mul (.num 50010994706834011 17) (.rd (.var .presModTemp)))) (.mul (.rd (.arr .presMod 1)) (.mul (.rd (.var .kf)) (.rd (.arr .C 2)))))),
  .set (.arr .jac 265) (.mul (.num 15711949847199613 16) (.add (.add (.mul (.rd (.var .jTemp)) (.num 10994706834011048 20)) (.mul (.num 50010994706834011 17) (.rd (.var .presModTemp)))) (.mul (.rd (.arr .presMod 1)) (.mul (.rd (.var .kf)) (.rd (.arr .C 2)))))),
  .set (.arr .jac 276) (.add (.rd (.arr .jac 276)) (.mul (.neg (.num 36354175660875532 17)) (.add (.add (.mul (.rd (.var .jTemp)) (.neg (.num 57102223643760053 17))) (.mul (.num 19289777635623995 16) (.rd (.var .presModTemp)))) (.mul (.rd (.arr .presMod 1)) (.neg (.rd (.var .kr))))))),
  .set (.arr .jac 285) (.mul (.neg (.num 63645824339124468 17)) (.add (.add (.mul (.rd (.var .jTemp)) (.neg (.num 57102223643760053 17))) (.mul (.num 19289777635623995 16) (.rd (.var .presModTemp)))) (.mul (.rd (.arr .presMod 1)) (.neg (.rd (.var .kr)))))),
  .set (.arr .jac 286) (.add (.add (.mul (.rd (.var .jTemp)) (.neg (.num 57102223643760053 17))) (.mul (.num 19289777635623995 16) (.rd (.var .presModTemp)))) (.mul (.rd (.arr .presMod 1)) (.neg (.rd (.var .kr))))),
  .set (.arr .jac 297) (.add (.rd (.arr .jac 297)) (.mul (.neg (.num 55135476391826688 17)) (.add (.mul (.rd (.var .jTemp)) (.neg (.num 35870588016911675 18))) (.mul (.neg (.num 35870588016911675 18)) (.rd (.var .presModTemp)))))),
  .set (.arr .jac 306) (.mul (.neg (.num 96526541490657281 17)) (.add (.mul (.rd (.var .jTemp)) (.neg (.num 35870588016911675 18))) (.mul (.neg (.num 35870588016911675 18)) (.rd (.var .presModTemp))))),
  .set (.arr .jac 307) (.mul (.num 15166201788248397 16) (.add (.mul (.rd (.var .jTemp)) (.neg (.num 35870588016911675 18))) (.mul (.neg (.num 35870588016911675 18)) (.rd (.var .presModTemp))))),
  .set (.arr .jac 318) (.add (.rd (.arr .jac 318)) (.mul (.neg (.num 53284655974699491 17)) (.add (.mul (.rd (.var .jTemp)) (.neg (.num 71851123102163683 18))) (.mul (.neg (.num 71851123102163683 18)) (.rd (.var .presModTemp)))))),
  .set (.arr .jac 327) (.mul (.neg (.num 93286281217653322 17)) (.add (.mul (.rd (.var .jTemp)) (.neg (.num 71851123102163683 18))) (.mul (.neg (.num 71851123102163683 18)) (.rd (.var .presModTemp))))),
  .set (.arr .jac 328) (.mul (.num 14657093719235283 16) (.add (.mul (.rd (.var .jTemp)) (.neg (.num 71851123102163683 18))) (.mul (.neg (.num 71851123102163683 18)) (.rd (.var .presModTemp))))),
  .set (.arr .jac 339) (.add (.rd (.arr .jac 339)) (.mul (.neg (.num 5155405871325266 16)) (.add (.mul (.rd (.var .jTemp)) (.neg (.num 10783165818741525 17))) (.mul (.neg (.num 10783165818741525 17)) (.rd (.var .presModTemp)))))),
  .set (.arr .jac 348) (.mul (.neg (.num 90256497505012201 17)) (.add (.mul (.rd (.var .jTemp)) (.neg (.num 10783165818741525 17))) (.mul (.neg (.num 10783165818741525 17)) (.rd (.var .presModTemp))))),
  .set (.arr .jac 349) (.mul (.num 14181055621826488 16) (.add (.mul (.rd (.var .jTemp)) (.neg (.num 10783165818741525 17))) (.mul (.neg (.num 10783165818741525 17)) (.rd (.var .presModTemp))))),
  .set (.arr .jac 360) (.add (.rd (.arr .jac 360)) (.mul (.neg (.num 57031214354154314 17)) (.add (.mul (.rd (.var .jTemp)) (.neg (.num 14378791924458678 19))) (.mul (.neg (.num 14378791924458678 19)) (.rd (.var .presModTemp)))))),
  .set (.arr .jac 369) (.mul (.neg (.num 99845439613085729 17)) (.add (.mul (.rd (.var .jTemp)) (.neg (.num 14378791924458678 19))) (.mul (.neg (.num 14378791924458678 19)) (.rd (.var .presModTemp))))),
  .set (.arr .jac 370) (.mul (.num 15687665396724004 16) (.add (.mul (.rd (.var .jTemp)) (.neg (.num 14378791924458678 19))) (.mul (.neg (.num 14378791924458678 19)) (.rd (.var .presModTemp))))),
  .set (.arr .jac 381) (.add (.rd (.arr .jac 381)) (.mul (.neg (.num 55053214368051429 17)) (.add (.mul (.rd (.var .jTemp)) (.neg (.num 37418414277697654 18))) (.mul (.neg (.num 37418414277697654 18)) (.rd (.var .presModTemp)))))),
  .set (.arr .jac 390) (.mul (.neg (.num 96382524078082144 17)) (.add (.mul (.rd (.var .jTemp)) (.neg (.num 37418414277697654 18))) (.mul (.neg (.num 37418414277697654 18)) (.rd (.var .presModTemp))))),
  .set (.arr .jac 391) (.mul (.num 15143573844613358 16) (.add (.mul (.rd (.var .jTemp)) (.neg (.num 37418414277697654 18))) (.mul (.neg (.num 37418414277697654 18)) (.rd (.var .presModTemp))))),
  .set (.arr .jac 402) (.add (.rd (.arr .jac 402)) (.mul (.neg (.num 5320782024660089 16)) (.add (.mul (.rd (.var .jTemp)) (.neg (.num 73398949362949439 18))) (.mul (.num 19266010506370506 16) (.rd (.var .presModTemp)))))),
  .set (.arr .jac 411) (.mul (.neg (.num 9315176370585081 16)) (.add (.mul (.rd (.var .jTemp)) (.neg (.num 73398949362949439 18))) (.mul (.num 19266010506370506 16) (.rd (.var .presModTemp))))),
  .set (.arr .jac 412) (.mul (.num 1463595839524517 15) (.add (.mul (.rd (.var .jTemp)) (.neg (.num 73398949362949439 18))) (.mul (.num 19266010506370506 16) (.rd (.var .presModTemp))))),
  .set (.arr .jac 423) (.add (.rd (.arr .jac 423)) (.mul (.neg (.num 4005056573545609 16)) (.add (.mul (.rd (.var .jTemp)) (.neg (.num 42602775520927771 17))) (.mul (.neg (.num 92602775520927771 17)) (.rd (.var .presModTemp)))))),
  .set (.arr .jac 432) (.mul (.neg (.num 70117152297987373 17)) (.add (.mul (.rd (.var .jTemp)) (.neg (.num 42602775520927771 17))) (.mul (.neg (.num 92602775520927771 17)) (.rd (.var .presModTemp))))),
  .set (.arr .jac 433) (.mul (.num 11016771803344347 16) (.add (.mul (.rd (.var .jTemp)) (.neg (.num 42602775520927771 17))) (.mul (.neg (.num 92602775520927771 17)) (.rd (.var .presModTemp)))))]

/-- utilities/mechanisms/drm19/lib/src/jacobs/jacob_0.c:770-776 -/
def jacobT8 : List CStmt := [
  .set (.var .jTemp) (.mul (.mul (.div (.num 1 0) (.rd (.var .T))) (.sub (.mul (.rd (.arr .fwd 8)) (.neg (.num 1 0))) (.mul (.rd (.arr .rev 8)) (.add (.neg (.num 1 0)) (.mul (.neg (.rd (.var .T))) (.sub (.sub (.add (.rd (.arr .dBdT 11)) (.rd (.arr .dBdT 4))) (.rd (.arr .dBdT 13))) (.rd (.arr .dBdT 2)))))))) (.rd (.var .rhoInv))),
  .set (.arr .jac 3) (.add (.rd (.arr .jac 3)) (.mul (.neg (.rd (.var .jTemp))) (.num 159994 4))),
  .set (.arr .jac 12) (.add (.rd (.arr .jac 12)) (.mul (.rd (.var .jTemp)) (.num 28010399999999997 15))),
  .set (.arr .jac 5) (.add (.rd (.arr .jac 5)) (.mul (.rd (.var .jTemp)) (.num 17007339999999999 15))),
  .set (.arr .jac 14) (.add (.rd (.arr .jac 14)) (.mul (.neg (.rd (.var .jTemp))) (.num 29018339999999998 15)))]

/-- utilities/mechanisms/drm19/lib/src/jacobs/jacob_0.c:777-868 -/
def jacobS8 : List CStmt := [
  .ite (.rd (.var .T)) (.num 1000 0) (.var .Kc) (.sub (.add (.add (.neg (.num 22239180279999999 16)) (.mul (.num 18209595999999939 17) (.rd (.var .logT)))) (.mul (.rd (.var .T)) (.add (.num 17557864799999999 19) (.mul (.rd (.var .T)) (.add (.neg (.num 24647093033333336 22)) (.mul (.rd (.var .T)) (.add (.num 13723623411666666 25) (.mul (.neg (.num 29953290795 23)) (.rd (.var .T)))))))))) (.div (.neg (.num 43690829599999997 12)) (.rd (.var .T)))) (.sub (.add (.add (.neg (.num 27537778599999996 16)) (.mul (.num 46647811999999966 17) (.rd (.var .logT)))) (.mul (.rd (.var .T)) (.add (.neg (.num 11300120001499999 19)) (.mul (.rd (.var .T)) (.add (.num 26169785468333331 23) (.mul (.rd (.var .T)) (.add (.neg (.num 36419762141666674 27)) (.mul (.num 21749500094999998 31) (.rd (.var .T)))))))))) (.div (.neg (.num 43522712649999994 12)) (.rd (.var .T)))),
  .set (.var .Kc) (.exp (.rd (.var .Kc))),
  .set (.var .jTemp) (.mul (.mul (.neg (.rd (.var .mwAvg))) (.rd (.var .rhoInv))) (.sub (.mul (.num 2 0) (.rd (.arr .fwd 8))) (.mul (.num 2 0) (.rd (.arr .rev 8))))),
  .set (.var .kf) (.num 30000000000 0),
  .set (.var .kr) (.div (.rd (.var .kf)) (.rd (.var .Kc))),
  .set (.arr .jac 24) (.add (.rd (.arr .jac 24)) (.mul (.neg (.num 79366827390519274 16)) (.mul (.rd (.var .jTemp)) (.num 92803892982949643 17)))),
  .set (.arr .jac 33) (.add (.rd (.arr .jac 33)) (.mul (.num 13894874694922315 15) (.mul (.rd (.var .jTemp)) (.num 92803892982949643 17)))),
  .set (.arr .jac 26) (.add (.rd (.arr .jac 26)) (.mul (.num 84366827390519266 16) (.mul (.rd (.var .jTemp)) (.num 92803892982949643 17)))),
  .set (.arr .jac 35) (.add (.rd (.arr .jac 35)) (.mul (.neg (.num 14394874694922315 15)) (.mul (.rd (.var .jTemp)) (.num 92803892982949643 17)))),
  .set (.arr .jac 45) (.add (.rd (.arr .jac 45)) (.mul (.neg (.num 15873365478103855 15)) (.mul (.rd (.var .jTemp)) (.num 96401946491474821 17)))),
  .set (.arr .jac 54) (.add (.rd (.arr .jac 54)) (.mul (.num 2778974938984463 14) (.mul (.rd (.var .jTemp)) (.num 96401946491474821 17)))),
  .set (.arr .jac 47) (.add (.rd (.arr .jac 47)) (.mul (.num 16873365478103853 15) (.mul (.rd (.var .jTemp)) (.num 96401946491474821 17)))),
  .set (.arr .jac 56) (.add (.rd (.arr .jac 56)) (.mul (.neg (.num 2878974938984463 14)) (.mul (.rd (.var .jTemp)) (.num 96401946491474821 17)))),
  .set (.arr .jac 66) (.add (.rd (.arr .jac 66)) (.neg (.add (.mul (.rd (.var .jTemp)) (.num 42886781649405936 17)) (.mul (.rd (.var .kf)) (.rd (.arr .C 13)))))),
  .set (.arr .jac 75) (.add (.rd (.arr .jac 75)) (.mul (.num 17507156518369438 16) (.add (.mul (.rd (.var .jTemp)) (.num 42886781649405936 17)) (.mul (.rd (.var .kf)) (.rd (.arr .C 13)))))),
  .set (.arr .jac 68) (.add (.rd (.arr .jac 68)) (.mul (.num 10629986124479667 16) (.add (.mul (.rd (.var .jTemp)) (.num 42886781649405936 17)) (.mul (.rd (.var .kf)) (.rd (.arr .C 13)))))),
  .set (.arr .jac 77) (.add (.rd (.arr .jac 77)) (.mul (.neg (.num 18137142642849107 16)) (.add (.mul (.rd (.var .jTemp)) (.num 42886781649405936 17)) (.mul (.rd (.var .kf)) (.rd (.arr .C 13)))))),
  .set (.arr .jac 87) (.add (.rd (.arr .jac 87)) (.mul (.neg (.num 5 1)) (.mul (.rd (.var .jTemp)) (.neg (.num 14226436701188128 17))))),
  .set (.arr .jac 96) (.add (.rd (.arr .jac 96)) (.mul (.num 87535782591847189 17) (.mul (.rd (.var .jTemp)) (.neg (.num 14226436701188128 17))))),
  .set (.arr .jac 89) (.add (.rd (.arr .jac 89)) (.mul (.num 53149930622398334 17) (.mul (.rd (.var .jTemp)) (.neg (.num 14226436701188128 17))))),
  .set (.arr .jac 98) (.add (.rd (.arr .jac 98)) (.mul (.neg (.num 90685713214245534 17)) (.mul (.rd (.var .jTemp)) (.neg (.num 14226436701188128 17))))),
  .set (.arr .jac 108) (.add (.rd (.arr .jac 108)) (.mul (.neg (.num 94073500029987056 17)) (.sub (.mul (.rd (.var .jTemp)) (.num 39288728140880758 17)) (.mul (.rd (.var .kr)) (.rd (.arr .C 11)))))),
  .set (.arr .jac 117) (.add (.rd (.arr .jac 117)) (.mul (.num 16469594892558153 16) (.sub (.mul (.rd (.var .jTemp)) (.num 39288728140880758 17)) (.mul (.rd (.var .kr)) (.rd (.arr .C 11)))))),
  .set (.arr .jac 110) (.add (.rd (.arr .jac 110)) (.sub (.mul (.rd (.var .jTemp)) (.num 39288728140880758 17)) (.mul (.rd (.var .kr)) (.rd (.arr .C 11))))),
  .set (.arr .jac 119) (.add (.rd (.arr .jac 119)) (.mul (.neg (.num 17062244889559448 16)) (.sub (.mul (.rd (.var .jTemp)) (.num 39288728140880758 17)) (.mul (.rd (.var .kr)) (.rd (.arr .C 11)))))),
  .set (.arr .jac 129) (.add (.rd (.arr .jac 129)) (.mul (.neg (.num 88810165592763468 17)) (.mul (.rd (.var .jTemp)) (.num 35690674632355568 17)))),
  .set (.arr .jac 138) (.add (.rd (.arr .jac 138)) (.mul (.num 15548134694548181 16) (.mul (.rd (.var .jTemp)) (.num 35690674632355568 17)))),
  .set (.arr .jac 131) (.add (.rd (.arr .jac 131)) (.mul (.num 94405082796381734 17) (.mul (.rd (.var .jTemp)) (.num 35690674632355568 17)))),
  .set (.arr .jac 140) (.add (.rd (.arr .jac 140)) (.mul (.neg (.num 16107626414910008 16)) (.mul (.rd (.var .jTemp)) (.num 35690674632355568 17)))),
  .set (.arr .jac 150) (.add (.rd (.arr .jac 150)) (.mul (.neg (.num 48473130033441653 17)) (.mul (.rd (.var .jTemp)) (.neg (.num 17824490209713328 17))))),
  .set (.arr .jac 159) (.add (.rd (.arr .jac 159)) (.mul (.num 84862667443073736 17) (.mul (.rd (.var .jTemp)) (.neg (.num 17824490209713328 17))))),
  .set (.arr .jac 152) (.add (.rd (.arr .jac 152)) (.mul (.num 51526869966558342 17) (.mul (.rd (.var .jTemp)) (.neg (.num 17824490209713328 17))))),
  .set (.arr .jac 161) (.add (.rd (.arr .jac 161)) (.mul (.neg (.num 87916407376190431 17)) (.mul (.rd (.var .jTemp)) (.neg (.num 17824490209713328 17))))),
  .set (.arr .jac 171) (.add (.rd (.arr .jac 171)) (.mul (.neg (.num 11406242870830863 16)) (.mul (.rd (.var .jTemp)) (.num 49928106040377707 17)))),
  .set (.arr .jac 180) (.add (.rd (.arr .jac 180)) (.mul (.num 19969087922617146 16) (.mul (.rd (.var .jTemp)) (.num 49928106040377707 17)))),
  .set (.arr .jac 173) (.add (.rd (.arr .jac 173)) (.mul (.num 12124820344937721 16) (.mul (.rd (.var .jTemp)) (.num 49928106040377707 17)))),
  .set (.arr .jac 182) (.add (.rd (.arr .jac 182)) (.mul (.neg (.num 20687665396724007 16)) (.mul (.rd (.var .jTemp)) (.num 49928106040377707 17)))),
  .set (.arr .jac 192) (.add (.rd (.arr .jac 192)) (.mul (.neg (.num 11406242870830863 16)) (.mul (.rd (.var .jTemp)) (.num 49928106040377707 17)))),
  .set (.arr .jac 201) (.add (.rd (.arr .jac 201)) (.mul (.num 19969087922617146 16) (.mul (.rd (.var .jTemp)) (.num 49928106040377707 17)))),
  .set (.arr .jac 194) (.add (.rd (.arr .jac 194)) (.mul (.num 12124820344937721 16) (.mul (.rd (.var .jTemp)) (.num 49928106040377707 17)))),
  .set (.arr .jac 203) (.add (.rd (.arr .jac 203)) (.mul (.neg (.num 20687665396724007 16)) (.mul (.rd (.var .jTemp)) (.num 49928106040377707 17)))),
  .set (.arr .jac 213) (.add (.rd (.arr .jac 213)) (.mul (.neg (.num 10641564049320178 16)) (.mul (.rd (.var .jTemp)) (.num 46330052531852528 17)))),
  .set (.arr .jac 222) (.add (.rd (.arr .jac 222)) (.mul (.num 18630352741170162 16) (.mul (.rd (.var .jTemp)) (.num 46330052531852528 17)))),
  .set (.arr .jac 215) (.add (.rd (.arr .jac 215)) (.mul (.num 11311967818703517 16) (.mul (.rd (.var .jTemp)) (.num 46330052531852528 17)))),
  .set (.arr .jac 224) (.add (.rd (.arr .jac 224)) (.mul (.neg (.num 19300756510553501 16)) (.mul (.rd (.var .jTemp)) (.num 46330052531852528 17)))),
  .set (.arr .jac 234) (.add (.rd (.arr .jac 234)) (.mul (.neg (.num 99729722317107516 17)) (.mul (.rd (.var .jTemp)) (.num 42731999023327338 17)))),
  .set (.arr .jac 243) (.add (.rd (.arr .jac 243)) (.mul (.num 17459838581391229 16) (.mul (.rd (.var .jTemp)) (.num 42731999023327338 17)))),
  .set (.arr .jac 236) (.add (.rd (.arr .jac 236)) (.mul (.num 10601255644290632 16) (.mul (.rd (.var .jTemp)) (.num 42731999023327338 17)))),
  .set (.arr .jac 245) (.add (.rd (.arr .jac 245)) (.mul (.neg (.num 18088121993971109 16)) (.mul (.rd (.var .jTemp)) (.num 42731999023327338 17)))),
  .set (.arr .jac 255) (.add (.rd (.arr .jac 255)) (.mul (.neg (.num 57119498471996122 17)) (.sub (.mul (.rd (.var .jTemp)) (.num 10994706834011048 20)) (.mul (.rd (.var .kr)) (.rd (.arr .C 4)))))),
  .set (.arr .jac 264) (.add (.rd (.arr .jac 264)) (.sub (.mul (.rd (.var .jTemp)) (.num 10994706834011048 20)) (.mul (.rd (.var .kr)) (.rd (.arr .C 4))))),
  .set (.arr .jac 257) (.add (.rd (.arr .jac 257)) (.mul (.num 60717947619455637 17) (.sub (.mul (.rd (.var .jTemp)) (.num 10994706834011048 20)) (.mul (.rd (.var .kr)) (.rd (.arr .C 4)))))),
  .set (.arr .jac 266) (.add (.rd (.arr .jac 266)) (.mul (.neg (.num 10359844914745953 16)) (.sub (.mul (.rd (.var .jTemp)) (.num 10994706834011048 20)) (.mul (.rd (.var .kr)) (.rd (.arr .C 4)))))),
  .set (.arr .jac 276) (.add (.rd (.arr .jac 276)) (.mul (.neg (.num 36354175660875532 17)) (.mul (.rd (.var .jTemp)) (.neg (.num 57102223643760053 17))))),
  .set (.arr .jac 285) (.add (.rd (.arr .jac 285)) (.mul (.num 63645824339124468 17) (.mul (.rd (.var .jTemp)) (.neg (.num 57102223643760053 17))))),
  .set (.arr .jac 278) (.add (.rd (.arr .jac 278)) (.mul (.num 38644438284200339 17) (.mul (.rd (.var .jTemp)) (.neg (.num 57102223643760053 17))))),
  .set (.arr .jac 287) (.add (.rd (.arr .jac 287)) (.mul (.neg (.num 6593608696244927 16)) (.mul (.rd (.var .jTemp)) (.neg (.num 57102223643760053 17))))),
  .set (.arr .jac 297) (.add (.rd (.arr .jac 297)) (.mul (.neg (.num 55135476391826688 17)) (.add (.mul (.rd (.var .jTemp)) (.neg (.num 35870588016911675 18))) (.mul (.rd (.var .kf)) (.rd (.arr .C 2)))))),
  .set (.arr .jac 306) (.add (.rd (.arr .jac 306)) (.mul (.num 96526541490657281 17) (.add (.mul (.rd (.var .jTemp)) (.neg (.num 35870588016911675 18))) (.mul (.rd (.var .kf)) (.rd (.arr .C 2)))))),
  .set (.arr .jac 299) (.add (.rd (.arr .jac 299)) (.mul (.num 58608934901169396 17) (.add (.mul (.rd (.var .jTemp)) (.neg (.num 35870588016911675 18))) (.mul (.rd (.var .kf)) (.rd (.arr .C 2)))))),
  .set (.arr .jac 308) (.add (.rd (.arr .jac 308)) (.neg (.add (.mul (.rd (.var .jTemp)) (.neg (.num 35870588016911675 18))) (.mul (.rd (.var .kf)) (.rd (.arr .C 2)))))),
  .set (.arr .jac 318) (.add (.rd (.arr .jac 318)) (.mul (.neg (.num 53284655974699491 17)) (.mul (.rd (.var .jTemp)) (.neg (.num 71851123102163683 18))))),
  .set (.arr .jac 327) (.add (.rd (.arr .jac 327)) (.mul (.num 93286281217653322 17) (.mul (.rd (.var .jTemp)) (.neg (.num 71851123102163683 18))))),
  .set (.arr .jac 320) (.add (.rd (.arr .jac 320)) (.mul (.num 5664151536587283 16) (.mul (.rd (.var .jTemp)) (.neg (.num 71851123102163683 18))))),
  .set (.arr .jac 329) (.add (.rd (.arr .jac 329)) (.mul (.neg (.num 96643140608826661 17)) (.mul (.rd (.var .jTemp)) (.neg (.num 71851123102163683 18))))),
  .set (.arr .jac 339) (.add (.rd (.arr .jac 339)) (.mul (.neg (.num 5155405871325266 16)) (.mul (.rd (.var .jTemp)) (.neg (.num 10783165818741525 17))))),
  .set (.arr .jac 348) (.add (.rd (.arr .jac 348)) (.mul (.num 90256497505012201 17) (.mul (.rd (.var .jTemp)) (.neg (.num 10783165818741525 17))))),
  .set (.arr .jac 341) (.add (.rd (.arr .jac 341)) (.mul (.num 54801892878248593 17) (.mul (.rd (.var .jTemp)) (.neg (.num 10783165818741525 17))))),
  .set (.arr .jac 350) (.add (.rd (.arr .jac 350)) (.mul (.neg (.num 93504331670008145 17)) (.mul (.rd (.var .jTemp)) (.neg (.num 10783165818741525 17))))),
  .set (.arr .jac 360) (.add (.rd (.arr .jac 360)) (.mul (.neg (.num 57031214354154314 17)) (.mul (.rd (.var .jTemp)) (.neg (.num 14378791924458678 19))))),
  .set (.arr .jac 369) (.add (.rd (.arr .jac 369)) (.mul (.num 99845439613085729 17) (.mul (.rd (.var .jTemp)) (.neg (.num 14378791924458678 19))))),
  .set (.arr .jac 362) (.add (.rd (.arr .jac 362)) (.mul (.num 60624101724688606 17) (.mul (.rd (.var .jTemp)) (.neg (.num 14378791924458678 19))))),
  .set (.arr .jac 371) (.add (.rd (.arr .jac 371)) (.mul (.neg (.num 10343832698362003 16)) (.mul (.rd (.var .jTemp)) (.neg (.num 14378791924458678 19))))),
  .set (.arr .jac 381) (.add (.rd (.arr .jac 381)) (.mul (.neg (.num 55053214368051429 17)) (.mul (.rd (.var .jTemp)) (.neg (.num 37418414277697654 18))))),
  .set (.arr .jac 390) (.add (.rd (.arr .jac 390)) (.mul (.num 96382524078082144 17) (.mul (.rd (.var .jTemp)) (.neg (.num 37418414277697654 18))))),
  .set (.arr .jac 383) (.add (.rd (.arr .jac 383)) (.mul (.num 58521490484039129 17) (.mul (.rd (.var .jTemp)) (.neg (.num 37418414277697654 18))))),
  .set (.arr .jac 392) (.add (.rd (.arr .jac 392)) (.mul (.neg (.num 99850800194069855 17)) (.mul (.rd (.var .jTemp)) (.neg (.num 37418414277697654 18))))),
  .set (.arr .jac 402) (.add (.rd (.arr .jac 402)) (.mul (.neg (.num 5320782024660089 16)) (.mul (.rd (.var .jTemp)) (.neg (.num 73398949362949439 18))))),
  .set (.arr .jac 411) (.add (.rd (.arr .jac 411)) (.mul (.num 9315176370585081 16) (.mul (.rd (.var .jTemp)) (.neg (.num 73398949362949439 18))))),
  .set (.arr .jac 404) (.add (.rd (.arr .jac 404)) (.mul (.num 56559839093517583 17) (.mul (.rd (.var .jTemp)) (.neg (.num 73398949362949439 18))))),
  .set (.arr .jac 413) (.add (.rd (.arr .jac 413)) (.mul (.neg (.num 96503782552767503 17)) (.mul (.rd (.var .jTemp)) (.neg (.num 73398949362949439 18))))),
  .set (.arr .jac 423) (.add (.rd (.arr .jac 423)) (.mul (.neg (.num 4005056573545609 16)) (.mul (.rd (.var .jTemp)) (.neg (.num 42602775520927771 17))))),
  .set (.arr .jac 432) (.add (.rd (.arr .jac 432)) (.mul (.num 70117152297987373 17) (.mul (.rd (.var .jTemp)) (.neg (.num 42602775520927771 17))))),
  .set (.arr .jac 425) (.add (.rd (.arr .jac 425)) (.mul (.num 42573695804545908 17) (.mul (.rd (.var .jTemp)) (.neg (.num 42602775520927771 17))))),
  .set (.arr .jac 434) (.add (.rd (.arr .jac 434)) (.mul (.neg (.num 72640282367077191 17)) (.mul (.rd (.var .jTemp)) (.neg (.num 42602775520927771 17)))))]

/-- utilities/mechanisms/drm19/lib/src/jacobs/jacob_0.c:869-875 -/
def jacobT9 : List CStmt := [
  .set (.var .jTemp) (.mul (.mul (.div (.num 1 0) (.rd (.var .T))) (.sub (.mul (.rd (.arr .fwd 9)) (.neg (.num 1 0))) (.mul (.rd (.arr .rev 9)) (.add (.neg (.num 1 0)) (.mul (.neg (.rd (.var .T))) (.sub (.sub (.add (.rd (.arr .dBdT 1)) (.rd (.arr .dBdT 12))) (.rd (.arr .dBdT 13))) (.rd (.arr .dBdT 2)))))))) (.rd (.var .rhoInv))),
  .set (.arr .jac 2) (.add (.rd (.arr .jac 2)) (.mul (.rd (.var .jTemp)) (.num 10079400000000001 16))),
  .set (.arr .jac 3) (.add (.rd (.arr .jac 3)) (.mul (.neg (.rd (.var .jTemp))) (.num 159994 4))),
  .set (.arr .jac 13) (.add (.rd (.arr .jac 13)) (.mul (.rd (.var .jTemp)) (.num 44009799999999998 15))),
  .set (.arr .jac 14) (.add (.rd (.arr .jac 14)) (.mul (.neg (.rd (.var .jTemp))) (.num 29018339999999998 15)))]

/-- utilities/mechanisms/drm19/lib/src/jacobs/jacob_0.c:876-967 -/
def jacobS9 : List CStmt := [
  .ite (.rd (.var .T)) (.num 1000 0) (.var .Kc) (.sub (.add (.add (.num 65407428970000012 16) (.mul (.neg (.num 25326794200000005 16)) (.rd (.var .logT)))) (.mul (.rd (.var .T)) (.add (.num 77539204653526671 19) (.mul (.rd (.var .T)) (.add (.neg (.num 45910952086659868 22)) (.mul (.rd (.var .T)) (.add (.num 18251388135250679 25) (.mul (.neg (.num 3297023954463866 28)) (.rd (.var .T)))))))))) (.div (.neg (.num 55860133960000006 12)) (.rd (.var .T)))) (.sub (.add (.add (.neg (.num 13773593553999998 15)) (.mul (.num 10158651399999998 16) (.rd (.var .logT)))) (.mul (.rd (.var .T)) (.add (.neg (.num 22830545469214878 20)) (.mul (.rd (.var .T)) (.add (.num 37948941209365808 24) (.mul (.rd (.var .T)) (.add (.neg (.num 46378179029293633 28)) (.mul (.num 2457059144098679 31) (.rd (.var .T)))))))))) (.div (.neg (.num 56515003349999999 12)) (.rd (.var .T)))),
  .set (.var .Kc) (.exp (.rd (.var .Kc))),
  .set (.var .jTemp) (.mul (.mul (.neg (.rd (.var .mwAvg))) (.rd (.var .rhoInv))) (.sub (.mul (.num 2 0) (.rd (.arr .fwd 9))) (.mul (.num 2 0) (.rd (.arr .rev 9))))),
  .set (.var .kf) (.num 30000000000 0),
  .set (.var .kr) (.div (.rd (.var .kf)) (.rd (.var .Kc))),
  .set (.arr .jac 23) (.add (.rd (.arr .jac 23)) (.mul (.num 5 1) (.mul (.rd (.var .jTemp)) (.num 92803892982949643 17)))),
  .set (.arr .jac 24) (.add (.rd (.arr .jac 24)) (.mul (.neg (.num 79366827390519274 16)) (.mul (.rd (.var .jTemp)) (.num 92803892982949643 17)))),
  .set (.arr .jac 34) (.add (.rd (.arr .jac 34)) (.mul (.num 21831557433974243 15) (.mul (.rd (.var .jTemp)) (.num 92803892982949643 17)))),
  .set (.arr .jac 35) (.add (.rd (.arr .jac 35)) (.mul (.neg (.num 14394874694922315 15)) (.mul (.rd (.var .jTemp)) (.num 92803892982949643 17)))),
  .set (.arr .jac 44) (.add (.rd (.arr .jac 44)) (.sub (.mul (.rd (.var .jTemp)) (.num 96401946491474821 17)) (.mul (.rd (.var .kr)) (.rd (.arr .C 12))))),
  .set (.arr .jac 45) (.add (.rd (.arr .jac 45)) (.mul (.neg (.num 15873365478103855 15)) (.sub (.mul (.rd (.var .jTemp)) (.num 96401946491474821 17)) (.mul (.rd (.var .kr)) (.rd (.arr .C 12)))))),
  .set (.arr .jac 55) (.add (.rd (.arr .jac 55)) (.mul (.num 43663114867948487 15) (.sub (.mul (.rd (.var .jTemp)) (.num 96401946491474821 17)) (.mul (.rd (.var .kr)) (.rd (.arr .C 12)))))),
  .set (.arr .jac 56) (.add (.rd (.arr .jac 56)) (.mul (.neg (.num 2878974938984463 14)) (.sub (.mul (.rd (.var .jTemp)) (.num 96401946491474821 17)) (.mul (.rd (.var .kr)) (.rd (.arr .C 12)))))),
  .set (.arr .jac 65) (.add (.rd (.arr .jac 65)) (.mul (.num 62998612447966798 18) (.add (.mul (.rd (.var .jTemp)) (.num 42886781649405936 17)) (.mul (.rd (.var .kf)) (.rd (.arr .C 13)))))),
  .set (.arr .jac 66) (.add (.rd (.arr .jac 66)) (.neg (.add (.mul (.rd (.var .jTemp)) (.num 42886781649405936 17)) (.mul (.rd (.var .kf)) (.rd (.arr .C 13)))))),
  .set (.arr .jac 76) (.add (.rd (.arr .jac 76)) (.mul (.num 2750715651836944 15) (.add (.mul (.rd (.var .jTemp)) (.num 42886781649405936 17)) (.mul (.rd (.var .kf)) (.rd (.arr .C 13)))))),
  .set (.arr .jac 77) (.add (.rd (.arr .jac 77)) (.mul (.neg (.num 18137142642849107 16)) (.add (.mul (.rd (.var .jTemp)) (.num 42886781649405936 17)) (.mul (.rd (.var .kf)) (.rd (.arr .C 13)))))),
  .set (.arr .jac 86) (.add (.rd (.arr .jac 86)) (.mul (.num 31499306223983399 18) (.mul (.rd (.var .jTemp)) (.neg (.num 14226436701188128 17))))),
  .set (.arr .jac 87) (.add (.rd (.arr .jac 87)) (.mul (.neg (.num 5 1)) (.mul (.rd (.var .jTemp)) (.neg (.num 14226436701188128 17))))),
  .set (.arr .jac 97) (.add (.rd (.arr .jac 97)) (.mul (.num 1375357825918472 15) (.mul (.rd (.var .jTemp)) (.neg (.num 14226436701188128 17))))),
  .set (.arr .jac 98) (.add (.rd (.arr .jac 98)) (.mul (.neg (.num 90685713214245534 17)) (.mul (.rd (.var .jTemp)) (.neg (.num 14226436701188128 17))))),
  .set (.arr .jac 107) (.add (.rd (.arr .jac 107)) (.mul (.num 59264999700129481 18) (.mul (.rd (.var .jTemp)) (.num 39288728140880758 17)))),
  .set (.arr .jac 108) (.add (.rd (.arr .jac 108)) (.mul (.neg (.num 94073500029987056 17)) (.mul (.rd (.var .jTemp)) (.num 39288728140880758 17)))),
  .set (.arr .jac 118) (.add (.rd (.arr .jac 118)) (.mul (.num 25876944895556862 16) (.mul (.rd (.var .jTemp)) (.num 39288728140880758 17)))),
  .set (.arr .jac 119) (.add (.rd (.arr .jac 119)) (.mul (.neg (.num 17062244889559448 16)) (.mul (.rd (.var .jTemp)) (.num 39288728140880758 17)))),
  .set (.arr .jac 128) (.add (.rd (.arr .jac 128)) (.mul (.num 55949172036182618 18) (.mul (.rd (.var .jTemp)) (.num 35690674632355568 17)))),
  .set (.arr .jac 129) (.add (.rd (.arr .jac 129)) (.mul (.neg (.num 88810165592763468 17)) (.mul (.rd (.var .jTemp)) (.num 35690674632355568 17)))),
  .set (.arr .jac 139) (.add (.rd (.arr .jac 139)) (.mul (.num 2442915125382453 15) (.mul (.rd (.var .jTemp)) (.num 35690674632355568 17)))),
  .set (.arr .jac 140) (.add (.rd (.arr .jac 140)) (.mul (.neg (.num 16107626414910008 16)) (.mul (.rd (.var .jTemp)) (.num 35690674632355568 17)))),
  .set (.arr .jac 149) (.add (.rd (.arr .jac 149)) (.mul (.num 3053739933116691 17) (.mul (.rd (.var .jTemp)) (.neg (.num 17824490209713328 17))))),
  .set (.arr .jac 150) (.add (.rd (.arr .jac 150)) (.mul (.neg (.num 48473130033441653 17)) (.mul (.rd (.var .jTemp)) (.neg (.num 17824490209713328 17))))),
  .set (.arr .jac 160) (.add (.rd (.arr .jac 160)) (.mul (.num 13333579747651541 16) (.mul (.rd (.var .jTemp)) (.neg (.num 17824490209713328 17))))),
  .set (.arr .jac 161) (.add (.rd (.arr .jac 161)) (.mul (.neg (.num 87916407376190431 17)) (.mul (.rd (.var .jTemp)) (.neg (.num 17824490209713328 17))))),
  .set (.arr .jac 170) (.add (.rd (.arr .jac 170)) (.mul (.num 71857747410685777 18) (.mul (.rd (.var .jTemp)) (.num 49928106040377707 17)))),
  .set (.arr .jac 171) (.add (.rd (.arr .jac 171)) (.mul (.neg (.num 11406242870830863 16)) (.mul (.rd (.var .jTemp)) (.num 49928106040377707 17)))),
  .set (.arr .jac 181) (.add (.rd (.arr .jac 181)) (.mul (.num 31375330793448009 16) (.mul (.rd (.var .jTemp)) (.num 49928106040377707 17)))),
  .set (.arr .jac 182) (.add (.rd (.arr .jac 182)) (.mul (.neg (.num 20687665396724007 16)) (.mul (.rd (.var .jTemp)) (.num 49928106040377707 17)))),
  .set (.arr .jac 191) (.add (.rd (.arr .jac 191)) (.mul (.num 71857747410685777 18) (.mul (.rd (.var .jTemp)) (.num 49928106040377707 17)))),
  .set (.arr .jac 192) (.add (.rd (.arr .jac 192)) (.mul (.neg (.num 11406242870830863 16)) (.mul (.rd (.var .jTemp)) (.num 49928106040377707 17)))),
  .set (.arr .jac 202) (.add (.rd (.arr .jac 202)) (.mul (.num 31375330793448009 16) (.mul (.rd (.var .jTemp)) (.num 49928106040377707 17)))),
  .set (.arr .jac 203) (.add (.rd (.arr .jac 203)) (.mul (.neg (.num 20687665396724007 16)) (.mul (.rd (.var .jTemp)) (.num 49928106040377707 17)))),
  .set (.arr .jac 212) (.add (.rd (.arr .jac 212)) (.mul (.num 67040376938333812 18) (.mul (.rd (.var .jTemp)) (.num 46330052531852528 17)))),
  .set (.arr .jac 213) (.add (.rd (.arr .jac 213)) (.mul (.neg (.num 10641564049320178 16)) (.mul (.rd (.var .jTemp)) (.num 46330052531852528 17)))),
  .set (.arr .jac 223) (.add (.rd (.arr .jac 223)) (.mul (.num 2927191679049034 15) (.mul (.rd (.var .jTemp)) (.num 46330052531852528 17)))),
  .set (.arr .jac 224) (.add (.rd (.arr .jac 224)) (.mul (.neg (.num 19300756510553501 16)) (.mul (.rd (.var .jTemp)) (.num 46330052531852528 17)))),
  .set (.arr .jac 233) (.add (.rd (.arr .jac 233)) (.mul (.num 6282834125798803 17) (.mul (.rd (.var .jTemp)) (.num 42731999023327338 17)))),
  .set (.arr .jac 234) (.add (.rd (.arr .jac 234)) (.mul (.neg (.num 99729722317107516 17)) (.mul (.rd (.var .jTemp)) (.num 42731999023327338 17)))),
  .set (.arr .jac 244) (.add (.rd (.arr .jac 244)) (.mul (.num 27432810813101982 16) (.mul (.rd (.var .jTemp)) (.num 42731999023327338 17)))),
  .set (.arr .jac 245) (.add (.rd (.arr .jac 245)) (.mul (.neg (.num 18088121993971109 16)) (.mul (.rd (.var .jTemp)) (.num 42731999023327338 17)))),
  .set (.arr .jac 254) (.add (.rd (.arr .jac 254)) (.mul (.num 35984491474595155 18) (.mul (.rd (.var .jTemp)) (.num 10994706834011048 20)))),
  .set (.arr .jac 255) (.add (.rd (.arr .jac 255)) (.mul (.neg (.num 57119498471996122 17)) (.mul (.rd (.var .jTemp)) (.num 10994706834011048 20)))),
  .set (.arr .jac 265) (.add (.rd (.arr .jac 265)) (.mul (.num 15711949847199613 16) (.mul (.rd (.var .jTemp)) (.num 10994706834011048 20)))),
  .set (.arr .jac 266) (.add (.rd (.arr .jac 266)) (.mul (.neg (.num 10359844914745953 16)) (.mul (.rd (.var .jTemp)) (.num 10994706834011048 20)))),
  .set (.arr .jac 275) (.add (.rd (.arr .jac 275)) (.mul (.num 22902626233248052 18) (.sub (.mul (.rd (.var .jTemp)) (.neg (.num 57102223643760053 17))) (.mul (.rd (.var .kr)) (.rd (.arr .C 1)))))),
  .set (.arr .jac 276) (.add (.rd (.arr .jac 276)) (.mul (.neg (.num 36354175660875532 17)) (.sub (.mul (.rd (.var .jTemp)) (.neg (.num 57102223643760053 17))) (.mul (.rd (.var .kr)) (.rd (.arr .C 1)))))),
  .set (.arr .jac 286) (.add (.rd (.arr .jac 286)) (.sub (.mul (.rd (.var .jTemp)) (.neg (.num 57102223643760053 17))) (.mul (.rd (.var .kr)) (.rd (.arr .C 1))))),
  .set (.arr .jac 287) (.add (.rd (.arr .jac 287)) (.mul (.neg (.num 6593608696244927 16)) (.sub (.mul (.rd (.var .jTemp)) (.neg (.num 57102223643760053 17))) (.mul (.rd (.var .kr)) (.rd (.arr .C 1)))))),
  .set (.arr .jac 296) (.add (.rd (.arr .jac 296)) (.mul (.num 34734585093427126 18) (.add (.mul (.rd (.var .jTemp)) (.neg (.num 35870588016911675 18))) (.mul (.rd (.var .kf)) (.rd (.arr .C 2)))))),
  .set (.arr .jac 297) (.add (.rd (.arr .jac 297)) (.mul (.neg (.num 55135476391826688 17)) (.add (.mul (.rd (.var .jTemp)) (.neg (.num 35870588016911675 18))) (.mul (.rd (.var .kf)) (.rd (.arr .C 2)))))),
  .set (.arr .jac 307) (.add (.rd (.arr .jac 307)) (.mul (.num 15166201788248397 16) (.add (.mul (.rd (.var .jTemp)) (.neg (.num 35870588016911675 18))) (.mul (.rd (.var .kf)) (.rd (.arr .C 2)))))),
  .set (.arr .jac 308) (.add (.rd (.arr .jac 308)) (.neg (.add (.mul (.rd (.var .jTemp)) (.neg (.num 35870588016911675 18))) (.mul (.rd (.var .kf)) (.rd (.arr .C 2)))))),
  .set (.arr .jac 317) (.add (.rd (.arr .jac 317)) (.mul (.num 33568593911733322 18) (.mul (.rd (.var .jTemp)) (.neg (.num 71851123102163683 18))))),
  .set (.arr .jac 318) (.add (.rd (.arr .jac 318)) (.mul (.neg (.num 53284655974699491 17)) (.mul (.rd (.var .jTemp)) (.neg (.num 71851123102163683 18))))),
  .set (.arr .jac 328) (.add (.rd (.arr .jac 328)) (.mul (.num 14657093719235283 16) (.mul (.rd (.var .jTemp)) (.neg (.num 71851123102163683 18))))),
  .set (.arr .jac 329) (.add (.rd (.arr .jac 329)) (.mul (.neg (.num 96643140608826661 17)) (.mul (.rd (.var .jTemp)) (.neg (.num 71851123102163683 18))))),
  .set (.arr .jac 338) (.add (.rd (.arr .jac 338)) (.mul (.num 32478341649959309 18) (.mul (.rd (.var .jTemp)) (.neg (.num 10783165818741525 17))))),
  .set (.arr .jac 339) (.add (.rd (.arr .jac 339)) (.mul (.neg (.num 5155405871325266 16)) (.mul (.rd (.var .jTemp)) (.neg (.num 10783165818741525 17))))),
  .set (.arr .jac 349) (.add (.rd (.arr .jac 349)) (.mul (.num 14181055621826488 16) (.mul (.rd (.var .jTemp)) (.neg (.num 10783165818741525 17))))),
  .set (.arr .jac 350) (.add (.rd (.arr .jac 350)) (.mul (.neg (.num 93504331670008145 17)) (.mul (.rd (.var .jTemp)) (.neg (.num 10783165818741525 17))))),
  .set (.arr .jac 359) (.add (.rd (.arr .jac 359)) (.mul (.num 35928873705342888 18) (.mul (.rd (.var .jTemp)) (.neg (.num 14378791924458678 19))))),
  .set (.arr .jac 360) (.add (.rd (.arr .jac 360)) (.mul (.neg (.num 57031214354154314 17)) (.mul (.rd (.var .jTemp)) (.neg (.num 14378791924458678 19))))),
  .set (.arr .jac 370) (.add (.rd (.arr .jac 370)) (.mul (.num 15687665396724004 16) (.mul (.rd (.var .jTemp)) (.neg (.num 14378791924458678 19))))),
  .set (.arr .jac 371) (.add (.rd (.arr .jac 371)) (.mul (.neg (.num 10343832698362003 16)) (.mul (.rd (.var .jTemp)) (.neg (.num 14378791924458678 19))))),
  .set (.arr .jac 380) (.add (.rd (.arr .jac 380)) (.mul (.num 3468276115987709 17) (.mul (.rd (.var .jTemp)) (.neg (.num 37418414277697654 18))))),
  .set (.arr .jac 381) (.add (.rd (.arr .jac 381)) (.mul (.neg (.num 55053214368051429 17)) (.mul (.rd (.var .jTemp)) (.neg (.num 37418414277697654 18))))),
  .set (.arr .jac 391) (.add (.rd (.arr .jac 391)) (.mul (.num 15143573844613358 16) (.mul (.rd (.var .jTemp)) (.neg (.num 37418414277697654 18))))),
  .set (.arr .jac 392) (.add (.rd (.arr .jac 392)) (.mul (.neg (.num 99850800194069855 17)) (.mul (.rd (.var .jTemp)) (.neg (.num 37418414277697654 18))))),
  .set (.arr .jac 401) (.add (.rd (.arr .jac 401)) (.mul (.num 33520188469166906 18) (.mul (.rd (.var .jTemp)) (.neg (.num 73398949362949439 18))))),
  .set (.arr .jac 402) (.add (.rd (.arr .jac 402)) (.mul (.neg (.num 5320782024660089 16)) (.mul (.rd (.var .jTemp)) (.neg (.num 73398949362949439 18))))),
  .set (.arr .jac 412) (.add (.rd (.arr .jac 412)) (.mul (.num 1463595839524517 15) (.mul (.rd (.var .jTemp)) (.neg (.num 73398949362949439 18))))),
  .set (.arr .jac 413) (.add (.rd (.arr .jac 413)) (.mul (.neg (.num 96503782552767503 17)) (.mul (.rd (.var .jTemp)) (.neg (.num 73398949362949439 18))))),
  .set (.arr .jac 422) (.add (.rd (.arr .jac 422)) (.mul (.num 2523130069089817 17) (.mul (.rd (.var .jTemp)) (.neg (.num 42602775520927771 17))))),
  .set (.arr .jac 423) (.add (.rd (.arr .jac 423)) (.mul (.neg (.num 4005056573545609 16)) (.mul (.rd (.var .jTemp)) (.neg (.num 42602775520927771 17))))),
  .set (.arr .jac 433) (.add (.rd (.arr .jac 433)) (.mul (.num 11016771803344347 16) (.mul (.rd (.var .jTemp)) (.neg (.num 42602775520927771 17))))),
  .set (.arr .jac 434) (.add (.rd (.arr .jac 434)) (.mul (.neg (.num 72640282367077191 17)) (.mul (.rd (.var .jTemp)) (.neg (.num 42602775520927771 17)))))]

/-- utilities/mechanisms/drm19/lib/src/jacobs/jacob_0.c:968-974 -/
def jacobT10 : List CStmt := [
  .set (.var .jTemp) (.mul (.mul (.div (.num 1 0) (.rd (.var .T))) (.sub (.add (.mul (.sub (.rd (.arr .fwd 10)) (.rd (.arr .rev 10))) (.div (.num 17813972596014357 13) (.rd (.var .T)))) (.mul (.rd (.arr .fwd 10)) (.neg (.num 1 0)))) (.mul (.rd (.arr .rev 10)) (.add (.neg (.num 1 0)) (.mul (.neg (.rd (.var .T))) (.sub (.sub (.add (.rd (.arr .dBdT 13)) (.rd (.arr .dBdT 4))) (.rd (.arr .dBdT 14))) (.rd (.arr .dBdT 2)))))))) (.rd (.var .rhoInv))),
  .set (.arr .jac 3) (.add (.rd (.arr .jac 3)) (.mul (.neg (.rd (.var .jTemp))) (.num 159994 4))),
  .set (.arr .jac 5) (.add (.rd (.arr .jac 5)) (.mul (.rd (.var .jTemp)) (.num 17007339999999999 15))),
  .set (.arr .jac 14) (.add (.rd (.arr .jac 14)) (.mul (.rd (.var .jTemp)) (.num 29018339999999998 15))),
  .set (.arr .jac 15) (.add (.rd (.arr .jac 15)) (.mul (.neg (.rd (.var .jTemp))) (.num 3002628 5)))]

/-- utilities/mechanisms/drm19/lib/src/jacobs/jacob_0.c:975-1066 -/
def jacobS10 : List CStmt := [
  .ite (.rd (.var .T)) (.num 1000 0) (.var .Kc) (.sub (.add (.add (.num 38448959199999955 17) (.mul (.num 2512110200000004 16) (.rd (.var .logT)))) (.mul (.rd (.var .T)) (.add (.num 37712048449999999 19) (.mul (.rd (.var .T)) (.add (.neg (.num 4261196958333333 21)) (.mul (.rd (.var .T)) (.add (.num 22384208091666667 25) (.mul (.neg (.num 47940607800000004 29)) (.rd (.var .T)))))))))) (.div (.neg (.num 73586569800000016 13)) (.rd (.var .T)))) (.sub (.add (.add (.neg (.num 57005718100000005 16)) (.mul (.num 15349511899999999 16) (.rd (.var .logT)))) (.mul (.rd (.var .T)) (.add (.neg (.num 18043208651500001 19)) (.mul (.rd (.var .T)) (.add (.num 33711479484999995 23) (.mul (.rd (.var .T)) (.add (.neg (.num 41264893141666657 27)) (.mul (.num 22773796795000006 31) (.rd (.var .T)))))))))) (.div (.neg (.num 73511716499999984 13)) (.rd (.var .T)))),
  .set (.var .Kc) (.exp (.rd (.var .Kc))),
  .set (.var .jTemp) (.mul (.mul (.neg (.rd (.var .mwAvg))) (.rd (.var .rhoInv))) (.sub (.mul (.num 2 0) (.rd (.arr .fwd 10))) (.mul (.num 2 0) (.rd (.arr .rev 10))))),
  .set (.var .kf) (.exp (.sub (.num 24386827483076058 15) (.div (.num 17813972596014357 13) (.rd (.var .T))))),
  .set (.var .kr) (.div (.rd (.var .kf)) (.rd (.var .Kc))),
  .set (.arr .jac 24) (.add (.rd (.arr .jac 24)) (.mul (.neg (.num 79366827390519274 16)) (.mul (.rd (.var .jTemp)) (.num 92803892982949643 17)))),
  .set (.arr .jac 26) (.add (.rd (.arr .jac 26)) (.mul (.num 84366827390519266 16) (.mul (.rd (.var .jTemp)) (.num 92803892982949643 17)))),
  .set (.arr .jac 35) (.add (.rd (.arr .jac 35)) (.mul (.num 14394874694922315 15) (.mul (.rd (.var .jTemp)) (.num 92803892982949643 17)))),
  .set (.arr .jac 36) (.add (.rd (.arr .jac 36)) (.mul (.neg (.num 14894874694922317 15)) (.mul (.rd (.var .jTemp)) (.num 92803892982949643 17)))),
  .set (.arr .jac 45) (.add (.rd (.arr .jac 45)) (.mul (.neg (.num 15873365478103855 15)) (.mul (.rd (.var .jTemp)) (.num 96401946491474821 17)))),
  .set (.arr .jac 47) (.add (.rd (.arr .jac 47)) (.mul (.num 16873365478103853 15) (.mul (.rd (.var .jTemp)) (.num 96401946491474821 17)))),
  .set (.arr .jac 56) (.add (.rd (.arr .jac 56)) (.mul (.num 2878974938984463 14) (.mul (.rd (.var .jTemp)) (.num 96401946491474821 17)))),
  .set (.arr .jac 57) (.add (.rd (.arr .jac 57)) (.mul (.neg (.num 29789749389844633 15)) (.mul (.rd (.var .jTemp)) (.num 96401946491474821 17)))),
  .set (.arr .jac 66) (.add (.rd (.arr .jac 66)) (.neg (.add (.mul (.rd (.var .jTemp)) (.num 42886781649405936 17)) (.mul (.rd (.var .kf)) (.rd (.arr .C 14)))))),
  .set (.arr .jac 68) (.add (.rd (.arr .jac 68)) (.mul (.num 10629986124479667 16) (.add (.mul (.rd (.var .jTemp)) (.num 42886781649405936 17)) (.mul (.rd (.var .kf)) (.rd (.arr .C 14)))))),
  .set (.arr .jac 77) (.add (.rd (.arr .jac 77)) (.mul (.num 18137142642849107 16) (.add (.mul (.rd (.var .jTemp)) (.num 42886781649405936 17)) (.mul (.rd (.var .kf)) (.rd (.arr .C 14)))))),
  .set (.arr .jac 78) (.add (.rd (.arr .jac 78)) (.mul (.neg (.num 18767128767328776 16)) (.add (.mul (.rd (.var .jTemp)) (.num 42886781649405936 17)) (.mul (.rd (.var .kf)) (.rd (.arr .C 14)))))),
  .set (.arr .jac 87) (.add (.rd (.arr .jac 87)) (.mul (.neg (.num 5 1)) (.mul (.rd (.var .jTemp)) (.neg (.num 14226436701188128 17))))),
  .set (.arr .jac 89) (.add (.rd (.arr .jac 89)) (.mul (.num 53149930622398334 17) (.mul (.rd (.var .jTemp)) (.neg (.num 14226436701188128 17))))),
  .set (.arr .jac 98) (.add (.rd (.arr .jac 98)) (.mul (.num 90685713214245534 17) (.mul (.rd (.var .jTemp)) (.neg (.num 14226436701188128 17))))),
  .set (.arr .jac 99) (.add (.rd (.arr .jac 99)) (.mul (.neg (.num 93835643836643878 17)) (.mul (.rd (.var .jTemp)) (.neg (.num 14226436701188128 17))))),
  .set (.arr .jac 108) (.add (.rd (.arr .jac 108)) (.mul (.neg (.num 94073500029987056 17)) (.sub (.mul (.rd (.var .jTemp)) (.num 39288728140880758 17)) (.mul (.rd (.var .kr)) (.rd (.arr .C 13)))))),
  .set (.arr .jac 110) (.add (.rd (.arr .jac 110)) (.sub (.mul (.rd (.var .jTemp)) (.num 39288728140880758 17)) (.mul (.rd (.var .kr)) (.rd (.arr .C 13))))),
  .set (.arr .jac 119) (.add (.rd (.arr .jac 119)) (.mul (.num 17062244889559448 16) (.sub (.mul (.rd (.var .jTemp)) (.num 39288728140880758 17)) (.mul (.rd (.var .kr)) (.rd (.arr .C 13)))))),
  .set (.arr .jac 120) (.add (.rd (.arr .jac 120)) (.mul (.neg (.num 17654894886560744 16)) (.sub (.mul (.rd (.var .jTemp)) (.num 39288728140880758 17)) (.mul (.rd (.var .kr)) (.rd (.arr .C 13)))))),
  .set (.arr .jac 129) (.add (.rd (.arr .jac 129)) (.mul (.neg (.num 88810165592763468 17)) (.mul (.rd (.var .jTemp)) (.num 35690674632355568 17)))),
  .set (.arr .jac 131) (.add (.rd (.arr .jac 131)) (.mul (.num 94405082796381734 17) (.mul (.rd (.var .jTemp)) (.num 35690674632355568 17)))),
  .set (.arr .jac 140) (.add (.rd (.arr .jac 140)) (.mul (.num 16107626414910008 16) (.mul (.rd (.var .jTemp)) (.num 35690674632355568 17)))),
  .set (.arr .jac 141) (.add (.rd (.arr .jac 141)) (.mul (.neg (.num 16667118135271835 16)) (.mul (.rd (.var .jTemp)) (.num 35690674632355568 17)))),
  .set (.arr .jac 150) (.add (.rd (.arr .jac 150)) (.mul (.neg (.num 48473130033441653 17)) (.mul (.rd (.var .jTemp)) (.neg (.num 17824490209713328 17))))),
  .set (.arr .jac 152) (.add (.rd (.arr .jac 152)) (.mul (.num 51526869966558342 17) (.mul (.rd (.var .jTemp)) (.neg (.num 17824490209713328 17))))),
  .set (.arr .jac 161) (.add (.rd (.arr .jac 161)) (.mul (.num 87916407376190431 17) (.mul (.rd (.var .jTemp)) (.neg (.num 17824490209713328 17))))),
  .set (.arr .jac 162) (.add (.rd (.arr .jac 162)) (.mul (.neg (.num 90970147309307126 17)) (.mul (.rd (.var .jTemp)) (.neg (.num 17824490209713328 17))))),
  .set (.arr .jac 171) (.add (.rd (.arr .jac 171)) (.mul (.neg (.num 11406242870830863 16)) (.mul (.rd (.var .jTemp)) (.num 49928106040377707 17)))),
  .set (.arr .jac 173) (.add (.rd (.arr .jac 173)) (.mul (.num 12124820344937721 16) (.mul (.rd (.var .jTemp)) (.num 49928106040377707 17)))),
  .set (.arr .jac 182) (.add (.rd (.arr .jac 182)) (.mul (.num 20687665396724007 16) (.mul (.rd (.var .jTemp)) (.num 49928106040377707 17)))),
  .set (.arr .jac 183) (.add (.rd (.arr .jac 183)) (.mul (.neg (.num 21406242870830865 16)) (.mul (.rd (.var .jTemp)) (.num 49928106040377707 17)))),
  .set (.arr .jac 192) (.add (.rd (.arr .jac 192)) (.mul (.neg (.num 11406242870830863 16)) (.mul (.rd (.var .jTemp)) (.num 49928106040377707 17)))),
  .set (.arr .jac 194) (.add (.rd (.arr .jac 194)) (.mul (.num 12124820344937721 16) (.mul (.rd (.var .jTemp)) (.num 49928106040377707 17)))),
  .set (.arr .jac 203) (.add (.rd (.arr .jac 203)) (.mul (.num 20687665396724007 16) (.mul (.rd (.var .jTemp)) (.num 49928106040377707 17)))),
  .set (.arr .jac 204) (.add (.rd (.arr .jac 204)) (.mul (.neg (.num 21406242870830865 16)) (.mul (.rd (.var .jTemp)) (.num 49928106040377707 17)))),
  .set (.arr .jac 213) (.add (.rd (.arr .jac 213)) (.mul (.neg (.num 10641564049320178 16)) (.mul (.rd (.var .jTemp)) (.num 46330052531852528 17)))),
  .set (.arr .jac 215) (.add (.rd (.arr .jac 215)) (.mul (.num 11311967818703517 16) (.mul (.rd (.var .jTemp)) (.num 46330052531852528 17)))),
  .set (.arr .jac 224) (.add (.rd (.arr .jac 224)) (.mul (.num 19300756510553501 16) (.mul (.rd (.var .jTemp)) (.num 46330052531852528 17)))),
  .set (.arr .jac 225) (.add (.rd (.arr .jac 225)) (.mul (.neg (.num 19971160279936839 16)) (.mul (.rd (.var .jTemp)) (.num 46330052531852528 17)))),
  .set (.arr .jac 234) (.add (.rd (.arr .jac 234)) (.mul (.neg (.num 99729722317107516 17)) (.mul (.rd (.var .jTemp)) (.num 42731999023327338 17)))),
  .set (.arr .jac 236) (.add (.rd (.arr .jac 236)) (.mul (.num 10601255644290632 16) (.mul (.rd (.var .jTemp)) (.num 42731999023327338 17)))),
  .set (.arr .jac 245) (.add (.rd (.arr .jac 245)) (.mul (.num 18088121993971109 16) (.mul (.rd (.var .jTemp)) (.num 42731999023327338 17)))),
  .set (.arr .jac 246) (.add (.rd (.arr .jac 246)) (.mul (.neg (.num 18716405406550991 16)) (.mul (.rd (.var .jTemp)) (.num 42731999023327338 17)))),
  .set (.arr .jac 255) (.add (.rd (.arr .jac 255)) (.mul (.neg (.num 57119498471996122 17)) (.mul (.rd (.var .jTemp)) (.num 10994706834011048 20)))),
  .set (.arr .jac 257) (.add (.rd (.arr .jac 257)) (.mul (.num 60717947619455637 17) (.mul (.rd (.var .jTemp)) (.num 10994706834011048 20)))),
  .set (.arr .jac 266) (.add (.rd (.arr .jac 266)) (.mul (.num 10359844914745953 16) (.mul (.rd (.var .jTemp)) (.num 10994706834011048 20)))),
  .set (.arr .jac 267) (.add (.rd (.arr .jac 267)) (.mul (.neg (.num 10719689829491903 16)) (.mul (.rd (.var .jTemp)) (.num 10994706834011048 20)))),
  .set (.arr .jac 276) (.add (.rd (.arr .jac 276)) (.mul (.neg (.num 36354175660875532 17)) (.mul (.rd (.var .jTemp)) (.neg (.num 57102223643760053 17))))),
  .set (.arr .jac 278) (.add (.rd (.arr .jac 278)) (.mul (.num 38644438284200339 17) (.mul (.rd (.var .jTemp)) (.neg (.num 57102223643760053 17))))),
  .set (.arr .jac 287) (.add (.rd (.arr .jac 287)) (.mul (.num 6593608696244927 16) (.mul (.rd (.var .jTemp)) (.neg (.num 57102223643760053 17))))),
  .set (.arr .jac 288) (.add (.rd (.arr .jac 288)) (.mul (.neg (.num 68226349585774082 17)) (.mul (.rd (.var .jTemp)) (.neg (.num 57102223643760053 17))))),
  .set (.arr .jac 297) (.add (.rd (.arr .jac 297)) (.mul (.neg (.num 55135476391826688 17)) (.sub (.mul (.rd (.var .jTemp)) (.neg (.num 35870588016911675 18))) (.mul (.rd (.var .kr)) (.rd (.arr .C 4)))))),
  .set (.arr .jac 299) (.add (.rd (.arr .jac 299)) (.mul (.num 58608934901169396 17) (.sub (.mul (.rd (.var .jTemp)) (.neg (.num 35870588016911675 18))) (.mul (.rd (.var .kr)) (.rd (.arr .C 4)))))),
  .set (.arr .jac 308) (.add (.rd (.arr .jac 308)) (.sub (.mul (.rd (.var .jTemp)) (.neg (.num 35870588016911675 18))) (.mul (.rd (.var .kr)) (.rd (.arr .C 4))))),
  .set (.arr .jac 309) (.add (.rd (.arr .jac 309)) (.mul (.neg (.num 10347345850934271 16)) (.sub (.mul (.rd (.var .jTemp)) (.neg (.num 35870588016911675 18))) (.mul (.rd (.var .kr)) (.rd (.arr .C 4)))))),
  .set (.arr .jac 318) (.add (.rd (.arr .jac 318)) (.mul (.neg (.num 53284655974699491 17)) (.add (.mul (.rd (.var .jTemp)) (.neg (.num 71851123102163683 18))) (.mul (.rd (.var .kf)) (.rd (.arr .C 2)))))),
  .set (.arr .jac 320) (.add (.rd (.arr .jac 320)) (.mul (.num 5664151536587283 16) (.add (.mul (.rd (.var .jTemp)) (.neg (.num 71851123102163683 18))) (.mul (.rd (.var .kf)) (.rd (.arr .C 2)))))),
  .set (.arr .jac 329) (.add (.rd (.arr .jac 329)) (.mul (.num 96643140608826661 17) (.add (.mul (.rd (.var .jTemp)) (.neg (.num 71851123102163683 18))) (.mul (.rd (.var .kf)) (.rd (.arr .C 2)))))),
  .set (.arr .jac 330) (.add (.rd (.arr .jac 330)) (.neg (.add (.mul (.rd (.var .jTemp)) (.neg (.num 71851123102163683 18))) (.mul (.rd (.var .kf)) (.rd (.arr .C 2)))))),
  .set (.arr .jac 339) (.add (.rd (.arr .jac 339)) (.mul (.neg (.num 5155405871325266 16)) (.mul (.rd (.var .jTemp)) (.neg (.num 10783165818741525 17))))),
  .set (.arr .jac 341) (.add (.rd (.arr .jac 341)) (.mul (.num 54801892878248593 17) (.mul (.rd (.var .jTemp)) (.neg (.num 10783165818741525 17))))),
  .set (.arr .jac 350) (.add (.rd (.arr .jac 350)) (.mul (.num 93504331670008145 17) (.mul (.rd (.var .jTemp)) (.neg (.num 10783165818741525 17))))),
  .set (.arr .jac 351) (.add (.rd (.arr .jac 351)) (.mul (.neg (.num 96752165835004078 17)) (.mul (.rd (.var .jTemp)) (.neg (.num 10783165818741525 17))))),
  .set (.arr .jac 360) (.add (.rd (.arr .jac 360)) (.mul (.neg (.num 57031214354154314 17)) (.mul (.rd (.var .jTemp)) (.neg (.num 14378791924458678 19))))),
  .set (.arr .jac 362) (.add (.rd (.arr .jac 362)) (.mul (.num 60624101724688606 17) (.mul (.rd (.var .jTemp)) (.neg (.num 14378791924458678 19))))),
  .set (.arr .jac 371) (.add (.rd (.arr .jac 371)) (.mul (.num 10343832698362003 16) (.mul (.rd (.var .jTemp)) (.neg (.num 14378791924458678 19))))),
  .set (.arr .jac 372) (.add (.rd (.arr .jac 372)) (.mul (.neg (.num 10703121435415432 16)) (.mul (.rd (.var .jTemp)) (.neg (.num 14378791924458678 19))))),
  .set (.arr .jac 381) (.add (.rd (.arr .jac 381)) (.mul (.neg (.num 55053214368051429 17)) (.mul (.rd (.var .jTemp)) (.neg (.num 37418414277697654 18))))),
  .set (.arr .jac 383) (.add (.rd (.arr .jac 383)) (.mul (.num 58521490484039129 17) (.mul (.rd (.var .jTemp)) (.neg (.num 37418414277697654 18))))),
  .set (.arr .jac 392) (.add (.rd (.arr .jac 392)) (.mul (.num 99850800194069855 17) (.mul (.rd (.var .jTemp)) (.neg (.num 37418414277697654 18))))),
  .set (.arr .jac 393) (.add (.rd (.arr .jac 393)) (.mul (.neg (.num 10331907631005757 16)) (.mul (.rd (.var .jTemp)) (.neg (.num 37418414277697654 18))))),
  .set (.arr .jac 402) (.add (.rd (.arr .jac 402)) (.mul (.neg (.num 5320782024660089 16)) (.mul (.rd (.var .jTemp)) (.neg (.num 73398949362949439 18))))),
  .set (.arr .jac 404) (.add (.rd (.arr .jac 404)) (.mul (.num 56559839093517583 17) (.mul (.rd (.var .jTemp)) (.neg (.num 73398949362949439 18))))),
  .set (.arr .jac 413) (.add (.rd (.arr .jac 413)) (.mul (.num 96503782552767503 17) (.mul (.rd (.var .jTemp)) (.neg (.num 73398949362949439 18))))),
  .set (.arr .jac 414) (.add (.rd (.arr .jac 414)) (.mul (.neg (.num 99855801399684196 17)) (.mul (.rd (.var .jTemp)) (.neg (.num 73398949362949439 18))))),
  .set (.arr .jac 423) (.add (.rd (.arr .jac 423)) (.mul (.neg (.num 4005056573545609 16)) (.mul (.rd (.var .jTemp)) (.neg (.num 42602775520927771 17))))),
  .set (.arr .jac 425) (.add (.rd (.arr .jac 425)) (.mul (.num 42573695804545908 17) (.mul (.rd (.var .jTemp)) (.neg (.num 42602775520927771 17))))),
  .set (.arr .jac 434) (.add (.rd (.arr .jac 434)) (.mul (.num 72640282367077191 17) (.mul (.rd (.var .jTemp)) (.neg (.num 42602775520927771 17))))),
  .set (.arr .jac 435) (.add (.rd (.arr .jac 435)) (.mul (.neg (.num 75163412436167021 17)) (.mul (.rd (.var .jTemp)) (.neg (.num 42602775520927771 17)))))]

/-- utilities/mechanisms/drm19/lib/src/jacobs/jacob_0.c:1067-1073 -/
def jacobT11 : List CStmt := [
  .set (.var .jTemp) (.mul (.mul (.div (.num 1 0) (.rd (.var .T))) (.sub (.add (.mul (.sub (.rd (.arr .fwd 11)) (.rd (.arr .rev 11))) (.add (.num 18300000000000001 16) (.div (.num 11070830426901578 14) (.rd (.var .T))))) (.mul (.rd (.arr .fwd 11)) (.neg (.num 1 0)))) (.mul (.rd (.arr .rev 11)) (.add (.neg (.num 1 0)) (.mul (.neg (.rd (.var .T))) (.sub (.sub (.add (.rd (.arr .dBdT 9)) (.rd (.arr .dBdT 13))) (.rd (.arr .dBdT 16))) (.rd (.arr .dBdT 2)))))))) (.rd (.var .rhoInv))),
  .set (.arr .jac 17) (.mul (.neg (.rd (.var .jTemp))) (.num 28053759999999997 15)),
  .set (.arr .jac 10) (.add (.rd (.arr .jac 10)) (.mul (.rd (.var .jTemp)) (.num 1503482 5))),
  .set (.arr .jac 3) (.add (.rd (.arr .jac 3)) (.mul (.neg (.rd (.var .jTemp))) (.num 159994 4))),
  .set (.arr .jac 14) (.add (.rd (.arr .jac 14)) (.mul (.rd (.var .jTemp)) (.num 29018339999999998 15)))]

/-- utilities/mechanisms/drm19/lib/src/jacobs/jacob_0.c:1074-1165 -/
def jacobS11 : List CStmt := [
  .ite (.rd (.var .T)) (.num 1000 0) (.var .Kc) (.sub (.add (.add (.neg (.num 191763532 8)) (.mul (.num 76730766000000061 17) (.rd (.var .logT)))) (.mul (.rd (.var .T)) (.add (.num 480843387 11) (.mul (.rd (.var .T)) (.add (.neg (.num 73719883333333318 22)) (.mul (.rd (.var .T)) (.add (.num 45917798324999999 25) (.mul (.neg (.num 11109775509999999 28)) (.rd (.var .T)))))))))) (.div (.neg (.num 13927471369999999 12)) (.rd (.var .T)))) (.sub (.add (.add (.num 27363486099999994 16) (.mul (.num 45236016000000001 17) (.rd (.var .logT)))) (.mul (.rd (.var .T)) (.add (.neg (.num 11812926781500001 19)) (.mul (.rd (.var .T)) (.add (.num 19953851351666676 23) (.mul (.rd (.var .T)) (.add (.neg (.num 23113752341666686 27)) (.mul (.num 12205706795000001 31) (.rd (.var .T)))))))))) (.div (.neg (.num 1336996279 5)) (.rd (.var .T)))),
  .set (.var .Kc) (.exp (.rd (.var .Kc))),
  .set (.var .jTemp) (.mul (.mul (.neg (.rd (.var .mwAvg))) (.rd (.var .rhoInv))) (.sub (.mul (.num 2 0) (.rd (.arr .fwd 11))) (.mul (.num 2 0) (.rd (.arr .rev 11))))),
  .set (.var .kf) (.exp (.sub (.add (.num 98626655580158733 16) (.mul (.num 183 2) (.rd (.var .logT)))) (.div (.num 11070830426901578 14) (.rd (.var .T))))),
  .set (.var .kr) (.div (.rd (.var .kf)) (.rd (.var .Kc))),
  .set (.arr .jac 38) (.mul (.neg (.num 13916383911740775 15)) (.mul (.rd (.var .jTemp)) (.num 92803892982949643 17))),
  .set (.arr .jac 31) (.add (.rd (.arr .jac 31)) (.mul (.num 74581919558703884 16) (.mul (.rd (.var .jTemp)) (.num 92803892982949643 17)))),
  .set (.arr .jac 24) (.add (.rd (.arr .jac 24)) (.mul (.neg (.num 79366827390519274 16)) (.mul (.rd (.var .jTemp)) (.num 92803892982949643 17)))),
  .set (.arr .jac 35) (.add (.rd (.arr .jac 35)) (.mul (.num 14394874694922315 15) (.mul (.rd (.var .jTemp)) (.num 92803892982949643 17)))),
  .set (.arr .jac 59) (.mul (.neg (.num 2783276782348155 14)) (.mul (.rd (.var .jTemp)) (.num 96401946491474821 17))),
  .set (.arr .jac 52) (.add (.rd (.arr .jac 52)) (.mul (.num 14916383911740777 15) (.mul (.rd (.var .jTemp)) (.num 96401946491474821 17)))),
  .set (.arr .jac 45) (.add (.rd (.arr .jac 45)) (.mul (.neg (.num 15873365478103855 15)) (.mul (.rd (.var .jTemp)) (.num 96401946491474821 17)))),
  .set (.arr .jac 56) (.add (.rd (.arr .jac 56)) (.mul (.num 2878974938984463 14) (.mul (.rd (.var .jTemp)) (.num 96401946491474821 17)))),
  .set (.arr .jac 80) (.mul (.neg (.num 17534257534657549 16)) (.add (.mul (.rd (.var .jTemp)) (.num 42886781649405936 17)) (.mul (.rd (.var .kf)) (.rd (.arr .C 16))))),
  .set (.arr .jac 73) (.add (.rd (.arr .jac 73)) (.mul (.num 93971148918084424 17) (.add (.mul (.rd (.var .jTemp)) (.num 42886781649405936 17)) (.mul (.rd (.var .kf)) (.rd (.arr .C 16)))))),
  .set (.arr .jac 66) (.add (.rd (.arr .jac 66)) (.neg (.add (.mul (.rd (.var .jTemp)) (.num 42886781649405936 17)) (.mul (.rd (.var .kf)) (.rd (.arr .C 16)))))),
  .set (.arr .jac 77) (.add (.rd (.arr .jac 77)) (.mul (.num 18137142642849107 16) (.add (.mul (.rd (.var .jTemp)) (.num 42886781649405936 17)) (.mul (.rd (.var .kf)) (.rd (.arr .C 16)))))),
  .set (.arr .jac 101) (.mul (.neg (.num 87671287673287746 17)) (.mul (.rd (.var .jTemp)) (.neg (.num 14226436701188128 17)))),
  .set (.arr .jac 94) (.add (.rd (.arr .jac 94)) (.mul (.num 46985574459042212 17) (.mul (.rd (.var .jTemp)) (.neg (.num 14226436701188128 17))))),
  .set (.arr .jac 87) (.add (.rd (.arr .jac 87)) (.mul (.neg (.num 5 1)) (.mul (.rd (.var .jTemp)) (.neg (.num 14226436701188128 17))))),
  .set (.arr .jac 98) (.add (.rd (.arr .jac 98)) (.mul (.num 90685713214245534 17) (.mul (.rd (.var .jTemp)) (.neg (.num 14226436701188128 17))))),
  .set (.arr .jac 122) (.mul (.neg (.num 16495089767124076 16)) (.mul (.rd (.var .jTemp)) (.num 39288728140880758 17))),
  .set (.arr .jac 115) (.add (.rd (.arr .jac 115)) (.mul (.num 88401948805633335 17) (.mul (.rd (.var .jTemp)) (.num 39288728140880758 17)))),
  .set (.arr .jac 108) (.add (.rd (.arr .jac 108)) (.mul (.neg (.num 94073500029987056 17)) (.mul (.rd (.var .jTemp)) (.num 39288728140880758 17)))),
  .set (.arr .jac 119) (.add (.rd (.arr .jac 119)) (.mul (.num 17062244889559448 16) (.mul (.rd (.var .jTemp)) (.num 39288728140880758 17)))),
  .set (.arr .jac 143) (.mul (.neg (.num 15572203151990975 16)) (.mul (.rd (.var .jTemp)) (.num 35690674632355568 17))),
  .set (.arr .jac 136) (.add (.rd (.arr .jac 136)) (.mul (.num 83455932963573143 17) (.mul (.rd (.var .jTemp)) (.num 35690674632355568 17)))),
  .set (.arr .jac 129) (.add (.rd (.arr .jac 129)) (.mul (.neg (.num 88810165592763468 17)) (.mul (.rd (.var .jTemp)) (.num 35690674632355568 17)))),
  .set (.arr .jac 140) (.add (.rd (.arr .jac 140)) (.mul (.num 16107626414910008 16) (.mul (.rd (.var .jTemp)) (.num 35690674632355568 17)))),
  .set (.arr .jac 164) (.mul (.neg (.num 84994034551730935 17)) (.mul (.rd (.var .jTemp)) (.neg (.num 17824490209713328 17)))),
  .set (.arr .jac 157) (.add (.rd (.arr .jac 157)) (.mul (.num 45550757208982162 17) (.mul (.rd (.var .jTemp)) (.neg (.num 17824490209713328 17))))),
  .set (.arr .jac 150) (.add (.rd (.arr .jac 150)) (.mul (.neg (.num 48473130033441653 17)) (.mul (.rd (.var .jTemp)) (.neg (.num 17824490209713328 17))))),
  .set (.arr .jac 161) (.add (.rd (.arr .jac 161)) (.mul (.num 87916407376190431 17) (.mul (.rd (.var .jTemp)) (.neg (.num 17824490209713328 17))))),
  .set (.arr .jac 185) (.mul (.neg (.num 2 0)) (.mul (.rd (.var .jTemp)) (.num 49928106040377707 17))),
  .set (.arr .jac 178) (.add (.rd (.arr .jac 178)) (.mul (.num 10718577474106858 16) (.mul (.rd (.var .jTemp)) (.num 49928106040377707 17)))),
  .set (.arr .jac 171) (.add (.rd (.arr .jac 171)) (.mul (.neg (.num 11406242870830863 16)) (.mul (.rd (.var .jTemp)) (.num 49928106040377707 17)))),
  .set (.arr .jac 182) (.add (.rd (.arr .jac 182)) (.mul (.num 20687665396724007 16) (.mul (.rd (.var .jTemp)) (.num 49928106040377707 17)))),
  .set (.arr .jac 206) (.mul (.neg (.num 2 0)) (.mul (.rd (.var .jTemp)) (.num 49928106040377707 17))),
  .set (.arr .jac 199) (.add (.rd (.arr .jac 199)) (.mul (.num 10718577474106858 16) (.mul (.rd (.var .jTemp)) (.num 49928106040377707 17)))),
  .set (.arr .jac 192) (.add (.rd (.arr .jac 192)) (.mul (.neg (.num 11406242870830863 16)) (.mul (.rd (.var .jTemp)) (.num 49928106040377707 17)))),
  .set (.arr .jac 203) (.add (.rd (.arr .jac 203)) (.mul (.num 20687665396724007 16) (.mul (.rd (.var .jTemp)) (.num 49928106040377707 17)))),
  .set (.arr .jac 227) (.mul (.neg (.num 18659192461233323 16)) (.sub (.mul (.rd (.var .jTemp)) (.num 46330052531852528 17)) (.mul (.rd (.var .kr)) (.rd (.arr .C 13))))),
  .set (.arr .jac 220) (.add (.rd (.arr .jac 220)) (.sub (.mul (.rd (.var .jTemp)) (.num 46330052531852528 17)) (.mul (.rd (.var .kr)) (.rd (.arr .C 13))))),
  .set (.arr .jac 213) (.add (.rd (.arr .jac 213)) (.mul (.neg (.num 10641564049320178 16)) (.sub (.mul (.rd (.var .jTemp)) (.num 46330052531852528 17)) (.mul (.rd (.var .kr)) (.rd (.arr .C 13)))))),
  .set (.arr .jac 224) (.add (.rd (.arr .jac 224)) (.mul (.num 19300756510553501 16) (.sub (.mul (.rd (.var .jTemp)) (.num 46330052531852528 17)) (.mul (.rd (.var .kr)) (.rd (.arr .C 13)))))),
  .set (.arr .jac 248) (.mul (.neg (.num 17486866349680477 16)) (.mul (.rd (.var .jTemp)) (.num 42731999023327338 17))),
  .set (.arr .jac 241) (.add (.rd (.arr .jac 241)) (.mul (.num 93717165874201191 17) (.mul (.rd (.var .jTemp)) (.num 42731999023327338 17)))),
  .set (.arr .jac 234) (.add (.rd (.arr .jac 234)) (.mul (.neg (.num 99729722317107516 17)) (.mul (.rd (.var .jTemp)) (.num 42731999023327338 17)))),
  .set (.arr .jac 245) (.add (.rd (.arr .jac 245)) (.mul (.num 18088121993971109 16) (.mul (.rd (.var .jTemp)) (.num 42731999023327338 17)))),
  .set (.arr .jac 269) (.mul (.neg (.num 10015479964584584 16)) (.mul (.rd (.var .jTemp)) (.num 10994706834011048 20))),
  .set (.arr .jac 262) (.add (.rd (.arr .jac 262)) (.mul (.num 53675848970382434 17) (.mul (.rd (.var .jTemp)) (.num 10994706834011048 20)))),
  .set (.arr .jac 255) (.add (.rd (.arr .jac 255)) (.mul (.neg (.num 57119498471996122 17)) (.mul (.rd (.var .jTemp)) (.num 10994706834011048 20)))),
  .set (.arr .jac 266) (.add (.rd (.arr .jac 266)) (.mul (.num 10359844914745953 16) (.mul (.rd (.var .jTemp)) (.num 10994706834011048 20)))),
  .set (.arr .jac 290) (.mul (.neg (.num 63744347849797089 17)) (.mul (.rd (.var .jTemp)) (.neg (.num 57102223643760053 17)))),
  .set (.arr .jac 283) (.add (.rd (.arr .jac 283)) (.mul (.num 34162436548223352 17) (.mul (.rd (.var .jTemp)) (.neg (.num 57102223643760053 17))))),
  .set (.arr .jac 276) (.add (.rd (.arr .jac 276)) (.mul (.neg (.num 36354175660875532 17)) (.mul (.rd (.var .jTemp)) (.neg (.num 57102223643760053 17))))),
  .set (.arr .jac 287) (.add (.rd (.arr .jac 287)) (.mul (.num 6593608696244927 16) (.mul (.rd (.var .jTemp)) (.neg (.num 57102223643760053 17))))),
  .set (.arr .jac 311) (.mul (.neg (.num 96675964235032041 17)) (.sub (.mul (.rd (.var .jTemp)) (.neg (.num 35870588016911675 18))) (.mul (.rd (.var .kr)) (.rd (.arr .C 9))))),
  .set (.arr .jac 304) (.add (.rd (.arr .jac 304)) (.mul (.num 5181144062685874 16) (.sub (.mul (.rd (.var .jTemp)) (.neg (.num 35870588016911675 18))) (.mul (.rd (.var .kr)) (.rd (.arr .C 9)))))),
  .set (.arr .jac 297) (.add (.rd (.arr .jac 297)) (.mul (.neg (.num 55135476391826688 17)) (.sub (.mul (.rd (.var .jTemp)) (.neg (.num 35870588016911675 18))) (.mul (.rd (.var .kr)) (.rd (.arr .C 9)))))),
  .set (.arr .jac 308) (.add (.rd (.arr .jac 308)) (.sub (.mul (.rd (.var .jTemp)) (.neg (.num 35870588016911675 18))) (.mul (.rd (.var .kr)) (.rd (.arr .C 9))))),
  .set (.arr .jac 332) (.mul (.neg (.num 93430688050600996 17)) (.mul (.rd (.var .jTemp)) (.neg (.num 71851123102163683 18)))),
  .set (.arr .jac 325) (.add (.rd (.arr .jac 325)) (.mul (.num 50072203416473837 17) (.mul (.rd (.var .jTemp)) (.neg (.num 71851123102163683 18))))),
  .set (.arr .jac 318) (.add (.rd (.arr .jac 318)) (.mul (.neg (.num 53284655974699491 17)) (.mul (.rd (.var .jTemp)) (.neg (.num 71851123102163683 18))))),
  .set (.arr .jac 329) (.add (.rd (.arr .jac 329)) (.mul (.num 96643140608826661 17) (.mul (.rd (.var .jTemp)) (.neg (.num 71851123102163683 18))))),
  .set (.arr .jac 353) (.mul (.neg (.num 90396214243502815 17)) (.mul (.rd (.var .jTemp)) (.neg (.num 10783165818741525 17)))),
  .set (.arr .jac 346) (.add (.rd (.arr .jac 346)) (.mul (.num 4844594128674734 16) (.mul (.rd (.var .jTemp)) (.neg (.num 10783165818741525 17))))),
  .set (.arr .jac 339) (.add (.rd (.arr .jac 339)) (.mul (.neg (.num 5155405871325266 16)) (.mul (.rd (.var .jTemp)) (.neg (.num 10783165818741525 17))))),
  .set (.arr .jac 350) (.add (.rd (.arr .jac 350)) (.mul (.num 93504331670008145 17) (.mul (.rd (.var .jTemp)) (.neg (.num 10783165818741525 17))))),
  .set (.arr .jac 374) (.neg (.add (.mul (.rd (.var .jTemp)) (.neg (.num 14378791924458678 19))) (.mul (.rd (.var .kf)) (.rd (.arr .C 2))))),
  .set (.arr .jac 367) (.add (.rd (.arr .jac 367)) (.mul (.num 53592887370534292 17) (.add (.mul (.rd (.var .jTemp)) (.neg (.num 14378791924458678 19))) (.mul (.rd (.var .kf)) (.rd (.arr .C 2)))))),
  .set (.arr .jac 360) (.add (.rd (.arr .jac 360)) (.mul (.neg (.num 57031214354154314 17)) (.add (.mul (.rd (.var .jTemp)) (.neg (.num 14378791924458678 19))) (.mul (.rd (.var .kf)) (.rd (.arr .C 2)))))),
  .set (.arr .jac 371) (.add (.rd (.arr .jac 371)) (.mul (.num 10343832698362003 16) (.add (.mul (.rd (.var .jTemp)) (.neg (.num 14378791924458678 19))) (.mul (.rd (.var .kf)) (.rd (.arr .C 2)))))),
  .set (.arr .jac 395) (.mul (.neg (.num 96531723884012288 17)) (.mul (.rd (.var .jTemp)) (.neg (.num 37418414277697654 18)))),
  .set (.arr .jac 388) (.add (.rd (.arr .jac 388)) (.mul (.num 51734138057993861 17) (.mul (.rd (.var .jTemp)) (.neg (.num 37418414277697654 18))))),
  .set (.arr .jac 381) (.add (.rd (.arr .jac 381)) (.mul (.neg (.num 55053214368051429 17)) (.mul (.rd (.var .jTemp)) (.neg (.num 37418414277697654 18))))),
  .set (.arr .jac 392) (.add (.rd (.arr .jac 392)) (.mul (.num 99850800194069855 17) (.mul (.rd (.var .jTemp)) (.neg (.num 37418414277697654 18))))),
  .set (.arr .jac 416) (.mul (.neg (.num 93295962306166613 17)) (.mul (.rd (.var .jTemp)) (.neg (.num 73398949362949439 18)))),
  .set (.arr .jac 409) (.add (.rd (.arr .jac 409)) (.mul (.num 5 1) (.mul (.rd (.var .jTemp)) (.neg (.num 73398949362949439 18))))),
  .set (.arr .jac 402) (.add (.rd (.arr .jac 402)) (.mul (.neg (.num 5320782024660089 16)) (.mul (.rd (.var .jTemp)) (.neg (.num 73398949362949439 18))))),
  .set (.arr .jac 413) (.add (.rd (.arr .jac 413)) (.mul (.num 96503782552767503 17) (.mul (.rd (.var .jTemp)) (.neg (.num 73398949362949439 18))))),
  .set (.arr .jac 437) (.mul (.neg (.num 7022569340142184 16)) (.mul (.rd (.var .jTemp)) (.neg (.num 42602775520927771 17)))),
  .set (.arr .jac 430) (.add (.rd (.arr .jac 430)) (.mul (.num 37635976769800739 17) (.mul (.rd (.var .jTemp)) (.neg (.num 42602775520927771 17))))),
  .set (.arr .jac 423) (.add (.rd (.arr .jac 423)) (.mul (.neg (.num 4005056573545609 16)) (.mul (.rd (.var .jTemp)) (.neg (.num 42602775520927771 17))))),
  .set (.arr .jac 434) (.add (.rd (.arr .jac 434)) (.mul (.num 72640282367077191 17) (.mul (.rd (.var .jTemp)) (.neg (.num 42602775520927771 17)))))]

/-- utilities/mechanisms/drm19/lib/src/jacobs/jacob_0.c:1166-1172 -/
def jacobT12 : List CStmt := [
  .set (.var .jTemp) (.mul (.mul (.div (.num 1 0) (.rd (.var .T))) (.sub (.mul (.rd (.arr .fwd 12)) (.neg (.num 1 0))) (.mul (.rd (.arr .rev 12)) (.add (.neg (.num 1 0)) (.mul (.neg (.rd (.var .T))) (.sub (.sub (.add (.rd (.arr .dBdT 14)) (.rd (.arr .dBdT 9))) (.rd (.arr .dBdT 17))) (.rd (.arr .dBdT 2)))))))) (.rd (.var .rhoInv))),
  .set (.arr .jac 18) (.mul (.neg (.rd (.var .jTemp))) (.num 29061699999999998 15)),
  .set (.arr .jac 3) (.add (.rd (.arr .jac 3)) (.mul (.neg (.rd (.var .jTemp))) (.num 159994 4))),
  .set (.arr .jac 15) (.add (.rd (.arr .jac 15)) (.mul (.rd (.var .jTemp)) (.num 3002628 5))),
  .set (.arr .jac 10) (.add (.rd (.arr .jac 10)) (.mul (.rd (.var .jTemp)) (.num 1503482 5)))]

/-- utilities/mechanisms/drm19/lib/src/jacobs/jacob_0.c:1173-1264 -/
def jacobS12 : List CStmt := [
  .ite (.rd (.var .T)) (.num 1000 0) (.var .Kc) (.sub (.add (.add (.neg (.num 55443462400000003 16)) (.mul (.num 99258077 8) (.rd (.var .logT)))) (.mul (.rd (.var .T)) (.add (.neg (.num 21573708999999977 20)) (.mul (.rd (.var .T)) (.add (.neg (.num 22175208833333337 22)) (.mul (.rd (.var .T)) (.add (.num 17700855408333332 25) (.mul (.neg (.num 47212187850000007 29)) (.rd (.var .T)))))))))) (.div (.neg (.num 398278436 4)) (.rd (.var .T)))) (.sub (.add (.add (.num 43672912500000018 16) (.mul (.neg (.num 47766940000000013 17)) (.rd (.var .logT)))) (.mul (.rd (.var .T)) (.add (.neg (.num 4356984481500006 19)) (.mul (.rd (.var .T)) (.add (.num 88397768516666832 24) (.mul (.rd (.var .T)) (.add (.neg (.num 1167186217499999 26)) (.mul (.num 66561178449999852 32) (.rd (.var .T)))))))))) (.div (.neg (.num 39295347099999999 12)) (.rd (.var .T)))),
  .set (.var .Kc) (.exp (.rd (.var .Kc))),
  .set (.var .jTemp) (.mul (.mul (.neg (.rd (.var .mwAvg))) (.rd (.var .rhoInv))) (.sub (.mul (.num 2 0) (.rd (.arr .fwd 12))) (.mul (.num 2 0) (.rd (.arr .rev 12))))),
  .set (.var .kf) (.num 132000000000 0),
  .set (.var .kr) (.div (.rd (.var .kf)) (.rd (.var .Kc))),
  .set (.arr .jac 39) (.mul (.neg (.num 14416383911740777 15)) (.mul (.rd (.var .jTemp)) (.num 92803892982949643 17))),
  .set (.arr .jac 24) (.add (.rd (.arr .jac 24)) (.mul (.neg (.num 79366827390519274 16)) (.mul (.rd (.var .jTemp)) (.num 92803892982949643 17)))),
  .set (.arr .jac 36) (.add (.rd (.arr .jac 36)) (.mul (.num 14894874694922317 15) (.mul (.rd (.var .jTemp)) (.num 92803892982949643 17)))),
  .set (.arr .jac 31) (.add (.rd (.arr .jac 31)) (.mul (.num 74581919558703884 16) (.mul (.rd (.var .jTemp)) (.num 92803892982949643 17)))),
  .set (.arr .jac 60) (.mul (.neg (.num 28832767823481554 15)) (.mul (.rd (.var .jTemp)) (.num 96401946491474821 17))),
  .set (.arr .jac 45) (.add (.rd (.arr .jac 45)) (.mul (.neg (.num 15873365478103855 15)) (.mul (.rd (.var .jTemp)) (.num 96401946491474821 17)))),
  .set (.arr .jac 57) (.add (.rd (.arr .jac 57)) (.mul (.num 29789749389844633 15) (.mul (.rd (.var .jTemp)) (.num 96401946491474821 17)))),
  .set (.arr .jac 52) (.add (.rd (.arr .jac 52)) (.mul (.num 14916383911740777 15) (.mul (.rd (.var .jTemp)) (.num 96401946491474821 17)))),
  .set (.arr .jac 81) (.mul (.neg (.num 18164243659137218 16)) (.add (.mul (.rd (.var .jTemp)) (.num 42886781649405936 17)) (.mul (.rd (.var .kf)) (.rd (.arr .C 17))))),
  .set (.arr .jac 66) (.add (.rd (.arr .jac 66)) (.neg (.add (.mul (.rd (.var .jTemp)) (.num 42886781649405936 17)) (.mul (.rd (.var .kf)) (.rd (.arr .C 17)))))),
  .set (.arr .jac 78) (.add (.rd (.arr .jac 78)) (.mul (.num 18767128767328776 16) (.add (.mul (.rd (.var .jTemp)) (.num 42886781649405936 17)) (.mul (.rd (.var .kf)) (.rd (.arr .C 17)))))),
  .set (.arr .jac 73) (.add (.rd (.arr .jac 73)) (.mul (.num 93971148918084424 17) (.add (.mul (.rd (.var .jTemp)) (.num 42886781649405936 17)) (.mul (.rd (.var .kf)) (.rd (.arr .C 17)))))),
  .set (.arr .jac 102) (.mul (.neg (.num 9082121829568609 16)) (.mul (.rd (.var .jTemp)) (.neg (.num 14226436701188128 17)))),
  .set (.arr .jac 87) (.add (.rd (.arr .jac 87)) (.mul (.neg (.num 5 1)) (.mul (.rd (.var .jTemp)) (.neg (.num 14226436701188128 17))))),
  .set (.arr .jac 99) (.add (.rd (.arr .jac 99)) (.mul (.num 93835643836643878 17) (.mul (.rd (.var .jTemp)) (.neg (.num 14226436701188128 17))))),
  .set (.arr .jac 94) (.add (.rd (.arr .jac 94)) (.mul (.num 46985574459042212 17) (.mul (.rd (.var .jTemp)) (.neg (.num 14226436701188128 17))))),
  .set (.arr .jac 123) (.mul (.neg (.num 17087739764125371 16)) (.mul (.rd (.var .jTemp)) (.num 39288728140880758 17))),
  .set (.arr .jac 108) (.add (.rd (.arr .jac 108)) (.mul (.neg (.num 94073500029987056 17)) (.mul (.rd (.var .jTemp)) (.num 39288728140880758 17)))),
  .set (.arr .jac 120) (.add (.rd (.arr .jac 120)) (.mul (.num 17654894886560744 16) (.mul (.rd (.var .jTemp)) (.num 39288728140880758 17)))),
  .set (.arr .jac 115) (.add (.rd (.arr .jac 115)) (.mul (.num 88401948805633335 17) (.mul (.rd (.var .jTemp)) (.num 39288728140880758 17)))),
  .set (.arr .jac 144) (.mul (.neg (.num 16131694872352802 16)) (.mul (.rd (.var .jTemp)) (.num 35690674632355568 17))),
  .set (.arr .jac 129) (.add (.rd (.arr .jac 129)) (.mul (.neg (.num 88810165592763468 17)) (.mul (.rd (.var .jTemp)) (.num 35690674632355568 17)))),
  .set (.arr .jac 141) (.add (.rd (.arr .jac 141)) (.mul (.num 16667118135271835 16) (.mul (.rd (.var .jTemp)) (.num 35690674632355568 17)))),
  .set (.arr .jac 136) (.add (.rd (.arr .jac 136)) (.mul (.num 83455932963573143 17) (.mul (.rd (.var .jTemp)) (.num 35690674632355568 17)))),
  .set (.arr .jac 165) (.mul (.neg (.num 8804777448484763 16)) (.mul (.rd (.var .jTemp)) (.neg (.num 17824490209713328 17)))),
  .set (.arr .jac 150) (.add (.rd (.arr .jac 150)) (.mul (.neg (.num 48473130033441653 17)) (.mul (.rd (.var .jTemp)) (.neg (.num 17824490209713328 17))))),
  .set (.arr .jac 162) (.add (.rd (.arr .jac 162)) (.mul (.num 90970147309307126 17) (.mul (.rd (.var .jTemp)) (.neg (.num 17824490209713328 17))))),
  .set (.arr .jac 157) (.add (.rd (.arr .jac 157)) (.mul (.num 45550757208982162 17) (.mul (.rd (.var .jTemp)) (.neg (.num 17824490209713328 17))))),
  .set (.arr .jac 186) (.mul (.neg (.num 20718577474106858 16)) (.mul (.rd (.var .jTemp)) (.num 49928106040377707 17))),
  .set (.arr .jac 171) (.add (.rd (.arr .jac 171)) (.mul (.neg (.num 11406242870830863 16)) (.mul (.rd (.var .jTemp)) (.num 49928106040377707 17)))),
  .set (.arr .jac 183) (.add (.rd (.arr .jac 183)) (.mul (.num 21406242870830865 16) (.mul (.rd (.var .jTemp)) (.num 49928106040377707 17)))),
  .set (.arr .jac 178) (.add (.rd (.arr .jac 178)) (.mul (.num 10718577474106858 16) (.mul (.rd (.var .jTemp)) (.num 49928106040377707 17)))),
  .set (.arr .jac 207) (.mul (.neg (.num 20718577474106858 16)) (.mul (.rd (.var .jTemp)) (.num 49928106040377707 17))),
  .set (.arr .jac 192) (.add (.rd (.arr .jac 192)) (.mul (.neg (.num 11406242870830863 16)) (.mul (.rd (.var .jTemp)) (.num 49928106040377707 17)))),
  .set (.arr .jac 204) (.add (.rd (.arr .jac 204)) (.mul (.num 21406242870830865 16) (.mul (.rd (.var .jTemp)) (.num 49928106040377707 17)))),
  .set (.arr .jac 199) (.add (.rd (.arr .jac 199)) (.mul (.num 10718577474106858 16) (.mul (.rd (.var .jTemp)) (.num 49928106040377707 17)))),
  .set (.arr .jac 228) (.mul (.neg (.num 19329596230616661 16)) (.sub (.mul (.rd (.var .jTemp)) (.num 46330052531852528 17)) (.mul (.rd (.var .kr)) (.rd (.arr .C 14))))),
  .set (.arr .jac 213) (.add (.rd (.arr .jac 213)) (.mul (.neg (.num 10641564049320178 16)) (.sub (.mul (.rd (.var .jTemp)) (.num 46330052531852528 17)) (.mul (.rd (.var .kr)) (.rd (.arr .C 14)))))),
  .set (.arr .jac 225) (.add (.rd (.arr .jac 225)) (.mul (.num 19971160279936839 16) (.sub (.mul (.rd (.var .jTemp)) (.num 46330052531852528 17)) (.mul (.rd (.var .kr)) (.rd (.arr .C 14)))))),
  .set (.arr .jac 220) (.add (.rd (.arr .jac 220)) (.sub (.mul (.rd (.var .jTemp)) (.num 46330052531852528 17)) (.mul (.rd (.var .kr)) (.rd (.arr .C 14))))),
  .set (.arr .jac 249) (.mul (.neg (.num 18115149762260356 16)) (.mul (.rd (.var .jTemp)) (.num 42731999023327338 17))),
  .set (.arr .jac 234) (.add (.rd (.arr .jac 234)) (.mul (.neg (.num 99729722317107516 17)) (.mul (.rd (.var .jTemp)) (.num 42731999023327338 17)))),
  .set (.arr .jac 246) (.add (.rd (.arr .jac 246)) (.mul (.num 18716405406550991 16) (.mul (.rd (.var .jTemp)) (.num 42731999023327338 17)))),
  .set (.arr .jac 241) (.add (.rd (.arr .jac 241)) (.mul (.num 93717165874201191 17) (.mul (.rd (.var .jTemp)) (.num 42731999023327338 17)))),
  .set (.arr .jac 270) (.mul (.neg (.num 10375324879330534 16)) (.mul (.rd (.var .jTemp)) (.num 10994706834011048 20))),
  .set (.arr .jac 255) (.add (.rd (.arr .jac 255)) (.mul (.neg (.num 57119498471996122 17)) (.mul (.rd (.var .jTemp)) (.num 10994706834011048 20)))),
  .set (.arr .jac 267) (.add (.rd (.arr .jac 267)) (.mul (.num 10719689829491903 16) (.mul (.rd (.var .jTemp)) (.num 10994706834011048 20)))),
  .set (.arr .jac 262) (.add (.rd (.arr .jac 262)) (.mul (.num 53675848970382434 17) (.mul (.rd (.var .jTemp)) (.num 10994706834011048 20)))),
  .set (.arr .jac 291) (.mul (.neg (.num 66034610473121891 17)) (.mul (.rd (.var .jTemp)) (.neg (.num 57102223643760053 17)))),
  .set (.arr .jac 276) (.add (.rd (.arr .jac 276)) (.mul (.neg (.num 36354175660875532 17)) (.mul (.rd (.var .jTemp)) (.neg (.num 57102223643760053 17))))),
  .set (.arr .jac 288) (.add (.rd (.arr .jac 288)) (.mul (.num 68226349585774082 17) (.mul (.rd (.var .jTemp)) (.neg (.num 57102223643760053 17))))),
  .set (.arr .jac 283) (.add (.rd (.arr .jac 283)) (.mul (.num 34162436548223352 17) (.mul (.rd (.var .jTemp)) (.neg (.num 57102223643760053 17))))),
  .set (.arr .jac 312) (.mul (.neg (.num 10014942274437477 16)) (.mul (.rd (.var .jTemp)) (.neg (.num 35870588016911675 18)))),
  .set (.arr .jac 297) (.add (.rd (.arr .jac 297)) (.mul (.neg (.num 55135476391826688 17)) (.mul (.rd (.var .jTemp)) (.neg (.num 35870588016911675 18))))),
  .set (.arr .jac 309) (.add (.rd (.arr .jac 309)) (.mul (.num 10347345850934271 16) (.mul (.rd (.var .jTemp)) (.neg (.num 35870588016911675 18))))),
  .set (.arr .jac 304) (.add (.rd (.arr .jac 304)) (.mul (.num 5181144062685874 16) (.mul (.rd (.var .jTemp)) (.neg (.num 35870588016911675 18))))),
  .set (.arr .jac 333) (.mul (.neg (.num 96787547441774335 17)) (.sub (.mul (.rd (.var .jTemp)) (.neg (.num 71851123102163683 18))) (.mul (.rd (.var .kr)) (.rd (.arr .C 9))))),
  .set (.arr .jac 318) (.add (.rd (.arr .jac 318)) (.mul (.neg (.num 53284655974699491 17)) (.sub (.mul (.rd (.var .jTemp)) (.neg (.num 71851123102163683 18))) (.mul (.rd (.var .kr)) (.rd (.arr .C 9)))))),
  .set (.arr .jac 330) (.add (.rd (.arr .jac 330)) (.sub (.mul (.rd (.var .jTemp)) (.neg (.num 71851123102163683 18))) (.mul (.rd (.var .kr)) (.rd (.arr .C 9))))),
  .set (.arr .jac 325) (.add (.rd (.arr .jac 325)) (.mul (.num 50072203416473837 17) (.sub (.mul (.rd (.var .jTemp)) (.neg (.num 71851123102163683 18))) (.mul (.rd (.var .kr)) (.rd (.arr .C 9)))))),
  .set (.arr .jac 354) (.mul (.neg (.num 93644048408498748 17)) (.mul (.rd (.var .jTemp)) (.neg (.num 10783165818741525 17)))),
  .set (.arr .jac 339) (.add (.rd (.arr .jac 339)) (.mul (.neg (.num 5155405871325266 16)) (.mul (.rd (.var .jTemp)) (.neg (.num 10783165818741525 17))))),
  .set (.arr .jac 351) (.add (.rd (.arr .jac 351)) (.mul (.num 96752165835004078 17) (.mul (.rd (.var .jTemp)) (.neg (.num 10783165818741525 17))))),
  .set (.arr .jac 346) (.add (.rd (.arr .jac 346)) (.mul (.num 4844594128674734 16) (.mul (.rd (.var .jTemp)) (.neg (.num 10783165818741525 17))))),
  .set (.arr .jac 375) (.mul (.neg (.num 10359288737053429 16)) (.mul (.rd (.var .jTemp)) (.neg (.num 14378791924458678 19)))),
  .set (.arr .jac 360) (.add (.rd (.arr .jac 360)) (.mul (.neg (.num 57031214354154314 17)) (.mul (.rd (.var .jTemp)) (.neg (.num 14378791924458678 19))))),
  .set (.arr .jac 372) (.add (.rd (.arr .jac 372)) (.mul (.num 10703121435415432 16) (.mul (.rd (.var .jTemp)) (.neg (.num 14378791924458678 19))))),
  .set (.arr .jac 367) (.add (.rd (.arr .jac 367)) (.mul (.num 53592887370534292 17) (.mul (.rd (.var .jTemp)) (.neg (.num 14378791924458678 19))))),
  .set (.arr .jac 396) (.neg (.add (.mul (.rd (.var .jTemp)) (.neg (.num 37418414277697654 18))) (.mul (.rd (.var .kf)) (.rd (.arr .C 2))))),
  .set (.arr .jac 381) (.add (.rd (.arr .jac 381)) (.mul (.neg (.num 55053214368051429 17)) (.add (.mul (.rd (.var .jTemp)) (.neg (.num 37418414277697654 18))) (.mul (.rd (.var .kf)) (.rd (.arr .C 2)))))),
  .set (.arr .jac 393) (.add (.rd (.arr .jac 393)) (.mul (.num 10331907631005757 16) (.add (.mul (.rd (.var .jTemp)) (.neg (.num 37418414277697654 18))) (.mul (.rd (.var .kf)) (.rd (.arr .C 2)))))),
  .set (.arr .jac 388) (.add (.rd (.arr .jac 388)) (.mul (.num 51734138057993861 17) (.add (.mul (.rd (.var .jTemp)) (.neg (.num 37418414277697654 18))) (.mul (.rd (.var .kf)) (.rd (.arr .C 2)))))),
  .set (.arr .jac 417) (.mul (.neg (.num 96647981153083307 17)) (.mul (.rd (.var .jTemp)) (.neg (.num 73398949362949439 18)))),
  .set (.arr .jac 402) (.add (.rd (.arr .jac 402)) (.mul (.neg (.num 5320782024660089 16)) (.mul (.rd (.var .jTemp)) (.neg (.num 73398949362949439 18))))),
  .set (.arr .jac 414) (.add (.rd (.arr .jac 414)) (.mul (.num 99855801399684196 17) (.mul (.rd (.var .jTemp)) (.neg (.num 73398949362949439 18))))),
  .set (.arr .jac 409) (.add (.rd (.arr .jac 409)) (.mul (.num 5 1) (.mul (.rd (.var .jTemp)) (.neg (.num 73398949362949439 18))))),
  .set (.arr .jac 438) (.mul (.neg (.num 72748823470511659 17)) (.mul (.rd (.var .jTemp)) (.neg (.num 42602775520927771 17)))),
  .set (.arr .jac 423) (.add (.rd (.arr .jac 423)) (.mul (.neg (.num 4005056573545609 16)) (.mul (.rd (.var .jTemp)) (.neg (.num 42602775520927771 17))))),
  .set (.arr .jac 435) (.add (.rd (.arr .jac 435)) (.mul (.num 75163412436167021 17) (.mul (.rd (.var .jTemp)) (.neg (.num 42602775520927771 17))))),
  .set (.arr .jac 430) (.add (.rd (.arr .jac 430)) (.mul (.num 37635976769800739 17) (.mul (.rd (.var .jTemp)) (.neg (.num 42602775520927771 17)))))]

/-- utilities/mechanisms/drm19/lib/src/jacobs/jacob_0.c:1265-1271 -/
def jacobT13 : List CStmt := [
  .set (.var .jTemp) (.mul (.mul (.div (.num 1 0) (.rd (.var .T))) (.sub (.add (.mul (.sub (.rd (.arr .fwd 13)) (.rd (.arr .rev 13))) (.add (.num 19199999999999999 16) (.div (.num 28633193240486353 13) (.rd (.var .T))))) (.mul (.rd (.arr .fwd 13)) (.neg (.num 1 0)))) (.mul (.rd (.arr .rev 13)) (.add (.neg (.num 1 0)) (.mul (.neg (.rd (.var .T))) (.sub (.sub (.add (.rd (.arr .dBdT 17)) (.rd (.arr .dBdT 4))) (.rd (.arr .dBdT 18))) (.rd (.arr .dBdT 2)))))))) (.rd (.var .rhoInv))),
  .set (.arr .jac 18) (.add (.rd (.arr .jac 18)) (.mul (.rd (.var .jTemp)) (.num 29061699999999998 15))),
  .set (.arr .jac 19) (.mul (.neg (.rd (.var .jTemp))) (.num 3006964 5)),
  .set (.arr .jac 5) (.add (.rd (.arr .jac 5)) (.mul (.rd (.var .jTemp)) (.num 17007339999999999 15))),
  .set (.arr .jac 3) (.add (.rd (.arr .jac 3)) (.mul (.neg (.rd (.var .jTemp))) (.num 159994 4)))]

/-- utilities/mechanisms/drm19/lib/src/jacobs/jacob_0.c:1272-1363 -/
def jacobS13 : List CStmt := [
  .ite (.rd (.var .T)) (.num 1000 0) (.var .Kc) (.sub (.add (.add (.neg (.num 95426192799999976 17)) (.mul (.num 83878908999999968 17) (.rd (.var .logT)))) (.mul (.rd (.var .T)) (.add (.num 10964775499999995 19) (.mul (.rd (.var .T)) (.add (.neg (.num 20424456083333341 22)) (.mul (.rd (.var .T)) (.add (.num 10984084008333341 25) (.mul (.neg (.num 22831108549999995 29)) (.rd (.var .T)))))))))) (.div (.neg (.num 11433466399999998 13)) (.rd (.var .T)))) (.sub (.add (.add (.neg (.num 33670607500000003 16)) (.mul (.num 140624181 8) (.rd (.var .logT)))) (.mul (.rd (.var .T)) (.add (.neg (.num 18267958351499995 19)) (.mul (.rd (.var .T)) (.add (.num 35468279818333333 23) (.mul (.rd (.var .T)) (.add (.neg (.num 44989291308333333 27)) (.mul (.num 25437107345000002 31) (.rd (.var .T)))))))))) (.div (.neg (.num 10750088999999971 13)) (.rd (.var .T)))),
  .set (.var .Kc) (.exp (.rd (.var .Kc))),
  .set (.var .jTemp) (.mul (.mul (.neg (.rd (.var .mwAvg))) (.rd (.var .rhoInv))) (.sub (.mul (.num 2 0) (.rd (.arr .fwd 13))) (.mul (.num 2 0) (.rd (.arr .rev 13))))),
  .set (.var .kf) (.exp (.sub (.add (.num 11405340254290291 15) (.mul (.num 192 2) (.rd (.var .logT)))) (.div (.num 28633193240486353 13) (.rd (.var .T))))),
  .set (.var .kr) (.div (.rd (.var .kf)) (.rd (.var .Kc))),
  .set (.arr .jac 39) (.add (.rd (.arr .jac 39)) (.mul (.num 14416383911740777 15) (.mul (.rd (.var .jTemp)) (.num 92803892982949643 17)))),
  .set (.arr .jac 40) (.mul (.neg (.num 14916383911740777 15)) (.mul (.rd (.var .jTemp)) (.num 92803892982949643 17))),
  .set (.arr .jac 26) (.add (.rd (.arr .jac 26)) (.mul (.num 84366827390519266 16) (.mul (.rd (.var .jTemp)) (.num 92803892982949643 17)))),
  .set (.arr .jac 24) (.add (.rd (.arr .jac 24)) (.mul (.neg (.num 79366827390519274 16)) (.mul (.rd (.var .jTemp)) (.num 92803892982949643 17)))),
  .set (.arr .jac 60) (.add (.rd (.arr .jac 60)) (.mul (.num 28832767823481554 15) (.mul (.rd (.var .jTemp)) (.num 96401946491474821 17)))),
  .set (.arr .jac 61) (.mul (.neg (.num 29832767823481554 15)) (.mul (.rd (.var .jTemp)) (.num 96401946491474821 17))),
  .set (.arr .jac 47) (.add (.rd (.arr .jac 47)) (.mul (.num 16873365478103853 15) (.mul (.rd (.var .jTemp)) (.num 96401946491474821 17)))),
  .set (.arr .jac 45) (.add (.rd (.arr .jac 45)) (.mul (.neg (.num 15873365478103855 15)) (.mul (.rd (.var .jTemp)) (.num 96401946491474821 17)))),
  .set (.arr .jac 81) (.add (.rd (.arr .jac 81)) (.mul (.num 18164243659137218 16) (.add (.mul (.rd (.var .jTemp)) (.num 42886781649405936 17)) (.mul (.rd (.var .kf)) (.rd (.arr .C 18)))))),
  .set (.arr .jac 82) (.mul (.neg (.num 18794229783616885 16)) (.add (.mul (.rd (.var .jTemp)) (.num 42886781649405936 17)) (.mul (.rd (.var .kf)) (.rd (.arr .C 18))))),
  .set (.arr .jac 68) (.add (.rd (.arr .jac 68)) (.mul (.num 10629986124479667 16) (.add (.mul (.rd (.var .jTemp)) (.num 42886781649405936 17)) (.mul (.rd (.var .kf)) (.rd (.arr .C 18)))))),
  .set (.arr .jac 66) (.add (.rd (.arr .jac 66)) (.neg (.add (.mul (.rd (.var .jTemp)) (.num 42886781649405936 17)) (.mul (.rd (.var .kf)) (.rd (.arr .C 18)))))),
  .set (.arr .jac 102) (.add (.rd (.arr .jac 102)) (.mul (.num 9082121829568609 16) (.mul (.rd (.var .jTemp)) (.neg (.num 14226436701188128 17))))),
  .set (.arr .jac 103) (.mul (.neg (.num 93971148918084424 17)) (.mul (.rd (.var .jTemp)) (.neg (.num 14226436701188128 17)))),
  .set (.arr .jac 89) (.add (.rd (.arr .jac 89)) (.mul (.num 53149930622398334 17) (.mul (.rd (.var .jTemp)) (.neg (.num 14226436701188128 17))))),
  .set (.arr .jac 87) (.add (.rd (.arr .jac 87)) (.mul (.neg (.num 5 1)) (.mul (.rd (.var .jTemp)) (.neg (.num 14226436701188128 17))))),
  .set (.arr .jac 123) (.add (.rd (.arr .jac 123)) (.mul (.num 17087739764125371 16) (.sub (.mul (.rd (.var .jTemp)) (.num 39288728140880758 17)) (.mul (.rd (.var .kr)) (.rd (.arr .C 17)))))),
  .set (.arr .jac 124) (.mul (.neg (.num 17680389761126667 16)) (.sub (.mul (.rd (.var .jTemp)) (.num 39288728140880758 17)) (.mul (.rd (.var .kr)) (.rd (.arr .C 17))))),
  .set (.arr .jac 110) (.add (.rd (.arr .jac 110)) (.sub (.mul (.rd (.var .jTemp)) (.num 39288728140880758 17)) (.mul (.rd (.var .kr)) (.rd (.arr .C 17))))),
  .set (.arr .jac 108) (.add (.rd (.arr .jac 108)) (.mul (.neg (.num 94073500029987056 17)) (.sub (.mul (.rd (.var .jTemp)) (.num 39288728140880758 17)) (.mul (.rd (.var .kr)) (.rd (.arr .C 17)))))),
  .set (.arr .jac 144) (.add (.rd (.arr .jac 144)) (.mul (.num 16131694872352802 16) (.mul (.rd (.var .jTemp)) (.num 35690674632355568 17)))),
  .set (.arr .jac 145) (.mul (.neg (.num 16691186592714629 16)) (.mul (.rd (.var .jTemp)) (.num 35690674632355568 17))),
  .set (.arr .jac 131) (.add (.rd (.arr .jac 131)) (.mul (.num 94405082796381734 17) (.mul (.rd (.var .jTemp)) (.num 35690674632355568 17)))),
  .set (.arr .jac 129) (.add (.rd (.arr .jac 129)) (.mul (.neg (.num 88810165592763468 17)) (.mul (.rd (.var .jTemp)) (.num 35690674632355568 17)))),
  .set (.arr .jac 165) (.add (.rd (.arr .jac 165)) (.mul (.num 8804777448484763 16) (.mul (.rd (.var .jTemp)) (.neg (.num 17824490209713328 17))))),
  .set (.arr .jac 166) (.mul (.neg (.num 91101514417964324 17)) (.mul (.rd (.var .jTemp)) (.neg (.num 17824490209713328 17)))),
  .set (.arr .jac 152) (.add (.rd (.arr .jac 152)) (.mul (.num 51526869966558342 17) (.mul (.rd (.var .jTemp)) (.neg (.num 17824490209713328 17))))),
  .set (.arr .jac 150) (.add (.rd (.arr .jac 150)) (.mul (.neg (.num 48473130033441653 17)) (.mul (.rd (.var .jTemp)) (.neg (.num 17824490209713328 17))))),
  .set (.arr .jac 186) (.add (.rd (.arr .jac 186)) (.mul (.num 20718577474106858 16) (.mul (.rd (.var .jTemp)) (.num 49928106040377707 17)))),
  .set (.arr .jac 187) (.mul (.neg (.num 21437154948213717 16)) (.mul (.rd (.var .jTemp)) (.num 49928106040377707 17))),
  .set (.arr .jac 173) (.add (.rd (.arr .jac 173)) (.mul (.num 12124820344937721 16) (.mul (.rd (.var .jTemp)) (.num 49928106040377707 17)))),
  .set (.arr .jac 171) (.add (.rd (.arr .jac 171)) (.mul (.neg (.num 11406242870830863 16)) (.mul (.rd (.var .jTemp)) (.num 49928106040377707 17)))),
  .set (.arr .jac 207) (.add (.rd (.arr .jac 207)) (.mul (.num 20718577474106858 16) (.mul (.rd (.var .jTemp)) (.num 49928106040377707 17)))),
  .set (.arr .jac 208) (.mul (.neg (.num 21437154948213717 16)) (.mul (.rd (.var .jTemp)) (.num 49928106040377707 17))),
  .set (.arr .jac 194) (.add (.rd (.arr .jac 194)) (.mul (.num 12124820344937721 16) (.mul (.rd (.var .jTemp)) (.num 49928106040377707 17)))),
  .set (.arr .jac 192) (.add (.rd (.arr .jac 192)) (.mul (.neg (.num 11406242870830863 16)) (.mul (.rd (.var .jTemp)) (.num 49928106040377707 17)))),
  .set (.arr .jac 228) (.add (.rd (.arr .jac 228)) (.mul (.num 19329596230616661 16) (.mul (.rd (.var .jTemp)) (.num 46330052531852528 17)))),
  .set (.arr .jac 229) (.mul (.neg (.num 2 0)) (.mul (.rd (.var .jTemp)) (.num 46330052531852528 17))),
  .set (.arr .jac 215) (.add (.rd (.arr .jac 215)) (.mul (.num 11311967818703517 16) (.mul (.rd (.var .jTemp)) (.num 46330052531852528 17)))),
  .set (.arr .jac 213) (.add (.rd (.arr .jac 213)) (.mul (.neg (.num 10641564049320178 16)) (.mul (.rd (.var .jTemp)) (.num 46330052531852528 17)))),
  .set (.arr .jac 249) (.add (.rd (.arr .jac 249)) (.mul (.num 18115149762260356 16) (.mul (.rd (.var .jTemp)) (.num 42731999023327338 17)))),
  .set (.arr .jac 250) (.mul (.neg (.num 18743433174840238 16)) (.mul (.rd (.var .jTemp)) (.num 42731999023327338 17))),
  .set (.arr .jac 236) (.add (.rd (.arr .jac 236)) (.mul (.num 10601255644290632 16) (.mul (.rd (.var .jTemp)) (.num 42731999023327338 17)))),
  .set (.arr .jac 234) (.add (.rd (.arr .jac 234)) (.mul (.neg (.num 99729722317107516 17)) (.mul (.rd (.var .jTemp)) (.num 42731999023327338 17)))),
  .set (.arr .jac 270) (.add (.rd (.arr .jac 270)) (.mul (.num 10375324879330534 16) (.mul (.rd (.var .jTemp)) (.num 10994706834011048 20)))),
  .set (.arr .jac 271) (.mul (.neg (.num 10735169794076487 16)) (.mul (.rd (.var .jTemp)) (.num 10994706834011048 20))),
  .set (.arr .jac 257) (.add (.rd (.arr .jac 257)) (.mul (.num 60717947619455637 17) (.mul (.rd (.var .jTemp)) (.num 10994706834011048 20)))),
  .set (.arr .jac 255) (.add (.rd (.arr .jac 255)) (.mul (.neg (.num 57119498471996122 17)) (.mul (.rd (.var .jTemp)) (.num 10994706834011048 20)))),
  .set (.arr .jac 291) (.add (.rd (.arr .jac 291)) (.mul (.num 66034610473121891 17) (.mul (.rd (.var .jTemp)) (.neg (.num 57102223643760053 17))))),
  .set (.arr .jac 292) (.mul (.neg (.num 68324873096446703 17)) (.mul (.rd (.var .jTemp)) (.neg (.num 57102223643760053 17)))),
  .set (.arr .jac 278) (.add (.rd (.arr .jac 278)) (.mul (.num 38644438284200339 17) (.mul (.rd (.var .jTemp)) (.neg (.num 57102223643760053 17))))),
  .set (.arr .jac 276) (.add (.rd (.arr .jac 276)) (.mul (.neg (.num 36354175660875532 17)) (.mul (.rd (.var .jTemp)) (.neg (.num 57102223643760053 17))))),
  .set (.arr .jac 312) (.add (.rd (.arr .jac 312)) (.mul (.num 10014942274437477 16) (.mul (.rd (.var .jTemp)) (.neg (.num 35870588016911675 18))))),
  .set (.arr .jac 313) (.mul (.neg (.num 10362288125371748 16)) (.mul (.rd (.var .jTemp)) (.neg (.num 35870588016911675 18)))),
  .set (.arr .jac 299) (.add (.rd (.arr .jac 299)) (.mul (.num 58608934901169396 17) (.mul (.rd (.var .jTemp)) (.neg (.num 35870588016911675 18))))),
  .set (.arr .jac 297) (.add (.rd (.arr .jac 297)) (.mul (.neg (.num 55135476391826688 17)) (.mul (.rd (.var .jTemp)) (.neg (.num 35870588016911675 18))))),
  .set (.arr .jac 333) (.add (.rd (.arr .jac 333)) (.mul (.num 96787547441774335 17) (.mul (.rd (.var .jTemp)) (.neg (.num 71851123102163683 18))))),
  .set (.arr .jac 334) (.mul (.neg (.num 10014440683294767 16)) (.mul (.rd (.var .jTemp)) (.neg (.num 71851123102163683 18)))),
  .set (.arr .jac 320) (.add (.rd (.arr .jac 320)) (.mul (.num 5664151536587283 16) (.mul (.rd (.var .jTemp)) (.neg (.num 71851123102163683 18))))),
  .set (.arr .jac 318) (.add (.rd (.arr .jac 318)) (.mul (.neg (.num 53284655974699491 17)) (.mul (.rd (.var .jTemp)) (.neg (.num 71851123102163683 18))))),
  .set (.arr .jac 354) (.add (.rd (.arr .jac 354)) (.mul (.num 93644048408498748 17) (.mul (.rd (.var .jTemp)) (.neg (.num 10783165818741525 17))))),
  .set (.arr .jac 355) (.mul (.neg (.num 96891882573494681 17)) (.mul (.rd (.var .jTemp)) (.neg (.num 10783165818741525 17)))),
  .set (.arr .jac 341) (.add (.rd (.arr .jac 341)) (.mul (.num 54801892878248593 17) (.mul (.rd (.var .jTemp)) (.neg (.num 10783165818741525 17))))),
  .set (.arr .jac 339) (.add (.rd (.arr .jac 339)) (.mul (.neg (.num 5155405871325266 16)) (.mul (.rd (.var .jTemp)) (.neg (.num 10783165818741525 17))))),
  .set (.arr .jac 375) (.add (.rd (.arr .jac 375)) (.mul (.num 10359288737053429 16) (.mul (.rd (.var .jTemp)) (.neg (.num 14378791924458678 19))))),
  .set (.arr .jac 376) (.mul (.neg (.num 10718577474106858 16)) (.mul (.rd (.var .jTemp)) (.neg (.num 14378791924458678 19)))),
  .set (.arr .jac 362) (.add (.rd (.arr .jac 362)) (.mul (.num 60624101724688606 17) (.mul (.rd (.var .jTemp)) (.neg (.num 14378791924458678 19))))),
  .set (.arr .jac 360) (.add (.rd (.arr .jac 360)) (.mul (.neg (.num 57031214354154314 17)) (.mul (.rd (.var .jTemp)) (.neg (.num 14378791924458678 19))))),
  .set (.arr .jac 396) (.add (.rd (.arr .jac 396)) (.sub (.mul (.rd (.var .jTemp)) (.neg (.num 37418414277697654 18))) (.mul (.rd (.var .kr)) (.rd (.arr .C 4))))),
  .set (.arr .jac 397) (.mul (.neg (.num 10346827611598772 16)) (.sub (.mul (.rd (.var .jTemp)) (.neg (.num 37418414277697654 18))) (.mul (.rd (.var .kr)) (.rd (.arr .C 4))))),
  .set (.arr .jac 383) (.add (.rd (.arr .jac 383)) (.mul (.num 58521490484039129 17) (.sub (.mul (.rd (.var .jTemp)) (.neg (.num 37418414277697654 18))) (.mul (.rd (.var .kr)) (.rd (.arr .C 4)))))),
  .set (.arr .jac 381) (.add (.rd (.arr .jac 381)) (.mul (.neg (.num 55053214368051429 17)) (.sub (.mul (.rd (.var .jTemp)) (.neg (.num 37418414277697654 18))) (.mul (.rd (.var .kr)) (.rd (.arr .C 4)))))),
  .set (.arr .jac 417) (.add (.rd (.arr .jac 417)) (.mul (.num 96647981153083307 17) (.add (.mul (.rd (.var .jTemp)) (.neg (.num 73398949362949439 18))) (.mul (.rd (.var .kf)) (.rd (.arr .C 2)))))),
  .set (.arr .jac 418) (.neg (.add (.mul (.rd (.var .jTemp)) (.neg (.num 73398949362949439 18))) (.mul (.rd (.var .kf)) (.rd (.arr .C 2))))),
  .set (.arr .jac 404) (.add (.rd (.arr .jac 404)) (.mul (.num 56559839093517583 17) (.add (.mul (.rd (.var .jTemp)) (.neg (.num 73398949362949439 18))) (.mul (.rd (.var .kf)) (.rd (.arr .C 2)))))),
  .set (.arr .jac 402) (.add (.rd (.arr .jac 402)) (.mul (.neg (.num 5320782024660089 16)) (.add (.mul (.rd (.var .jTemp)) (.neg (.num 73398949362949439 18))) (.mul (.rd (.var .kf)) (.rd (.arr .C 2)))))),
  .set (.arr .jac 438) (.add (.rd (.arr .jac 438)) (.mul (.num 72748823470511659 17) (.mul (.rd (.var .jTemp)) (.neg (.num 42602775520927771 17))))),
  .set (.arr .jac 439) (.mul (.neg (.num 75271953539601477 17)) (.mul (.rd (.var .jTemp)) (.neg (.num 42602775520927771 17)))),
  .set (.arr .jac 425) (.add (.rd (.arr .jac 425)) (.mul (.num 42573695804545908 17) (.mul (.rd (.var .jTemp)) (.neg (.num 42602775520927771 17))))),
  .set (.arr .jac 423) (.add (.rd (.arr .jac 423)) (.mul (.neg (.num 4005056573545609 16)) (.mul (.rd (.var .jTemp)) (.neg (.num 42602775520927771 17)))))]

/-- utilities/mechanisms/drm19/lib/src/jacobs/jacob_0.c:1364-1370 -/
def jacobT14 : List CStmt := [
  .set (.var .jTemp) (.mul (.mul (.div (.num 1 0) (.rd (.var .T))) (.sub (.add (.mul (.sub (.rd (.arr .fwd 14)) (.rd (.arr .rev 14))) (.div (.num 24053895200267973 12) (.rd (.var .T)))) (.mul (.rd (.arr .fwd 14)) (.neg (.num 1 0)))) (.mul (.rd (.arr .rev 14)) (.add (.neg (.num 1 0)) (.mul (.neg (.rd (.var .T))) (.sub (.sub (.add (.rd (.arr .dBdT 12)) (.rd (.arr .dBdT 2))) (.rd (.arr .dBdT 11))) (.rd (.arr .dBdT 3)))))))) (.rd (.var .rhoInv))),
  .set (.arr .jac 4) (.add (.rd (.arr .jac 4)) (.mul (.neg (.rd (.var .jTemp))) (.num 31998799999999999 15))),
  .set (.arr .jac 3) (.add (.rd (.arr .jac 3)) (.mul (.rd (.var .jTemp)) (.num 159994 4))),
  .set (.arr .jac 12) (.add (.rd (.arr .jac 12)) (.mul (.neg (.rd (.var .jTemp))) (.num 28010399999999997 15))),
  .set (.arr .jac 13) (.add (.rd (.arr .jac 13)) (.mul (.rd (.var .jTemp)) (.num 44009799999999998 15)))]

/-- utilities/mechanisms/drm19/lib/src/jacobs/jacob_0.c:1371-1462 -/
def jacobS14 : List CStmt := [
  .ite (.rd (.var .T)) (.num 1000 0) (.var .Kc) (.sub (.add (.add (.num 66238498799999999 16) (.mul (.neg (.num 18369492099999998 16)) (.rd (.var .logT)))) (.mul (.rd (.var .T)) (.add (.num 46561828850000004 19) (.mul (.rd (.var .T)) (.add (.neg (.num 18907691783333333 22)) (.mul (.rd (.var .T)) (.add (.num 42545109883333335 26) (.mul (.neg (.num 18517185450000006 30)) (.rd (.var .T)))))))))) (.div (.neg (.num 38416809400000056 13)) (.rd (.var .T)))) (.sub (.add (.add (.neg (.num 66450999300000007 16)) (.mul (.num 42915762000000068 17) (.rd (.var .logT)))) (.mul (.rd (.var .T)) (.add (.num 39139058814999976 20) (.mul (.rd (.var .T)) (.add (.neg (.num 6934552351666668 23)) (.mul (.rd (.var .T)) (.add (.num 61624037583333416 28) (.mul (.neg (.num 19717642450000027 32)) (.rd (.var .T)))))))))) (.div (.neg (.num 43012567799999961 13)) (.rd (.var .T)))),
  .set (.var .Kc) (.exp (.rd (.var .Kc))),
  .set (.var .jTemp) (.mul (.mul (.neg (.rd (.var .mwAvg))) (.rd (.var .rhoInv))) (.sub (.mul (.num 2 0) (.rd (.arr .fwd 14))) (.mul (.num 2 0) (.rd (.arr .rev 14))))),
  .set (.var .kf) (.exp (.sub (.num 21639556568820566 15) (.div (.num 24053895200267973 12) (.rd (.var .T))))),
  .set (.var .kr) (.div (.rd (.var .kf)) (.rd (.var .Kc))),
  .set (.arr .jac 25) (.add (.rd (.arr .jac 25)) (.mul (.neg (.num 15873365478103855 15)) (.mul (.rd (.var .jTemp)) (.num 92803892982949643 17)))),
  .set (.arr .jac 24) (.add (.rd (.arr .jac 24)) (.mul (.num 79366827390519274 16) (.mul (.rd (.var .jTemp)) (.num 92803892982949643 17)))),
  .set (.arr .jac 33) (.add (.rd (.arr .jac 33)) (.mul (.neg (.num 13894874694922315 15)) (.mul (.rd (.var .jTemp)) (.num 92803892982949643 17)))),
  .set (.arr .jac 34) (.add (.rd (.arr .jac 34)) (.mul (.num 21831557433974243 15) (.mul (.rd (.var .jTemp)) (.num 92803892982949643 17)))),
  .set (.arr .jac 46) (.add (.rd (.arr .jac 46)) (.mul (.neg (.num 3174673095620771 14)) (.mul (.rd (.var .jTemp)) (.num 96401946491474821 17)))),
  .set (.arr .jac 45) (.add (.rd (.arr .jac 45)) (.mul (.num 15873365478103855 15) (.mul (.rd (.var .jTemp)) (.num 96401946491474821 17)))),
  .set (.arr .jac 54) (.add (.rd (.arr .jac 54)) (.mul (.neg (.num 2778974938984463 14)) (.mul (.rd (.var .jTemp)) (.num 96401946491474821 17)))),
  .set (.arr .jac 55) (.add (.rd (.arr .jac 55)) (.mul (.num 43663114867948487 15) (.mul (.rd (.var .jTemp)) (.num 96401946491474821 17)))),
  .set (.arr .jac 67) (.add (.rd (.arr .jac 67)) (.mul (.neg (.num 2 0)) (.sub (.mul (.rd (.var .jTemp)) (.num 42886781649405936 17)) (.mul (.rd (.var .kr)) (.rd (.arr .C 12)))))),
  .set (.arr .jac 66) (.add (.rd (.arr .jac 66)) (.sub (.mul (.rd (.var .jTemp)) (.num 42886781649405936 17)) (.mul (.rd (.var .kr)) (.rd (.arr .C 12))))),
  .set (.arr .jac 75) (.add (.rd (.arr .jac 75)) (.mul (.neg (.num 17507156518369438 16)) (.sub (.mul (.rd (.var .jTemp)) (.num 42886781649405936 17)) (.mul (.rd (.var .kr)) (.rd (.arr .C 12)))))),
  .set (.arr .jac 76) (.add (.rd (.arr .jac 76)) (.mul (.num 2750715651836944 15) (.sub (.mul (.rd (.var .jTemp)) (.num 42886781649405936 17)) (.mul (.rd (.var .kr)) (.rd (.arr .C 12)))))),
  .set (.arr .jac 88) (.add (.rd (.arr .jac 88)) (.neg (.add (.mul (.rd (.var .jTemp)) (.neg (.num 14226436701188128 17))) (.mul (.rd (.var .kf)) (.rd (.arr .C 11)))))),
  .set (.arr .jac 87) (.add (.rd (.arr .jac 87)) (.mul (.num 5 1) (.add (.mul (.rd (.var .jTemp)) (.neg (.num 14226436701188128 17))) (.mul (.rd (.var .kf)) (.rd (.arr .C 11)))))),
  .set (.arr .jac 96) (.add (.rd (.arr .jac 96)) (.mul (.neg (.num 87535782591847189 17)) (.add (.mul (.rd (.var .jTemp)) (.neg (.num 14226436701188128 17))) (.mul (.rd (.var .kf)) (.rd (.arr .C 11)))))),
  .set (.arr .jac 97) (.add (.rd (.arr .jac 97)) (.mul (.num 1375357825918472 15) (.add (.mul (.rd (.var .jTemp)) (.neg (.num 14226436701188128 17))) (.mul (.rd (.var .kf)) (.rd (.arr .C 11)))))),
  .set (.arr .jac 109) (.add (.rd (.arr .jac 109)) (.mul (.neg (.num 18814700005997411 16)) (.mul (.rd (.var .jTemp)) (.num 39288728140880758 17)))),
  .set (.arr .jac 108) (.add (.rd (.arr .jac 108)) (.mul (.num 94073500029987056 17) (.mul (.rd (.var .jTemp)) (.num 39288728140880758 17)))),
  .set (.arr .jac 117) (.add (.rd (.arr .jac 117)) (.mul (.neg (.num 16469594892558153 16)) (.mul (.rd (.var .jTemp)) (.num 39288728140880758 17)))),
  .set (.arr .jac 118) (.add (.rd (.arr .jac 118)) (.mul (.num 25876944895556862 16) (.mul (.rd (.var .jTemp)) (.num 39288728140880758 17)))),
  .set (.arr .jac 130) (.add (.rd (.arr .jac 130)) (.mul (.neg (.num 17762033118552694 16)) (.mul (.rd (.var .jTemp)) (.num 35690674632355568 17)))),
  .set (.arr .jac 129) (.add (.rd (.arr .jac 129)) (.mul (.num 88810165592763468 17) (.mul (.rd (.var .jTemp)) (.num 35690674632355568 17)))),
  .set (.arr .jac 138) (.add (.rd (.arr .jac 138)) (.mul (.neg (.num 15548134694548181 16)) (.mul (.rd (.var .jTemp)) (.num 35690674632355568 17)))),
  .set (.arr .jac 139) (.add (.rd (.arr .jac 139)) (.mul (.num 2442915125382453 15) (.mul (.rd (.var .jTemp)) (.num 35690674632355568 17)))),
  .set (.arr .jac 151) (.add (.rd (.arr .jac 151)) (.mul (.neg (.num 96946260066883305 17)) (.mul (.rd (.var .jTemp)) (.neg (.num 17824490209713328 17))))),
  .set (.arr .jac 150) (.add (.rd (.arr .jac 150)) (.mul (.num 48473130033441653 17) (.mul (.rd (.var .jTemp)) (.neg (.num 17824490209713328 17))))),
  .set (.arr .jac 159) (.add (.rd (.arr .jac 159)) (.mul (.neg (.num 84862667443073736 17)) (.mul (.rd (.var .jTemp)) (.neg (.num 17824490209713328 17))))),
  .set (.arr .jac 160) (.add (.rd (.arr .jac 160)) (.mul (.num 13333579747651541 16) (.mul (.rd (.var .jTemp)) (.neg (.num 17824490209713328 17))))),
  .set (.arr .jac 172) (.add (.rd (.arr .jac 172)) (.mul (.neg (.num 22812485741661725 16)) (.mul (.rd (.var .jTemp)) (.num 49928106040377707 17)))),
  .set (.arr .jac 171) (.add (.rd (.arr .jac 171)) (.mul (.num 11406242870830863 16) (.mul (.rd (.var .jTemp)) (.num 49928106040377707 17)))),
  .set (.arr .jac 180) (.add (.rd (.arr .jac 180)) (.mul (.neg (.num 19969087922617146 16)) (.mul (.rd (.var .jTemp)) (.num 49928106040377707 17)))),
  .set (.arr .jac 181) (.add (.rd (.arr .jac 181)) (.mul (.num 31375330793448009 16) (.mul (.rd (.var .jTemp)) (.num 49928106040377707 17)))),
  .set (.arr .jac 193) (.add (.rd (.arr .jac 193)) (.mul (.neg (.num 22812485741661725 16)) (.mul (.rd (.var .jTemp)) (.num 49928106040377707 17)))),
  .set (.arr .jac 192) (.add (.rd (.arr .jac 192)) (.mul (.num 11406242870830863 16) (.mul (.rd (.var .jTemp)) (.num 49928106040377707 17)))),
  .set (.arr .jac 201) (.add (.rd (.arr .jac 201)) (.mul (.neg (.num 19969087922617146 16)) (.mul (.rd (.var .jTemp)) (.num 49928106040377707 17)))),
  .set (.arr .jac 202) (.add (.rd (.arr .jac 202)) (.mul (.num 31375330793448009 16) (.mul (.rd (.var .jTemp)) (.num 49928106040377707 17)))),
  .set (.arr .jac 214) (.add (.rd (.arr .jac 214)) (.mul (.neg (.num 21283128098640356 16)) (.mul (.rd (.var .jTemp)) (.num 46330052531852528 17)))),
  .set (.arr .jac 213) (.add (.rd (.arr .jac 213)) (.mul (.num 10641564049320178 16) (.mul (.rd (.var .jTemp)) (.num 46330052531852528 17)))),
  .set (.arr .jac 222) (.add (.rd (.arr .jac 222)) (.mul (.neg (.num 18630352741170162 16)) (.mul (.rd (.var .jTemp)) (.num 46330052531852528 17)))),
  .set (.arr .jac 223) (.add (.rd (.arr .jac 223)) (.mul (.num 2927191679049034 15) (.mul (.rd (.var .jTemp)) (.num 46330052531852528 17)))),
  .set (.arr .jac 235) (.add (.rd (.arr .jac 235)) (.mul (.neg (.num 19945944463421503 16)) (.mul (.rd (.var .jTemp)) (.num 42731999023327338 17)))),
  .set (.arr .jac 234) (.add (.rd (.arr .jac 234)) (.mul (.num 99729722317107516 17) (.mul (.rd (.var .jTemp)) (.num 42731999023327338 17)))),
  .set (.arr .jac 243) (.add (.rd (.arr .jac 243)) (.mul (.neg (.num 17459838581391229 16)) (.mul (.rd (.var .jTemp)) (.num 42731999023327338 17)))),
  .set (.arr .jac 244) (.add (.rd (.arr .jac 244)) (.mul (.num 27432810813101982 16) (.mul (.rd (.var .jTemp)) (.num 42731999023327338 17)))),
  .set (.arr .jac 256) (.add (.rd (.arr .jac 256)) (.mul (.neg (.num 11423899694399224 16)) (.add (.mul (.rd (.var .jTemp)) (.num 10994706834011048 20)) (.mul (.rd (.var .kf)) (.rd (.arr .C 3)))))),
  .set (.arr .jac 255) (.add (.rd (.arr .jac 255)) (.mul (.num 57119498471996122 17) (.add (.mul (.rd (.var .jTemp)) (.num 10994706834011048 20)) (.mul (.rd (.var .kf)) (.rd (.arr .C 3)))))),
  .set (.arr .jac 264) (.add (.rd (.arr .jac 264)) (.neg (.add (.mul (.rd (.var .jTemp)) (.num 10994706834011048 20)) (.mul (.rd (.var .kf)) (.rd (.arr .C 3)))))),
  .set (.arr .jac 265) (.add (.rd (.arr .jac 265)) (.mul (.num 15711949847199613 16) (.add (.mul (.rd (.var .jTemp)) (.num 10994706834011048 20)) (.mul (.rd (.var .kf)) (.rd (.arr .C 3)))))),
  .set (.arr .jac 277) (.add (.rd (.arr .jac 277)) (.mul (.neg (.num 72708351321751064 17)) (.sub (.mul (.rd (.var .jTemp)) (.neg (.num 57102223643760053 17))) (.mul (.rd (.var .kr)) (.rd (.arr .C 2)))))),
  .set (.arr .jac 276) (.add (.rd (.arr .jac 276)) (.mul (.num 36354175660875532 17) (.sub (.mul (.rd (.var .jTemp)) (.neg (.num 57102223643760053 17))) (.mul (.rd (.var .kr)) (.rd (.arr .C 2)))))),
  .set (.arr .jac 285) (.add (.rd (.arr .jac 285)) (.mul (.neg (.num 63645824339124468 17)) (.sub (.mul (.rd (.var .jTemp)) (.neg (.num 57102223643760053 17))) (.mul (.rd (.var .kr)) (.rd (.arr .C 2)))))),
  .set (.arr .jac 286) (.add (.rd (.arr .jac 286)) (.sub (.mul (.rd (.var .jTemp)) (.neg (.num 57102223643760053 17))) (.mul (.rd (.var .kr)) (.rd (.arr .C 2))))),
  .set (.arr .jac 298) (.add (.rd (.arr .jac 298)) (.mul (.neg (.num 11027095278365338 16)) (.mul (.rd (.var .jTemp)) (.neg (.num 35870588016911675 18))))),
  .set (.arr .jac 297) (.add (.rd (.arr .jac 297)) (.mul (.num 55135476391826688 17) (.mul (.rd (.var .jTemp)) (.neg (.num 35870588016911675 18))))),
  .set (.arr .jac 306) (.add (.rd (.arr .jac 306)) (.mul (.neg (.num 96526541490657281 17)) (.mul (.rd (.var .jTemp)) (.neg (.num 35870588016911675 18))))),
  .set (.arr .jac 307) (.add (.rd (.arr .jac 307)) (.mul (.num 15166201788248397 16) (.mul (.rd (.var .jTemp)) (.neg (.num 35870588016911675 18))))),
  .set (.arr .jac 319) (.add (.rd (.arr .jac 319)) (.mul (.neg (.num 10656931194939898 16)) (.mul (.rd (.var .jTemp)) (.neg (.num 71851123102163683 18))))),
  .set (.arr .jac 318) (.add (.rd (.arr .jac 318)) (.mul (.num 53284655974699491 17) (.mul (.rd (.var .jTemp)) (.neg (.num 71851123102163683 18))))),
  .set (.arr .jac 327) (.add (.rd (.arr .jac 327)) (.mul (.neg (.num 93286281217653322 17)) (.mul (.rd (.var .jTemp)) (.neg (.num 71851123102163683 18))))),
  .set (.arr .jac 328) (.add (.rd (.arr .jac 328)) (.mul (.num 14657093719235283 16) (.mul (.rd (.var .jTemp)) (.neg (.num 71851123102163683 18))))),
  .set (.arr .jac 340) (.add (.rd (.arr .jac 340)) (.mul (.neg (.num 10310811742650532 16)) (.mul (.rd (.var .jTemp)) (.neg (.num 10783165818741525 17))))),
  .set (.arr .jac 339) (.add (.rd (.arr .jac 339)) (.mul (.num 5155405871325266 16) (.mul (.rd (.var .jTemp)) (.neg (.num 10783165818741525 17))))),
  .set (.arr .jac 348) (.add (.rd (.arr .jac 348)) (.mul (.neg (.num 90256497505012201 17)) (.mul (.rd (.var .jTemp)) (.neg (.num 10783165818741525 17))))),
  .set (.arr .jac 349) (.add (.rd (.arr .jac 349)) (.mul (.num 14181055621826488 16) (.mul (.rd (.var .jTemp)) (.neg (.num 10783165818741525 17))))),
  .set (.arr .jac 361) (.add (.rd (.arr .jac 361)) (.mul (.neg (.num 11406242870830863 16)) (.mul (.rd (.var .jTemp)) (.neg (.num 14378791924458678 19))))),
  .set (.arr .jac 360) (.add (.rd (.arr .jac 360)) (.mul (.num 57031214354154314 17) (.mul (.rd (.var .jTemp)) (.neg (.num 14378791924458678 19))))),
  .set (.arr .jac 369) (.add (.rd (.arr .jac 369)) (.mul (.neg (.num 99845439613085729 17)) (.mul (.rd (.var .jTemp)) (.neg (.num 14378791924458678 19))))),
  .set (.arr .jac 370) (.add (.rd (.arr .jac 370)) (.mul (.num 15687665396724004 16) (.mul (.rd (.var .jTemp)) (.neg (.num 14378791924458678 19))))),
  .set (.arr .jac 382) (.add (.rd (.arr .jac 382)) (.mul (.neg (.num 11010642873610286 16)) (.mul (.rd (.var .jTemp)) (.neg (.num 37418414277697654 18))))),
  .set (.arr .jac 381) (.add (.rd (.arr .jac 381)) (.mul (.num 55053214368051429 17) (.mul (.rd (.var .jTemp)) (.neg (.num 37418414277697654 18))))),
  .set (.arr .jac 390) (.add (.rd (.arr .jac 390)) (.mul (.neg (.num 96382524078082144 17)) (.mul (.rd (.var .jTemp)) (.neg (.num 37418414277697654 18))))),
  .set (.arr .jac 391) (.add (.rd (.arr .jac 391)) (.mul (.num 15143573844613358 16) (.mul (.rd (.var .jTemp)) (.neg (.num 37418414277697654 18))))),
  .set (.arr .jac 403) (.add (.rd (.arr .jac 403)) (.mul (.neg (.num 10641564049320178 16)) (.mul (.rd (.var .jTemp)) (.neg (.num 73398949362949439 18))))),
  .set (.arr .jac 402) (.add (.rd (.arr .jac 402)) (.mul (.num 5320782024660089 16) (.mul (.rd (.var .jTemp)) (.neg (.num 73398949362949439 18))))),
  .set (.arr .jac 411) (.add (.rd (.arr .jac 411)) (.mul (.neg (.num 9315176370585081 16)) (.mul (.rd (.var .jTemp)) (.neg (.num 73398949362949439 18))))),
  .set (.arr .jac 412) (.add (.rd (.arr .jac 412)) (.mul (.num 1463595839524517 15) (.mul (.rd (.var .jTemp)) (.neg (.num 73398949362949439 18))))),
  .set (.arr .jac 424) (.add (.rd (.arr .jac 424)) (.mul (.neg (.num 80101131470912179 17)) (.mul (.rd (.var .jTemp)) (.neg (.num 42602775520927771 17))))),
  .set (.arr .jac 423) (.add (.rd (.arr .jac 423)) (.mul (.num 4005056573545609 16) (.mul (.rd (.var .jTemp)) (.neg (.num 42602775520927771 17))))),
  .set (.arr .jac 432) (.add (.rd (.arr .jac 432)) (.mul (.neg (.num 70117152297987373 17)) (.mul (.rd (.var .jTemp)) (.neg (.num 42602775520927771 17))))),
  .set (.arr .jac 433) (.add (.rd (.arr .jac 433)) (.mul (.num 11016771803344347 16) (.mul (.rd (.var .jTemp)) (.neg (.num 42602775520927771 17)))))]

/-- utilities/mechanisms/drm19/lib/src/jacobs/jacob_0.c:1463-1469 -/
def jacobT15 : List CStmt := [
  .set (.var .jTemp) (.mul (.mul (.div (.num 1 0) (.rd (.var .T))) (.sub (.add (.mul (.sub (.rd (.arr .fwd 15)) (.rd (.arr .rev 15))) (.div (.num 20128782594366505 12) (.rd (.var .T)))) (.mul (.rd (.arr .fwd 15)) (.neg (.num 1 0)))) (.mul (.rd (.arr .rev 15)) (.add (.neg (.num 1 0)) (.mul (.neg (.rd (.var .T))) (.sub (.sub (.add (.rd (.arr .dBdT 6)) (.rd (.arr .dBdT 13))) (.rd (.arr .dBdT 14))) (.rd (.arr .dBdT 3)))))))) (.rd (.var .rhoInv))),
  .set (.arr .jac 4) (.add (.rd (.arr .jac 4)) (.mul (.neg (.rd (.var .jTemp))) (.num 31998799999999999 15))),
  .set (.arr .jac 7) (.add (.rd (.arr .jac 7)) (.mul (.rd (.var .jTemp)) (.num 33006740000000001 15))),
  .set (.arr .jac 15) (.add (.rd (.arr .jac 15)) (.mul (.neg (.rd (.var .jTemp))) (.num 3002628 5))),
  .set (.arr .jac 14) (.add (.rd (.arr .jac 14)) (.mul (.rd (.var .jTemp)) (.num 29018339999999998 15)))]

/-- utilities/mechanisms/drm19/lib/src/jacobs/jacob_0.c:1470-1561 -/
def jacobS15 : List CStmt := [
  .ite (.rd (.var .T)) (.num 1000 0) (.var .Kc) (.sub (.add (.add (.num 29037419099999999 16) (.mul (.neg (.num 53195659999999645 18)) (.rd (.var .logT)))) (.mul (.rd (.var .T)) (.add (.num 24560110100000001 19) (.mul (.rd (.var .T)) (.add (.neg (.num 20385115183333334 22)) (.mul (.rd (.var .T)) (.add (.num 83491854083333293 26) (.mul (.neg (.num 13955268399999997 29)) (.rd (.var .T)))))))))) (.div (.num 19507273260000002 12) (.rd (.var .T)))) (.sub (.add (.add (.neg (.num 72722645800000008 16)) (.mul (.num 17461573600000004 16) (.rd (.var .logT)))) (.mul (.rd (.var .T)) (.add (.neg (.num 17431564850000003 19)) (.mul (.rd (.var .T)) (.add (.num 34374008649999992 23) (.mul (.rd (.var .T)) (.add (.neg (.num 42706210583333322 27)) (.mul (.num 22957809400000002 31) (.rd (.var .T)))))))))) (.div (.num 19208064882999999 12) (.rd (.var .T)))),
  .set (.var .Kc) (.exp (.rd (.var .Kc))),
  .set (.var .jTemp) (.mul (.mul (.neg (.rd (.var .mwAvg))) (.rd (.var .rhoInv))) (.sub (.mul (.num 2 0) (.rd (.arr .fwd 15))) (.mul (.num 2 0) (.rd (.arr .rev 15))))),
  .set (.var .kf) (.exp (.sub (.num 25328436022934504 15) (.div (.num 20128782594366505 12) (.rd (.var .T))))),
  .set (.var .kr) (.div (.rd (.var .kf)) (.rd (.var .Kc))),
  .set (.arr .jac 25) (.add (.rd (.arr .jac 25)) (.mul (.neg (.num 15873365478103855 15)) (.mul (.rd (.var .jTemp)) (.num 92803892982949643 17)))),
  .set (.arr .jac 28) (.add (.rd (.arr .jac 28)) (.mul (.num 16373365478103853 15) (.mul (.rd (.var .jTemp)) (.num 92803892982949643 17)))),
  .set (.arr .jac 36) (.add (.rd (.arr .jac 36)) (.mul (.neg (.num 14894874694922317 15)) (.mul (.rd (.var .jTemp)) (.num 92803892982949643 17)))),
  .set (.arr .jac 35) (.add (.rd (.arr .jac 35)) (.mul (.num 14394874694922315 15) (.mul (.rd (.var .jTemp)) (.num 92803892982949643 17)))),
  .set (.arr .jac 46) (.add (.rd (.arr .jac 46)) (.mul (.neg (.num 3174673095620771 14)) (.mul (.rd (.var .jTemp)) (.num 96401946491474821 17)))),
  .set (.arr .jac 49) (.add (.rd (.arr .jac 49)) (.mul (.num 32746730956207706 15) (.mul (.rd (.var .jTemp)) (.num 96401946491474821 17)))),
  .set (.arr .jac 57) (.add (.rd (.arr .jac 57)) (.mul (.neg (.num 29789749389844633 15)) (.mul (.rd (.var .jTemp)) (.num 96401946491474821 17)))),
  .set (.arr .jac 56) (.add (.rd (.arr .jac 56)) (.mul (.num 2878974938984463 14) (.mul (.rd (.var .jTemp)) (.num 96401946491474821 17)))),
  .set (.arr .jac 67) (.add (.rd (.arr .jac 67)) (.mul (.neg (.num 2 0)) (.mul (.rd (.var .jTemp)) (.num 42886781649405936 17)))),
  .set (.arr .jac 70) (.add (.rd (.arr .jac 70)) (.mul (.num 20629986124479669 16) (.mul (.rd (.var .jTemp)) (.num 42886781649405936 17)))),
  .set (.arr .jac 78) (.add (.rd (.arr .jac 78)) (.mul (.neg (.num 18767128767328776 16)) (.mul (.rd (.var .jTemp)) (.num 42886781649405936 17)))),
  .set (.arr .jac 77) (.add (.rd (.arr .jac 77)) (.mul (.num 18137142642849107 16) (.mul (.rd (.var .jTemp)) (.num 42886781649405936 17)))),
  .set (.arr .jac 88) (.add (.rd (.arr .jac 88)) (.neg (.add (.mul (.rd (.var .jTemp)) (.neg (.num 14226436701188128 17))) (.mul (.rd (.var .kf)) (.rd (.arr .C 14)))))),
  .set (.arr .jac 91) (.add (.rd (.arr .jac 91)) (.mul (.num 10314993062239834 16) (.add (.mul (.rd (.var .jTemp)) (.neg (.num 14226436701188128 17))) (.mul (.rd (.var .kf)) (.rd (.arr .C 14)))))),
  .set (.arr .jac 99) (.add (.rd (.arr .jac 99)) (.mul (.neg (.num 93835643836643878 17)) (.add (.mul (.rd (.var .jTemp)) (.neg (.num 14226436701188128 17))) (.mul (.rd (.var .kf)) (.rd (.arr .C 14)))))),
  .set (.arr .jac 98) (.add (.rd (.arr .jac 98)) (.mul (.num 90685713214245534 17) (.add (.mul (.rd (.var .jTemp)) (.neg (.num 14226436701188128 17))) (.mul (.rd (.var .kf)) (.rd (.arr .C 14)))))),
  .set (.arr .jac 109) (.add (.rd (.arr .jac 109)) (.mul (.neg (.num 18814700005997411 16)) (.mul (.rd (.var .jTemp)) (.num 39288728140880758 17)))),
  .set (.arr .jac 112) (.add (.rd (.arr .jac 112)) (.mul (.num 19407350002998707 16) (.mul (.rd (.var .jTemp)) (.num 39288728140880758 17)))),
  .set (.arr .jac 120) (.add (.rd (.arr .jac 120)) (.mul (.neg (.num 17654894886560744 16)) (.mul (.rd (.var .jTemp)) (.num 39288728140880758 17)))),
  .set (.arr .jac 119) (.add (.rd (.arr .jac 119)) (.mul (.num 17062244889559448 16) (.mul (.rd (.var .jTemp)) (.num 39288728140880758 17)))),
  .set (.arr .jac 130) (.add (.rd (.arr .jac 130)) (.mul (.neg (.num 17762033118552694 16)) (.mul (.rd (.var .jTemp)) (.num 35690674632355568 17)))),
  .set (.arr .jac 133) (.add (.rd (.arr .jac 133)) (.mul (.num 1832152483891452 15) (.mul (.rd (.var .jTemp)) (.num 35690674632355568 17)))),
  .set (.arr .jac 141) (.add (.rd (.arr .jac 141)) (.mul (.neg (.num 16667118135271835 16)) (.mul (.rd (.var .jTemp)) (.num 35690674632355568 17)))),
  .set (.arr .jac 140) (.add (.rd (.arr .jac 140)) (.mul (.num 16107626414910008 16) (.mul (.rd (.var .jTemp)) (.num 35690674632355568 17)))),
  .set (.arr .jac 151) (.add (.rd (.arr .jac 151)) (.mul (.neg (.num 96946260066883305 17)) (.sub (.mul (.rd (.var .jTemp)) (.neg (.num 17824490209713328 17))) (.mul (.rd (.var .kr)) (.rd (.arr .C 13)))))),
  .set (.arr .jac 154) (.add (.rd (.arr .jac 154)) (.sub (.mul (.rd (.var .jTemp)) (.neg (.num 17824490209713328 17))) (.mul (.rd (.var .kr)) (.rd (.arr .C 13))))),
  .set (.arr .jac 162) (.add (.rd (.arr .jac 162)) (.mul (.neg (.num 90970147309307126 17)) (.sub (.mul (.rd (.var .jTemp)) (.neg (.num 17824490209713328 17))) (.mul (.rd (.var .kr)) (.rd (.arr .C 13)))))),
  .set (.arr .jac 161) (.add (.rd (.arr .jac 161)) (.mul (.num 87916407376190431 17) (.sub (.mul (.rd (.var .jTemp)) (.neg (.num 17824490209713328 17))) (.mul (.rd (.var .kr)) (.rd (.arr .C 13)))))),
  .set (.arr .jac 172) (.add (.rd (.arr .jac 172)) (.mul (.neg (.num 22812485741661725 16)) (.mul (.rd (.var .jTemp)) (.num 49928106040377707 17)))),
  .set (.arr .jac 175) (.add (.rd (.arr .jac 175)) (.mul (.num 23531063215768584 16) (.mul (.rd (.var .jTemp)) (.num 49928106040377707 17)))),
  .set (.arr .jac 183) (.add (.rd (.arr .jac 183)) (.mul (.neg (.num 21406242870830865 16)) (.mul (.rd (.var .jTemp)) (.num 49928106040377707 17)))),
  .set (.arr .jac 182) (.add (.rd (.arr .jac 182)) (.mul (.num 20687665396724007 16) (.mul (.rd (.var .jTemp)) (.num 49928106040377707 17)))),
  .set (.arr .jac 193) (.add (.rd (.arr .jac 193)) (.mul (.neg (.num 22812485741661725 16)) (.mul (.rd (.var .jTemp)) (.num 49928106040377707 17)))),
  .set (.arr .jac 196) (.add (.rd (.arr .jac 196)) (.mul (.num 23531063215768584 16) (.mul (.rd (.var .jTemp)) (.num 49928106040377707 17)))),
  .set (.arr .jac 204) (.add (.rd (.arr .jac 204)) (.mul (.neg (.num 21406242870830865 16)) (.mul (.rd (.var .jTemp)) (.num 49928106040377707 17)))),
  .set (.arr .jac 203) (.add (.rd (.arr .jac 203)) (.mul (.num 20687665396724007 16) (.mul (.rd (.var .jTemp)) (.num 49928106040377707 17)))),
  .set (.arr .jac 214) (.add (.rd (.arr .jac 214)) (.mul (.neg (.num 21283128098640356 16)) (.mul (.rd (.var .jTemp)) (.num 46330052531852528 17)))),
  .set (.arr .jac 217) (.add (.rd (.arr .jac 217)) (.mul (.num 21953531868023695 16) (.mul (.rd (.var .jTemp)) (.num 46330052531852528 17)))),
  .set (.arr .jac 225) (.add (.rd (.arr .jac 225)) (.mul (.neg (.num 19971160279936839 16)) (.mul (.rd (.var .jTemp)) (.num 46330052531852528 17)))),
  .set (.arr .jac 224) (.add (.rd (.arr .jac 224)) (.mul (.num 19300756510553501 16) (.mul (.rd (.var .jTemp)) (.num 46330052531852528 17)))),
  .set (.arr .jac 235) (.add (.rd (.arr .jac 235)) (.mul (.neg (.num 19945944463421503 16)) (.mul (.rd (.var .jTemp)) (.num 42731999023327338 17)))),
  .set (.arr .jac 238) (.add (.rd (.arr .jac 238)) (.mul (.num 20574227876001383 16) (.mul (.rd (.var .jTemp)) (.num 42731999023327338 17)))),
  .set (.arr .jac 246) (.add (.rd (.arr .jac 246)) (.mul (.neg (.num 18716405406550991 16)) (.mul (.rd (.var .jTemp)) (.num 42731999023327338 17)))),
  .set (.arr .jac 245) (.add (.rd (.arr .jac 245)) (.mul (.num 18088121993971109 16) (.mul (.rd (.var .jTemp)) (.num 42731999023327338 17)))),
  .set (.arr .jac 256) (.add (.rd (.arr .jac 256)) (.mul (.neg (.num 11423899694399224 16)) (.mul (.rd (.var .jTemp)) (.num 10994706834011048 20)))),
  .set (.arr .jac 259) (.add (.rd (.arr .jac 259)) (.mul (.num 11783744609145177 16) (.mul (.rd (.var .jTemp)) (.num 10994706834011048 20)))),
  .set (.arr .jac 267) (.add (.rd (.arr .jac 267)) (.mul (.neg (.num 10719689829491903 16)) (.mul (.rd (.var .jTemp)) (.num 10994706834011048 20)))),
  .set (.arr .jac 266) (.add (.rd (.arr .jac 266)) (.mul (.num 10359844914745953 16) (.mul (.rd (.var .jTemp)) (.num 10994706834011048 20)))),
  .set (.arr .jac 277) (.add (.rd (.arr .jac 277)) (.mul (.neg (.num 72708351321751064 17)) (.mul (.rd (.var .jTemp)) (.neg (.num 57102223643760053 17))))),
  .set (.arr .jac 280) (.add (.rd (.arr .jac 280)) (.mul (.num 74998613945075876 17) (.mul (.rd (.var .jTemp)) (.neg (.num 57102223643760053 17))))),
  .set (.arr .jac 288) (.add (.rd (.arr .jac 288)) (.mul (.neg (.num 68226349585774082 17)) (.mul (.rd (.var .jTemp)) (.neg (.num 57102223643760053 17))))),
  .set (.arr .jac 287) (.add (.rd (.arr .jac 287)) (.mul (.num 6593608696244927 16) (.mul (.rd (.var .jTemp)) (.neg (.num 57102223643760053 17))))),
  .set (.arr .jac 298) (.add (.rd (.arr .jac 298)) (.mul (.neg (.num 11027095278365338 16)) (.sub (.mul (.rd (.var .jTemp)) (.neg (.num 35870588016911675 18))) (.mul (.rd (.var .kr)) (.rd (.arr .C 6)))))),
  .set (.arr .jac 301) (.add (.rd (.arr .jac 301)) (.mul (.num 11374441129299608 16) (.sub (.mul (.rd (.var .jTemp)) (.neg (.num 35870588016911675 18))) (.mul (.rd (.var .kr)) (.rd (.arr .C 6)))))),
  .set (.arr .jac 309) (.add (.rd (.arr .jac 309)) (.mul (.neg (.num 10347345850934271 16)) (.sub (.mul (.rd (.var .jTemp)) (.neg (.num 35870588016911675 18))) (.mul (.rd (.var .kr)) (.rd (.arr .C 6)))))),
  .set (.arr .jac 308) (.add (.rd (.arr .jac 308)) (.sub (.mul (.rd (.var .jTemp)) (.neg (.num 35870588016911675 18))) (.mul (.rd (.var .kr)) (.rd (.arr .C 6))))),
  .set (.arr .jac 319) (.add (.rd (.arr .jac 319)) (.mul (.neg (.num 10656931194939898 16)) (.add (.mul (.rd (.var .jTemp)) (.neg (.num 71851123102163683 18))) (.mul (.rd (.var .kf)) (.rd (.arr .C 3)))))),
  .set (.arr .jac 322) (.add (.rd (.arr .jac 322)) (.mul (.num 10992617134057232 16) (.add (.mul (.rd (.var .jTemp)) (.neg (.num 71851123102163683 18))) (.mul (.rd (.var .kf)) (.rd (.arr .C 3)))))),
  .set (.arr .jac 330) (.add (.rd (.arr .jac 330)) (.neg (.add (.mul (.rd (.var .jTemp)) (.neg (.num 71851123102163683 18))) (.mul (.rd (.var .kf)) (.rd (.arr .C 3)))))),
  .set (.arr .jac 329) (.add (.rd (.arr .jac 329)) (.mul (.num 96643140608826661 17) (.add (.mul (.rd (.var .jTemp)) (.neg (.num 71851123102163683 18))) (.mul (.rd (.var .kf)) (.rd (.arr .C 3)))))),
  .set (.arr .jac 340) (.add (.rd (.arr .jac 340)) (.mul (.neg (.num 10310811742650532 16)) (.mul (.rd (.var .jTemp)) (.neg (.num 10783165818741525 17))))),
  .set (.arr .jac 343) (.add (.rd (.arr .jac 343)) (.mul (.num 10635595159150126 16) (.mul (.rd (.var .jTemp)) (.neg (.num 10783165818741525 17))))),
  .set (.arr .jac 351) (.add (.rd (.arr .jac 351)) (.mul (.neg (.num 96752165835004078 17)) (.mul (.rd (.var .jTemp)) (.neg (.num 10783165818741525 17))))),
  .set (.arr .jac 350) (.add (.rd (.arr .jac 350)) (.mul (.num 93504331670008145 17) (.mul (.rd (.var .jTemp)) (.neg (.num 10783165818741525 17))))),
  .set (.arr .jac 361) (.add (.rd (.arr .jac 361)) (.mul (.neg (.num 11406242870830863 16)) (.mul (.rd (.var .jTemp)) (.neg (.num 14378791924458678 19))))),
  .set (.arr .jac 364) (.add (.rd (.arr .jac 364)) (.mul (.num 11765531607884292 16) (.mul (.rd (.var .jTemp)) (.neg (.num 14378791924458678 19))))),
  .set (.arr .jac 372) (.add (.rd (.arr .jac 372)) (.mul (.neg (.num 10703121435415432 16)) (.mul (.rd (.var .jTemp)) (.neg (.num 14378791924458678 19))))),
  .set (.arr .jac 371) (.add (.rd (.arr .jac 371)) (.mul (.num 10343832698362003 16) (.mul (.rd (.var .jTemp)) (.neg (.num 14378791924458678 19))))),
  .set (.arr .jac 382) (.add (.rd (.arr .jac 382)) (.mul (.neg (.num 11010642873610286 16)) (.mul (.rd (.var .jTemp)) (.neg (.num 37418414277697654 18))))),
  .set (.arr .jac 385) (.add (.rd (.arr .jac 385)) (.mul (.num 11357470485209056 16) (.mul (.rd (.var .jTemp)) (.neg (.num 37418414277697654 18))))),
  .set (.arr .jac 393) (.add (.rd (.arr .jac 393)) (.mul (.neg (.num 10331907631005757 16)) (.mul (.rd (.var .jTemp)) (.neg (.num 37418414277697654 18))))),
  .set (.arr .jac 392) (.add (.rd (.arr .jac 392)) (.mul (.num 99850800194069855 17) (.mul (.rd (.var .jTemp)) (.neg (.num 37418414277697654 18))))),
  .set (.arr .jac 403) (.add (.rd (.arr .jac 403)) (.mul (.neg (.num 10641564049320178 16)) (.mul (.rd (.var .jTemp)) (.neg (.num 73398949362949439 18))))),
  .set (.arr .jac 406) (.add (.rd (.arr .jac 406)) (.mul (.num 10976765934011847 16) (.mul (.rd (.var .jTemp)) (.neg (.num 73398949362949439 18))))),
  .set (.arr .jac 414) (.add (.rd (.arr .jac 414)) (.mul (.neg (.num 99855801399684196 17)) (.mul (.rd (.var .jTemp)) (.neg (.num 73398949362949439 18))))),
  .set (.arr .jac 413) (.add (.rd (.arr .jac 413)) (.mul (.num 96503782552767503 17) (.mul (.rd (.var .jTemp)) (.neg (.num 73398949362949439 18))))),
  .set (.arr .jac 424) (.add (.rd (.arr .jac 424)) (.mul (.neg (.num 80101131470912179 17)) (.mul (.rd (.var .jTemp)) (.neg (.num 42602775520927771 17))))),
  .set (.arr .jac 427) (.add (.rd (.arr .jac 427)) (.mul (.num 82624261540002009 17) (.mul (.rd (.var .jTemp)) (.neg (.num 42602775520927771 17))))),
  .set (.arr .jac 435) (.add (.rd (.arr .jac 435)) (.mul (.neg (.num 75163412436167021 17)) (.mul (.rd (.var .jTemp)) (.neg (.num 42602775520927771 17))))),
  .set (.arr .jac 434) (.add (.rd (.arr .jac 434)) (.mul (.num 72640282367077191 17) (.mul (.rd (.var .jTemp)) (.neg (.num 42602775520927771 17)))))]

/-- utilities/mechanisms/drm19/lib/src/jacobs/jacob_0.c:1562-1567 -/
def jacobT16 : List CStmt := [
  .set (.var .jTemp) (.mul (.add (.div (.mul (.neg (.rd (.arr .presMod 2))) (.sub (.rd (.arr .fwd 16)) (.rd (.arr .rev 16)))) (.rd (.var .T))) (.mul (.div (.rd (.arr .presMod 2)) (.rd (.var .T))) (.sub (.add (.mul (.sub (.rd (.arr .fwd 16)) (.rd (.arr .rev 16))) (.neg (.num 85999999999999999 17))) (.mul (.rd (.arr .fwd 16)) (.neg (.num 1 0)))) (.mul (.rd (.arr .rev 16)) (.mul (.neg (.rd (.var .T))) (.sub (.sub (.rd (.arr .dBdT 6)) (.rd (.arr .dBdT 1))) (.rd (.arr .dBdT 3)))))))) (.rd (.var .rhoInv))),
  .set (.arr .jac 2) (.add (.rd (.arr .jac 2)) (.mul (.neg (.rd (.var .jTemp))) (.num 10079400000000001 16))),
  .set (.arr .jac 4) (.add (.rd (.arr .jac 4)) (.mul (.neg (.rd (.var .jTemp))) (.num 31998799999999999 15))),
  .set (.arr .jac 7) (.add (.rd (.arr .jac 7)) (.mul (.rd (.var .jTemp)) (.num 33006740000000001 15)))]

/-- utilities/mechanisms/drm19/lib/src/jacobs/jacob_0.c:1568-1640 -/
def jacobS16 : List CStmt := [
  .ite (.rd (.var .T)) (.num 1000 0) (.var .Kc) (.sub (.add (.add (.num 24863279230000002 16) (.mul (.neg (.num 98065834999999968 17)) (.rd (.var .logT)))) (.mul (.rd (.var .T)) (.add (.neg (.num 87619317535266635 20)) (.mul (.rd (.var .T)) (.add (.num 1885164515332653 21) (.mul (.rd (.var .T)) (.add (.neg (.num 12162578593584016 25)) (.mul (.num 3024261435463867 28) (.rd (.var .T)))))))))) (.div (.neg (.num 24114908299999999 12)) (.rd (.var .T)))) (.sub (.add (.add (.num 54388072400000009 17) (.mul (.neg (.num 76532694999999951 17)) (.rd (.var .logT)))) (.mul (.rd (.var .T)) (.add (.num 37836630654214864 20) (.mul (.rd (.var .T)) (.add (.num 20718083807300866 24) (.mul (.rd (.var .T)) (.add (.neg (.num 79353483554039681 28)) (.mul (.num 54404627009013201 32) (.rd (.var .T)))))))))) (.div (.neg (.num 24273345466999999 12)) (.rd (.var .T)))),
  .set (.var .Kc) (.mul (.num 82057360967184814 18) (.exp (.rd (.var .Kc)))),
  .set (.var .presModTemp) (.sub (.rd (.arr .fwd 16)) (.rd (.arr .rev 16))),
  .set (.var .jTemp) (.mul (.mul (.mul (.neg (.rd (.var .mwAvg))) (.rd (.var .rhoInv))) (.rd (.arr .presMod 2))) (.sub (.mul (.num 3 0) (.rd (.arr .fwd 16))) (.mul (.num 2 0) (.rd (.arr .rev 16))))),
  .set (.var .kf) (.exp (.sub (.num 28660640533109706 15) (.mul (.num 86 2) (.rd (.var .logT))))),
  .set (.var .kr) (.div (.rd (.var .kf)) (.rd (.var .Kc))),
  .set (.arr .jac 23) (.add (.rd (.arr .jac 23)) (.mul (.neg (.num 5 1)) (.add (.mul (.rd (.var .jTemp)) (.num 92803892982949643 17)) (.rd (.var .presModTemp))))),
  .set (.arr .jac 25) (.add (.rd (.arr .jac 25)) (.mul (.neg (.num 15873365478103855 15)) (.add (.mul (.rd (.var .jTemp)) (.num 92803892982949643 17)) (.rd (.var .presModTemp))))),
  .set (.arr .jac 28) (.add (.rd (.arr .jac 28)) (.mul (.num 16373365478103853 15) (.add (.mul (.rd (.var .jTemp)) (.num 92803892982949643 17)) (.rd (.var .presModTemp))))),
  .set (.arr .jac 44) (.add (.rd (.arr .jac 44)) (.neg (.add (.add (.mul (.rd (.var .jTemp)) (.num 96401946491474821 17)) (.rd (.var .presModTemp))) (.mul (.rd (.arr .presMod 2)) (.mul (.rd (.var .kf)) (.rd (.arr .C 3))))))),
  .set (.arr .jac 46) (.add (.rd (.arr .jac 46)) (.mul (.neg (.num 3174673095620771 14)) (.add (.add (.mul (.rd (.var .jTemp)) (.num 96401946491474821 17)) (.rd (.var .presModTemp))) (.mul (.rd (.arr .presMod 2)) (.mul (.rd (.var .kf)) (.rd (.arr .C 3))))))),
  .set (.arr .jac 49) (.add (.rd (.arr .jac 49)) (.mul (.num 32746730956207706 15) (.add (.add (.mul (.rd (.var .jTemp)) (.num 96401946491474821 17)) (.rd (.var .presModTemp))) (.mul (.rd (.arr .presMod 2)) (.mul (.rd (.var .kf)) (.rd (.arr .C 3))))))),
  .set (.arr .jac 65) (.add (.rd (.arr .jac 65)) (.mul (.neg (.num 62998612447966798 18)) (.add (.mul (.rd (.var .jTemp)) (.num 42886781649405936 17)) (.rd (.var .presModTemp))))),
  .set (.arr .jac 67) (.add (.rd (.arr .jac 67)) (.mul (.neg (.num 2 0)) (.add (.mul (.rd (.var .jTemp)) (.num 42886781649405936 17)) (.rd (.var .presModTemp))))),
  .set (.arr .jac 70) (.add (.rd (.arr .jac 70)) (.mul (.num 20629986124479669 16) (.add (.mul (.rd (.var .jTemp)) (.num 42886781649405936 17)) (.rd (.var .presModTemp))))),
  .set (.arr .jac 86) (.add (.rd (.arr .jac 86)) (.mul (.neg (.num 31499306223983399 18)) (.add (.mul (.rd (.var .jTemp)) (.neg (.num 14226436701188128 17))) (.mul (.rd (.arr .presMod 2)) (.mul (.rd (.var .kf)) (.rd (.arr .C 1))))))),
  .set (.arr .jac 88) (.add (.rd (.arr .jac 88)) (.neg (.add (.mul (.rd (.var .jTemp)) (.neg (.num 14226436701188128 17))) (.mul (.rd (.arr .presMod 2)) (.mul (.rd (.var .kf)) (.rd (.arr .C 1))))))),
  .set (.arr .jac 91) (.add (.rd (.arr .jac 91)) (.mul (.num 10314993062239834 16) (.add (.mul (.rd (.var .jTemp)) (.neg (.num 14226436701188128 17))) (.mul (.rd (.arr .presMod 2)) (.mul (.rd (.var .kf)) (.rd (.arr .C 1))))))),
  .set (.arr .jac 107) (.add (.rd (.arr .jac 107)) (.mul (.neg (.num 59264999700129481 18)) (.add (.mul (.rd (.var .jTemp)) (.num 39288728140880758 17)) (.rd (.var .presModTemp))))),
  .set (.arr .jac 109) (.add (.rd (.arr .jac 109)) (.mul (.neg (.num 18814700005997411 16)) (.add (.mul (.rd (.var .jTemp)) (.num 39288728140880758 17)) (.rd (.var .presModTemp))))),
  .set (.arr .jac 112) (.add (.rd (.arr .jac 112)) (.mul (.num 19407350002998707 16) (.add (.mul (.rd (.var .jTemp)) (.num 39288728140880758 17)) (.rd (.var .presModTemp))))),
  .set (.arr .jac 128) (.add (.rd (.arr .jac 128)) (.mul (.neg (.num 55949172036182618 18)) (.mul (.rd (.var .jTemp)) (.num 35690674632355568 17)))),
  .set (.arr .jac 130) (.add (.rd (.arr .jac 130)) (.mul (.neg (.num 17762033118552694 16)) (.mul (.rd (.var .jTemp)) (.num 35690674632355568 17)))),
  .set (.arr .jac 133) (.add (.rd (.arr .jac 133)) (.mul (.num 1832152483891452 15) (.mul (.rd (.var .jTemp)) (.num 35690674632355568 17)))),
  .set (.arr .jac 149) (.add (.rd (.arr .jac 149)) (.mul (.neg (.num 3053739933116691 17)) (.add (.add (.mul (.rd (.var .jTemp)) (.neg (.num 17824490209713328 17))) (.rd (.var .presModTemp))) (.mul (.rd (.arr .presMod 2)) (.neg (.rd (.var .kr))))))),
  .set (.arr .jac 151) (.add (.rd (.arr .jac 151)) (.mul (.neg (.num 96946260066883305 17)) (.add (.add (.mul (.rd (.var .jTemp)) (.neg (.num 17824490209713328 17))) (.rd (.var .presModTemp))) (.mul (.rd (.arr .presMod 2)) (.neg (.rd (.var .kr))))))),
  .set (.arr .jac 154) (.add (.rd (.arr .jac 154)) (.add (.add (.mul (.rd (.var .jTemp)) (.neg (.num 17824490209713328 17))) (.rd (.var .presModTemp))) (.mul (.rd (.arr .presMod 2)) (.neg (.rd (.var .kr)))))),
  .set (.arr .jac 170) (.add (.rd (.arr .jac 170)) (.mul (.neg (.num 71857747410685777 18)) (.add (.mul (.rd (.var .jTemp)) (.num 49928106040377707 17)) (.rd (.var .presModTemp))))),
  .set (.arr .jac 172) (.add (.rd (.arr .jac 172)) (.mul (.neg (.num 22812485741661725 16)) (.add (.mul (.rd (.var .jTemp)) (.num 49928106040377707 17)) (.rd (.var .presModTemp))))),
  .set (.arr .jac 175) (.add (.rd (.arr .jac 175)) (.mul (.num 23531063215768584 16) (.add (.mul (.rd (.var .jTemp)) (.num 49928106040377707 17)) (.rd (.var .presModTemp))))),
  .set (.arr .jac 191) (.add (.rd (.arr .jac 191)) (.mul (.neg (.num 71857747410685777 18)) (.add (.mul (.rd (.var .jTemp)) (.num 49928106040377707 17)) (.rd (.var .presModTemp))))),
  .set (.arr .jac 193) (.add (.rd (.arr .jac 193)) (.mul (.neg (.num 22812485741661725 16)) (.add (.mul (.rd (.var .jTemp)) (.num 49928106040377707 17)) (.rd (.var .presModTemp))))),
  .set (.arr .jac 196) (.add (.rd (.arr .jac 196)) (.mul (.num 23531063215768584 16) (.add (.mul (.rd (.var .jTemp)) (.num 49928106040377707 17)) (.rd (.var .presModTemp))))),
  .set (.arr .jac 212) (.add (.rd (.arr .jac 212)) (.mul (.neg (.num 67040376938333812 18)) (.add (.mul (.rd (.var .jTemp)) (.num 46330052531852528 17)) (.rd (.var .presModTemp))))),
  .set (.arr .jac 214) (.add (.rd (.arr .jac 214)) (.mul (.neg (.num 21283128098640356 16)) (.add (.mul (.rd (.var .jTemp)) (.num 46330052531852528 17)) (.rd (.var .presModTemp))))),
  .set (.arr .jac 217) (.add (.rd (.arr .jac 217)) (.mul (.num 21953531868023695 16) (.add (.mul (.rd (.var .jTemp)) (.num 46330052531852528 17)) (.rd (.var .presModTemp))))),
  .set (.arr .jac 233) (.add (.rd (.arr .jac 233)) (.mul (.neg (.num 6282834125798803 17)) (.add (.mul (.rd (.var .jTemp)) (.num 42731999023327338 17)) (.rd (.var .presModTemp))))),
  .set (.arr .jac 235) (.add (.rd (.arr .jac 235)) (.mul (.neg (.num 19945944463421503 16)) (.add (.mul (.rd (.var .jTemp)) (.num 42731999023327338 17)) (.rd (.var .presModTemp))))),
  .set (.arr .jac 238) (.add (.rd (.arr .jac 238)) (.mul (.num 20574227876001383 16) (.add (.mul (.rd (.var .jTemp)) (.num 42731999023327338 17)) (.rd (.var .presModTemp))))),
  .set (.arr .jac 254) (.add (.rd (.arr .jac 254)) (.mul (.neg (.num 35984491474595155 18)) (.add (.mul (.rd (.var .jTemp)) (.num 10994706834011048 20)) (.mul (.num 75 2) (.rd (.var .presModTemp)))))),
  .set (.arr .jac 256) (.add (.rd (.arr .jac 256)) (.mul (.neg (.num 11423899694399224 16)) (.add (.mul (.rd (.var .jTemp)) (.num 10994706834011048 20)) (.mul (.num 75 2) (.rd (.var .presModTemp)))))),
  .set (.arr .jac 259) (.add (.rd (.arr .jac 259)) (.mul (.num 11783744609145177 16) (.add (.mul (.rd (.var .jTemp)) (.num 10994706834011048 20)) (.mul (.num 75 2) (.rd (.var .presModTemp)))))),
  .set (.arr .jac 275) (.add (.rd (.arr .jac 275)) (.mul (.neg (.num 22902626233248052 18)) (.add (.mul (.rd (.var .jTemp)) (.neg (.num 57102223643760053 17))) (.mul (.num 15 1) (.rd (.var .presModTemp)))))),
  .set (.arr .jac 277) (.add (.rd (.arr .jac 277)) (.mul (.neg (.num 72708351321751064 17)) (.add (.mul (.rd (.var .jTemp)) (.neg (.num 57102223643760053 17))) (.mul (.num 15 1) (.rd (.var .presModTemp)))))),
  .set (.arr .jac 280) (.add (.rd (.arr .jac 280)) (.mul (.num 74998613945075876 17) (.add (.mul (.rd (.var .jTemp)) (.neg (.num 57102223643760053 17))) (.mul (.num 15 1) (.rd (.var .presModTemp)))))),
  .set (.arr .jac 296) (.add (.rd (.arr .jac 296)) (.mul (.neg (.num 34734585093427126 18)) (.add (.mul (.rd (.var .jTemp)) (.neg (.num 35870588016911675 18))) (.rd (.var .presModTemp))))),
  .set (.arr .jac 298) (.add (.rd (.arr .jac 298)) (.mul (.neg (.num 11027095278365338 16)) (.add (.mul (.rd (.var .jTemp)) (.neg (.num 35870588016911675 18))) (.rd (.var .presModTemp))))),
  .set (.arr .jac 301) (.add (.rd (.arr .jac 301)) (.mul (.num 11374441129299608 16) (.add (.mul (.rd (.var .jTemp)) (.neg (.num 35870588016911675 18))) (.rd (.var .presModTemp))))),
  .set (.arr .jac 317) (.add (.rd (.arr .jac 317)) (.mul (.neg (.num 33568593911733322 18)) (.add (.mul (.rd (.var .jTemp)) (.neg (.num 71851123102163683 18))) (.rd (.var .presModTemp))))),
  .set (.arr .jac 319) (.add (.rd (.arr .jac 319)) (.mul (.neg (.num 10656931194939898 16)) (.add (.mul (.rd (.var .jTemp)) (.neg (.num 71851123102163683 18))) (.rd (.var .presModTemp))))),
  .set (.arr .jac 322) (.add (.rd (.arr .jac 322)) (.mul (.num 10992617134057232 16) (.add (.mul (.rd (.var .jTemp)) (.neg (.num 71851123102163683 18))) (.rd (.var .presModTemp))))),
  .set (.arr .jac 338) (.add (.rd (.arr .jac 338)) (.mul (.neg (.num 32478341649959309 18)) (.add (.mul (.rd (.var .jTemp)) (.neg (.num 10783165818741525 17))) (.rd (.var .presModTemp))))),
  .set (.arr .jac 340) (.add (.rd (.arr .jac 340)) (.mul (.neg (.num 10310811742650532 16)) (.add (.mul (.rd (.var .jTemp)) (.neg (.num 10783165818741525 17))) (.rd (.var .presModTemp))))),
  .set (.arr .jac 343) (.add (.rd (.arr .jac 343)) (.mul (.num 10635595159150126 16) (.add (.mul (.rd (.var .jTemp)) (.neg (.num 10783165818741525 17))) (.rd (.var .presModTemp))))),
  .set (.arr .jac 359) (.add (.rd (.arr .jac 359)) (.mul (.neg (.num 35928873705342888 18)) (.add (.mul (.rd (.var .jTemp)) (.neg (.num 14378791924458678 19))) (.rd (.var .presModTemp))))),
  .set (.arr .jac 361) (.add (.rd (.arr .jac 361)) (.mul (.neg (.num 11406242870830863 16)) (.add (.mul (.rd (.var .jTemp)) (.neg (.num 14378791924458678 19))) (.rd (.var .presModTemp))))),
  .set (.arr .jac 364) (.add (.rd (.arr .jac 364)) (.mul (.num 11765531607884292 16) (.add (.mul (.rd (.var .jTemp)) (.neg (.num 14378791924458678 19))) (.rd (.var .presModTemp))))),
  .set (.arr .jac 380) (.add (.rd (.arr .jac 380)) (.mul (.neg (.num 3468276115987709 17)) (.add (.mul (.rd (.var .jTemp)) (.neg (.num 37418414277697654 18))) (.rd (.var .presModTemp))))),
  .set (.arr .jac 382) (.add (.rd (.arr .jac 382)) (.mul (.neg (.num 11010642873610286 16)) (.add (.mul (.rd (.var .jTemp)) (.neg (.num 37418414277697654 18))) (.rd (.var .presModTemp))))),
  .set (.arr .jac 385) (.add (.rd (.arr .jac 385)) (.mul (.num 11357470485209056 16) (.add (.mul (.rd (.var .jTemp)) (.neg (.num 37418414277697654 18))) (.rd (.var .presModTemp))))),
  .set (.arr .jac 401) (.add (.rd (.arr .jac 401)) (.mul (.neg (.num 33520188469166906 18)) (.add (.mul (.rd (.var .jTemp)) (.neg (.num 73398949362949439 18))) (.mul (.num 15 1) (.rd (.var .presModTemp)))))),
  .set (.arr .jac 403) (.add (.rd (.arr .jac 403)) (.mul (.neg (.num 10641564049320178 16)) (.add (.mul (.rd (.var .jTemp)) (.neg (.num 73398949362949439 18))) (.mul (.num 15 1) (.rd (.var .presModTemp)))))),
  .set (.arr .jac 406) (.add (.rd (.arr .jac 406)) (.mul (.num 10976765934011847 16) (.add (.mul (.rd (.var .jTemp)) (.neg (.num 73398949362949439 18))) (.mul (.num 15 1) (.rd (.var .presModTemp)))))),
  .set (.arr .jac 422) (.add (.rd (.arr .jac 422)) (.mul (.neg (.num 2523130069089817 17)) (.mul (.rd (.var .jTemp)) (.neg (.num 42602775520927771 17))))),
  .set (.arr .jac 424) (.add (.rd (.arr .jac 424)) (.mul (.neg (.num 80101131470912179 17)) (.mul (.rd (.var .jTemp)) (.neg (.num 42602775520927771 17))))),
  .set (.arr .jac 427) (.add (.rd (.arr .jac 427)) (.mul (.num 82624261540002009 17) (.mul (.rd (.var .jTemp)) (.neg (.num 42602775520927771 17)))))]

/-- utilities/mechanisms/drm19/lib/src/jacobs/jacob_0.c:1641-1646 -/
def jacobT17 : List CStmt := [
  .set (.var .jTemp) (.mul (.mul (.div (.num 1 0) (.rd (.var .T))) (.sub (.add (.mul (.sub (.rd (.arr .fwd 17)) (.rd (.arr .rev 17))) (.neg (.num 172 2))) (.mul (.rd (.arr .fwd 17)) (.neg (.num 2 0)))) (.mul (.rd (.arr .rev 17)) (.add (.neg (.num 1 0)) (.mul (.neg (.rd (.var .T))) (.sub (.sub (.rd (.arr .dBdT 6)) (.rd (.arr .dBdT 3))) (.rd (.arr .dBdT 1)))))))) (.rd (.var .rhoInv))),
  .set (.arr .jac 2) (.add (.rd (.arr .jac 2)) (.mul (.neg (.rd (.var .jTemp))) (.num 10079400000000001 16))),
  .set (.arr .jac 4) (.add (.rd (.arr .jac 4)) (.mul (.neg (.rd (.var .jTemp))) (.num 31998799999999999 15))),
  .set (.arr .jac 7) (.add (.rd (.arr .jac 7)) (.mul (.rd (.var .jTemp)) (.num 33006740000000001 15)))]

/-- utilities/mechanisms/drm19/lib/src/jacobs/jacob_0.c:1647-1718 -/
def jacobS17 : List CStmt := [
  .ite (.rd (.var .T)) (.num 1000 0) (.var .Kc) (.sub (.add (.add (.num 24863279230000002 16) (.mul (.neg (.num 98065834999999968 17)) (.rd (.var .logT)))) (.mul (.rd (.var .T)) (.add (.neg (.num 87619317535266635 20)) (.mul (.rd (.var .T)) (.add (.num 1885164515332653 21) (.mul (.rd (.var .T)) (.add (.neg (.num 12162578593584016 25)) (.mul (.num 3024261435463867 28) (.rd (.var .T)))))))))) (.div (.neg (.num 24114908299999999 12)) (.rd (.var .T)))) (.sub (.add (.add (.num 54388072400000009 17) (.mul (.neg (.num 76532694999999951 17)) (.rd (.var .logT)))) (.mul (.rd (.var .T)) (.add (.num 37836630654214864 20) (.mul (.rd (.var .T)) (.add (.num 20718083807300866 24) (.mul (.rd (.var .T)) (.add (.neg (.num 79353483554039681 28)) (.mul (.num 54404627009013201 32) (.rd (.var .T)))))))))) (.div (.neg (.num 24273345466999999 12)) (.rd (.var .T)))),
  .set (.var .Kc) (.mul (.num 82057360967184814 18) (.exp (.rd (.var .Kc)))),
  .set (.var .jTemp) (.mul (.mul (.neg (.rd (.var .mwAvg))) (.rd (.var .rhoInv))) (.sub (.mul (.num 3 0) (.rd (.arr .fwd 17))) (.mul (.num 2 0) (.rd (.arr .rev 17))))),
  .set (.var .kf) (.exp (.sub (.num 33334803590584748 15) (.mul (.num 172 2) (.rd (.var .logT))))),
  .set (.var .kr) (.div (.rd (.var .kf)) (.rd (.var .Kc))),
  .set (.arr .jac 23) (.add (.rd (.arr .jac 23)) (.mul (.neg (.num 5 1)) (.mul (.rd (.var .jTemp)) (.num 92803892982949643 17)))),
  .set (.arr .jac 25) (.add (.rd (.arr .jac 25)) (.mul (.neg (.num 15873365478103855 15)) (.mul (.rd (.var .jTemp)) (.num 92803892982949643 17)))),
  .set (.arr .jac 28) (.add (.rd (.arr .jac 28)) (.mul (.num 16373365478103853 15) (.mul (.rd (.var .jTemp)) (.num 92803892982949643 17)))),
  .set (.arr .jac 44) (.add (.rd (.arr .jac 44)) (.neg (.add (.mul (.rd (.var .jTemp)) (.num 96401946491474821 17)) (.mul (.mul (.rd (.var .kf)) (.rd (.arr .C 3))) (.rd (.arr .C 3)))))),
  .set (.arr .jac 46) (.add (.rd (.arr .jac 46)) (.mul (.neg (.num 3174673095620771 14)) (.add (.mul (.rd (.var .jTemp)) (.num 96401946491474821 17)) (.mul (.mul (.rd (.var .kf)) (.rd (.arr .C 3))) (.rd (.arr .C 3)))))),
  .set (.arr .jac 49) (.add (.rd (.arr .jac 49)) (.mul (.num 32746730956207706 15) (.add (.mul (.rd (.var .jTemp)) (.num 96401946491474821 17)) (.mul (.mul (.rd (.var .kf)) (.rd (.arr .C 3))) (.rd (.arr .C 3)))))),
  .set (.arr .jac 65) (.add (.rd (.arr .jac 65)) (.mul (.neg (.num 62998612447966798 18)) (.mul (.rd (.var .jTemp)) (.num 42886781649405936 17)))),
  .set (.arr .jac 67) (.add (.rd (.arr .jac 67)) (.mul (.neg (.num 2 0)) (.mul (.rd (.var .jTemp)) (.num 42886781649405936 17)))),
  .set (.arr .jac 70) (.add (.rd (.arr .jac 70)) (.mul (.num 20629986124479669 16) (.mul (.rd (.var .jTemp)) (.num 42886781649405936 17)))),
  .set (.arr .jac 86) (.add (.rd (.arr .jac 86)) (.mul (.neg (.num 31499306223983399 18)) (.sub (.add (.mul (.rd (.var .jTemp)) (.neg (.num 14226436701188128 17))) (.mul (.mul (.mul (.rd (.var .kf)) (.num 2 0)) (.rd (.arr .C 3))) (.rd (.arr .C 1)))) (.mul (.rd (.var .kr)) (.rd (.arr .C 6)))))),
  .set (.arr .jac 88) (.add (.rd (.arr .jac 88)) (.neg (.sub (.add (.mul (.rd (.var .jTemp)) (.neg (.num 14226436701188128 17))) (.mul (.mul (.mul (.rd (.var .kf)) (.num 2 0)) (.rd (.arr .C 3))) (.rd (.arr .C 1)))) (.mul (.rd (.var .kr)) (.rd (.arr .C 6)))))),
  .set (.arr .jac 91) (.add (.rd (.arr .jac 91)) (.mul (.num 10314993062239834 16) (.sub (.add (.mul (.rd (.var .jTemp)) (.neg (.num 14226436701188128 17))) (.mul (.mul (.mul (.rd (.var .kf)) (.num 2 0)) (.rd (.arr .C 3))) (.rd (.arr .C 1)))) (.mul (.rd (.var .kr)) (.rd (.arr .C 6)))))),
  .set (.arr .jac 107) (.add (.rd (.arr .jac 107)) (.mul (.neg (.num 59264999700129481 18)) (.mul (.rd (.var .jTemp)) (.num 39288728140880758 17)))),
  .set (.arr .jac 109) (.add (.rd (.arr .jac 109)) (.mul (.neg (.num 18814700005997411 16)) (.mul (.rd (.var .jTemp)) (.num 39288728140880758 17)))),
  .set (.arr .jac 112) (.add (.rd (.arr .jac 112)) (.mul (.num 19407350002998707 16) (.mul (.rd (.var .jTemp)) (.num 39288728140880758 17)))),
  .set (.arr .jac 128) (.add (.rd (.arr .jac 128)) (.mul (.neg (.num 55949172036182618 18)) (.mul (.rd (.var .jTemp)) (.num 35690674632355568 17)))),
  .set (.arr .jac 130) (.add (.rd (.arr .jac 130)) (.mul (.neg (.num 17762033118552694 16)) (.mul (.rd (.var .jTemp)) (.num 35690674632355568 17)))),
  .set (.arr .jac 133) (.add (.rd (.arr .jac 133)) (.mul (.num 1832152483891452 15) (.mul (.rd (.var .jTemp)) (.num 35690674632355568 17)))),
  .set (.arr .jac 149) (.add (.rd (.arr .jac 149)) (.mul (.neg (.num 3053739933116691 17)) (.sub (.mul (.rd (.var .jTemp)) (.neg (.num 17824490209713328 17))) (.mul (.rd (.var .kr)) (.rd (.arr .C 3)))))),
  .set (.arr .jac 151) (.add (.rd (.arr .jac 151)) (.mul (.neg (.num 96946260066883305 17)) (.sub (.mul (.rd (.var .jTemp)) (.neg (.num 17824490209713328 17))) (.mul (.rd (.var .kr)) (.rd (.arr .C 3)))))),
  .set (.arr .jac 154) (.add (.rd (.arr .jac 154)) (.sub (.mul (.rd (.var .jTemp)) (.neg (.num 17824490209713328 17))) (.mul (.rd (.var .kr)) (.rd (.arr .C 3))))),
  .set (.arr .jac 170) (.add (.rd (.arr .jac 170)) (.mul (.neg (.num 71857747410685777 18)) (.mul (.rd (.var .jTemp)) (.num 49928106040377707 17)))),
  .set (.arr .jac 172) (.add (.rd (.arr .jac 172)) (.mul (.neg (.num 22812485741661725 16)) (.mul (.rd (.var .jTemp)) (.num 49928106040377707 17)))),
  .set (.arr .jac 175) (.add (.rd (.arr .jac 175)) (.mul (.num 23531063215768584 16) (.mul (.rd (.var .jTemp)) (.num 49928106040377707 17)))),
  .set (.arr .jac 191) (.add (.rd (.arr .jac 191)) (.mul (.neg (.num 71857747410685777 18)) (.mul (.rd (.var .jTemp)) (.num 49928106040377707 17)))),
  .set (.arr .jac 193) (.add (.rd (.arr .jac 193)) (.mul (.neg (.num 22812485741661725 16)) (.mul (.rd (.var .jTemp)) (.num 49928106040377707 17)))),
  .set (.arr .jac 196) (.add (.rd (.arr .jac 196)) (.mul (.num 23531063215768584 16) (.mul (.rd (.var .jTemp)) (.num 49928106040377707 17)))),
  .set (.arr .jac 212) (.add (.rd (.arr .jac 212)) (.mul (.neg (.num 67040376938333812 18)) (.mul (.rd (.var .jTemp)) (.num 46330052531852528 17)))),
  .set (.arr .jac 214) (.add (.rd (.arr .jac 214)) (.mul (.neg (.num 21283128098640356 16)) (.mul (.rd (.var .jTemp)) (.num 46330052531852528 17)))),
  .set (.arr .jac 217) (.add (.rd (.arr .jac 217)) (.mul (.num 21953531868023695 16) (.mul (.rd (.var .jTemp)) (.num 46330052531852528 17)))),
  .set (.arr .jac 233) (.add (.rd (.arr .jac 233)) (.mul (.neg (.num 6282834125798803 17)) (.mul (.rd (.var .jTemp)) (.num 42731999023327338 17)))),
  .set (.arr .jac 235) (.add (.rd (.arr .jac 235)) (.mul (.neg (.num 19945944463421503 16)) (.mul (.rd (.var .jTemp)) (.num 42731999023327338 17)))),
  .set (.arr .jac 238) (.add (.rd (.arr .jac 238)) (.mul (.num 20574227876001383 16) (.mul (.rd (.var .jTemp)) (.num 42731999023327338 17)))),
  .set (.arr .jac 254) (.add (.rd (.arr .jac 254)) (.mul (.neg (.num 35984491474595155 18)) (.mul (.rd (.var .jTemp)) (.num 10994706834011048 20)))),
  .set (.arr .jac 256) (.add (.rd (.arr .jac 256)) (.mul (.neg (.num 11423899694399224 16)) (.mul (.rd (.var .jTemp)) (.num 10994706834011048 20)))),
  .set (.arr .jac 259) (.add (.rd (.arr .jac 259)) (.mul (.num 11783744609145177 16) (.mul (.rd (.var .jTemp)) (.num 10994706834011048 20)))),
  .set (.arr .jac 275) (.add (.rd (.arr .jac 275)) (.mul (.neg (.num 22902626233248052 18)) (.mul (.rd (.var .jTemp)) (.neg (.num 57102223643760053 17))))),
  .set (.arr .jac 277) (.add (.rd (.arr .jac 277)) (.mul (.neg (.num 72708351321751064 17)) (.mul (.rd (.var .jTemp)) (.neg (.num 57102223643760053 17))))),
  .set (.arr .jac 280) (.add (.rd (.arr .jac 280)) (.mul (.num 74998613945075876 17) (.mul (.rd (.var .jTemp)) (.neg (.num 57102223643760053 17))))),
  .set (.arr .jac 296) (.add (.rd (.arr .jac 296)) (.mul (.neg (.num 34734585093427126 18)) (.mul (.rd (.var .jTemp)) (.neg (.num 35870588016911675 18))))),
  .set (.arr .jac 298) (.add (.rd (.arr .jac 298)) (.mul (.neg (.num 11027095278365338 16)) (.mul (.rd (.var .jTemp)) (.neg (.num 35870588016911675 18))))),
  .set (.arr .jac 301) (.add (.rd (.arr .jac 301)) (.mul (.num 11374441129299608 16) (.mul (.rd (.var .jTemp)) (.neg (.num 35870588016911675 18))))),
  .set (.arr .jac 317) (.add (.rd (.arr .jac 317)) (.mul (.neg (.num 33568593911733322 18)) (.mul (.rd (.var .jTemp)) (.neg (.num 71851123102163683 18))))),
  .set (.arr .jac 319) (.add (.rd (.arr .jac 319)) (.mul (.neg (.num 10656931194939898 16)) (.mul (.rd (.var .jTemp)) (.neg (.num 71851123102163683 18))))),
  .set (.arr .jac 322) (.add (.rd (.arr .jac 322)) (.mul (.num 10992617134057232 16) (.mul (.rd (.var .jTemp)) (.neg (.num 71851123102163683 18))))),
  .set (.arr .jac 338) (.add (.rd (.arr .jac 338)) (.mul (.neg (.num 32478341649959309 18)) (.mul (.rd (.var .jTemp)) (.neg (.num 10783165818741525 17))))),
  .set (.arr .jac 340) (.add (.rd (.arr .jac 340)) (.mul (.neg (.num 10310811742650532 16)) (.mul (.rd (.var .jTemp)) (.neg (.num 10783165818741525 17))))),
  .set (.arr .jac 343) (.add (.rd (.arr .jac 343)) (.mul (.num 10635595159150126 16) (.mul (.rd (.var .jTemp)) (.neg (.num 10783165818741525 17))))),
  .set (.arr .jac 359) (.add (.rd (.arr .jac 359)) (.mul (.neg (.num 35928873705342888 18)) (.mul (.rd (.var .jTemp)) (.neg (.num 14378791924458678 19))))),
  .set (.arr .jac 361) (.add (.rd (.arr .jac 361)) (.mul (.neg (.num 11406242870830863 16)) (.mul (.rd (.var .jTemp)) (.neg (.num 14378791924458678 19))))),
  .set (.arr .jac 364) (.add (.rd (.arr .jac 364)) (.mul (.num 11765531607884292 16) (.mul (.rd (.var .jTemp)) (.neg (.num 14378791924458678 19))))),
  .set (.arr .jac 380) (.add (.rd (.arr .jac 380)) (.mul (.neg (.num 3468276115987709 17)) (.mul (.rd (.var .jTemp)) (.neg (.num 37418414277697654 18))))),
  .set (.arr .jac 382) (.add (.rd (.arr .jac 382)) (.mul (.neg (.num 11010642873610286 16)) (.mul (.rd (.var .jTemp)) (.neg (.num 37418414277697654 18))))),
  .set (.arr .jac 385) (.add (.rd (.arr .jac 385)) (.mul (.num 11357470485209056 16) (.mul (.rd (.var .jTemp)) (.neg (.num 37418414277697654 18))))),
  .set (.arr .jac 401) (.add (.rd (.arr .jac 401)) (.mul (.neg (.num 33520188469166906 18)) (.mul (.rd (.var .jTemp)) (.neg (.num 73398949362949439 18))))),
  .set (.arr .jac 403) (.add (.rd (.arr .jac 403)) (.mul (.neg (.num 10641564049320178 16)) (.mul (.rd (.var .jTemp)) (.neg (.num 73398949362949439 18))))),
  .set (.arr .jac 406) (.add (.rd (.arr .jac 406)) (.mul (.num 10976765934011847 16) (.mul (.rd (.var .jTemp)) (.neg (.num 73398949362949439 18))))),
  .set (.arr .jac 422) (.add (.rd (.arr .jac 422)) (.mul (.neg (.num 2523130069089817 17)) (.mul (.rd (.var .jTemp)) (.neg (.num 42602775520927771 17))))),
  .set (.arr .jac 424) (.add (.rd (.arr .jac 424)) (.mul (.neg (.num 80101131470912179 17)) (.mul (.rd (.var .jTemp)) (.neg (.num 42602775520927771 17))))),
  .set (.arr .jac 427) (.add (.rd (.arr .jac 427)) (.mul (.num 82624261540002009 17) (.mul (.rd (.var .jTemp)) (.neg (.num 42602775520927771 17)))))]

/-- utilities/mechanisms/drm19/lib/src/jacobs/jacob_0.c:1719-1724 -/
def jacobT18 : List CStmt := [
  .set (.var .jTemp) (.mul (.mul (.div (.num 1 0) (.rd (.var .T))) (.sub (.add (.mul (.sub (.rd (.arr .fwd 18)) (.rd (.arr .rev 18))) (.neg (.num 76000000000000001 17))) (.mul (.rd (.arr .fwd 18)) (.neg (.num 2 0)))) (.mul (.rd (.arr .rev 18)) (.add (.neg (.num 1 0)) (.mul (.neg (.rd (.var .T))) (.sub (.sub (.rd (.arr .dBdT 6)) (.rd (.arr .dBdT 1))) (.rd (.arr .dBdT 3)))))))) (.rd (.var .rhoInv))),
  .set (.arr .jac 2) (.add (.rd (.arr .jac 2)) (.mul (.neg (.rd (.var .jTemp))) (.num 10079400000000001 16))),
  .set (.arr .jac 4) (.add (.rd (.arr .jac 4)) (.mul (.neg (.rd (.var .jTemp))) (.num 31998799999999999 15))),
  .set (.arr .jac 7) (.add (.rd (.arr .jac 7)) (.mul (.rd (.var .jTemp)) (.num 33006740000000001 15)))]

/-- utilities/mechanisms/drm19/lib/src/jacobs/jacob_0.c:1725-1796 -/
def jacobS18 : List CStmt := [
  .ite (.rd (.var .T)) (.num 1000 0) (.var .Kc) (.sub (.add (.add (.num 24863279230000002 16) (.mul (.neg (.num 98065834999999968 17)) (.rd (.var .logT)))) (.mul (.rd (.var .T)) (.add (.neg (.num 87619317535266635 20)) (.mul (.rd (.var .T)) (.add (.num 1885164515332653 21) (.mul (.rd (.var .T)) (.add (.neg (.num 12162578593584016 25)) (.mul (.num 3024261435463867 28) (.rd (.var .T)))))))))) (.div (.neg (.num 24114908299999999 12)) (.rd (.var .T)))) (.sub (.add (.add (.num 54388072400000009 17) (.mul (.neg (.num 76532694999999951 17)) (.rd (.var .logT)))) (.mul (.rd (.var .T)) (.add (.num 37836630654214864 20) (.mul (.rd (.var .T)) (.add (.num 20718083807300866 24) (.mul (.rd (.var .T)) (.add (.neg (.num 79353483554039681 28)) (.mul (.num 54404627009013201 32) (.rd (.var .T)))))))))) (.div (.neg (.num 24273345466999999 12)) (.rd (.var .T)))),
  .set (.var .Kc) (.mul (.num 82057360967184814 18) (.exp (.rd (.var .Kc)))),
  .set (.var .jTemp) (.mul (.mul (.neg (.rd (.var .mwAvg))) (.rd (.var .rhoInv))) (.sub (.mul (.num 3 0) (.rd (.arr .fwd 18))) (.mul (.num 2 0) (.rd (.arr .rev 18))))),
  .set (.var .kf) (.exp (.sub (.num 29869600878946681 15) (.mul (.num 76 2) (.rd (.var .logT))))),
  .set (.var .kr) (.div (.rd (.var .kf)) (.rd (.var .Kc))),
  .set (.arr .jac 23) (.add (.rd (.arr .jac 23)) (.mul (.neg (.num 5 1)) (.mul (.rd (.var .jTemp)) (.num 92803892982949643 17)))),
  .set (.arr .jac 25) (.add (.rd (.arr .jac 25)) (.mul (.neg (.num 15873365478103855 15)) (.mul (.rd (.var .jTemp)) (.num 92803892982949643 17)))),
  .set (.arr .jac 28) (.add (.rd (.arr .jac 28)) (.mul (.num 16373365478103853 15) (.mul (.rd (.var .jTemp)) (.num 92803892982949643 17)))),
  .set (.arr .jac 44) (.add (.rd (.arr .jac 44)) (.neg (.add (.mul (.rd (.var .jTemp)) (.num 96401946491474821 17)) (.mul (.mul (.rd (.var .kf)) (.rd (.arr .C 5))) (.rd (.arr .C 3)))))),
  .set (.arr .jac 46) (.add (.rd (.arr .jac 46)) (.mul (.neg (.num 3174673095620771 14)) (.add (.mul (.rd (.var .jTemp)) (.num 96401946491474821 17)) (.mul (.mul (.rd (.var .kf)) (.rd (.arr .C 5))) (.rd (.arr .C 3)))))),
  .set (.arr .jac 49) (.add (.rd (.arr .jac 49)) (.mul (.num 32746730956207706 15) (.add (.mul (.rd (.var .jTemp)) (.num 96401946491474821 17)) (.mul (.mul (.rd (.var .kf)) (.rd (.arr .C 5))) (.rd (.arr .C 3)))))),
  .set (.arr .jac 65) (.add (.rd (.arr .jac 65)) (.mul (.neg (.num 62998612447966798 18)) (.mul (.rd (.var .jTemp)) (.num 42886781649405936 17)))),
  .set (.arr .jac 67) (.add (.rd (.arr .jac 67)) (.mul (.neg (.num 2 0)) (.mul (.rd (.var .jTemp)) (.num 42886781649405936 17)))),
  .set (.arr .jac 70) (.add (.rd (.arr .jac 70)) (.mul (.num 20629986124479669 16) (.mul (.rd (.var .jTemp)) (.num 42886781649405936 17)))),
  .set (.arr .jac 86) (.add (.rd (.arr .jac 86)) (.mul (.neg (.num 31499306223983399 18)) (.add (.mul (.rd (.var .jTemp)) (.neg (.num 14226436701188128 17))) (.mul (.mul (.rd (.var .kf)) (.rd (.arr .C 1))) (.rd (.arr .C 5)))))),
  .set (.arr .jac 88) (.add (.rd (.arr .jac 88)) (.neg (.add (.mul (.rd (.var .jTemp)) (.neg (.num 14226436701188128 17))) (.mul (.mul (.rd (.var .kf)) (.rd (.arr .C 1))) (.rd (.arr .C 5)))))),
  .set (.arr .jac 91) (.add (.rd (.arr .jac 91)) (.mul (.num 10314993062239834 16) (.add (.mul (.rd (.var .jTemp)) (.neg (.num 14226436701188128 17))) (.mul (.mul (.rd (.var .kf)) (.rd (.arr .C 1))) (.rd (.arr .C 5)))))),
  .set (.arr .jac 107) (.add (.rd (.arr .jac 107)) (.mul (.neg (.num 59264999700129481 18)) (.mul (.rd (.var .jTemp)) (.num 39288728140880758 17)))),
  .set (.arr .jac 109) (.add (.rd (.arr .jac 109)) (.mul (.neg (.num 18814700005997411 16)) (.mul (.rd (.var .jTemp)) (.num 39288728140880758 17)))),
  .set (.arr .jac 112) (.add (.rd (.arr .jac 112)) (.mul (.num 19407350002998707 16) (.mul (.rd (.var .jTemp)) (.num 39288728140880758 17)))),
  .set (.arr .jac 128) (.add (.rd (.arr .jac 128)) (.mul (.neg (.num 55949172036182618 18)) (.sub (.add (.mul (.rd (.var .jTemp)) (.num 35690674632355568 17)) (.mul (.mul (.rd (.var .kf)) (.rd (.arr .C 1))) (.rd (.arr .C 3)))) (.mul (.rd (.var .kr)) (.rd (.arr .C 6)))))),
  .set (.arr .jac 130) (.add (.rd (.arr .jac 130)) (.mul (.neg (.num 17762033118552694 16)) (.sub (.add (.mul (.rd (.var .jTemp)) (.num 35690674632355568 17)) (.mul (.mul (.rd (.var .kf)) (.rd (.arr .C 1))) (.rd (.arr .C 3)))) (.mul (.rd (.var .kr)) (.rd (.arr .C 6)))))),
  .set (.arr .jac 133) (.add (.rd (.arr .jac 133)) (.mul (.num 1832152483891452 15) (.sub (.add (.mul (.rd (.var .jTemp)) (.num 35690674632355568 17)) (.mul (.mul (.rd (.var .kf)) (.rd (.arr .C 1))) (.rd (.arr .C 3)))) (.mul (.rd (.var .kr)) (.rd (.arr .C 6)))))),
  .set (.arr .jac 149) (.add (.rd (.arr .jac 149)) (.mul (.neg (.num 3053739933116691 17)) (.sub (.mul (.rd (.var .jTemp)) (.neg (.num 17824490209713328 17))) (.mul (.rd (.var .kr)) (.rd (.arr .C 5)))))),
  .set (.arr .jac 151) (.add (.rd (.arr .jac 151)) (.mul (.neg (.num 96946260066883305 17)) (.sub (.mul (.rd (.var .jTemp)) (.neg (.num 17824490209713328 17))) (.mul (.rd (.var .kr)) (.rd (.arr .C 5)))))),
  .set (.arr .jac 154) (.add (.rd (.arr .jac 154)) (.sub (.mul (.rd (.var .jTemp)) (.neg (.num 17824490209713328 17))) (.mul (.rd (.var .kr)) (.rd (.arr .C 5))))),
  .set (.arr .jac 170) (.add (.rd (.arr .jac 170)) (.mul (.neg (.num 71857747410685777 18)) (.mul (.rd (.var .jTemp)) (.num 49928106040377707 17)))),
  .set (.arr .jac 172) (.add (.rd (.arr .jac 172)) (.mul (.neg (.num 22812485741661725 16)) (.mul (.rd (.var .jTemp)) (.num 49928106040377707 17)))),
  .set (.arr .jac 175) (.add (.rd (.arr .jac 175)) (.mul (.num 23531063215768584 16) (.mul (.rd (.var .jTemp)) (.num 49928106040377707 17)))),
  .set (.arr .jac 191) (.add (.rd (.arr .jac 191)) (.mul (.neg (.num 71857747410685777 18)) (.mul (.rd (.var .jTemp)) (.num 49928106040377707 17)))),
  .set (.arr .jac 193) (.add (.rd (.arr .jac 193)) (.mul (.neg (.num 22812485741661725 16)) (.mul (.rd (.var .jTemp)) (.num 49928106040377707 17)))),
  .set (.arr .jac 196) (.add (.rd (.arr .jac 196)) (.mul (.num 23531063215768584 16) (.mul (.rd (.var .jTemp)) (.num 49928106040377707 17)))),
  .set (.arr .jac 212) (.add (.rd (.arr .jac 212)) (.mul (.neg (.num 67040376938333812 18)) (.mul (.rd (.var .jTemp)) (.num 46330052531852528 17)))),
  .set (.arr .jac 214) (.add (.rd (.arr .jac 214)) (.mul (.neg (.num 21283128098640356 16)) (.mul (.rd (.var .jTemp)) (.num 46330052531852528 17)))),
  .set (.arr .jac 217) (.add (.rd (.arr .jac 217)) (.mul (.num 21953531868023695 16) (.mul (.rd (.var .jTemp)) (.num 46330052531852528 17)))),
  .set (.arr .jac 233) (.add (.rd (.arr .jac 233)) (.mul (.neg (.num 6282834125798803 17)) (.mul (.rd (.var .jTemp)) (.num 42731999023327338 17)))),
  .set (.arr .jac 235) (.add (.rd (.arr .jac 235)) (.mul (.neg (.num 19945944463421503 16)) (.mul (.rd (.var .jTemp)) (.num 42731999023327338 17)))),
  .set (.arr .jac 238) (.add (.rd (.arr .jac 238)) (.mul (.num 20574227876001383 16) (.mul (.rd (.var .jTemp)) (.num 42731999023327338 17)))),
  .set (.arr .jac 254) (.add (.rd (.arr .jac 254)) (.mul (.neg (.num 35984491474595155 18)) (.mul (.rd (.var .jTemp)) (.num 10994706834011048 20)))),
  .set (.arr .jac 256) (.add (.rd (.arr .jac 256)) (.mul (.neg (.num 11423899694399224 16)) (.mul (.rd (.var .jTemp)) (.num 10994706834011048 20)))),
  .set (.arr .jac 259) (.add (.rd (.arr .jac 259)) (.mul (.num 11783744609145177 16) (.mul (.rd (.var .jTemp)) (.num 10994706834011048 20)))),
  .set (.arr .jac 275) (.add (.rd (.arr .jac 275)) (.mul (.neg (.num 22902626233248052 18)) (.mul (.rd (.var .jTemp)) (.neg (.num 57102223643760053 17))))),
  .set (.arr .jac 277) (.add (.rd (.arr .jac 277)) (.mul (.neg (.num 72708351321751064 17)) (.mul (.rd (.var .jTemp)) (.neg (.num 57102223643760053 17))))),
  .set (.arr .jac 280) (.add (.rd (.arr .jac 280)) (.mul (.num 74998613945075876 17) (.mul (.rd (.var .jTemp)) (.neg (.num 57102223643760053 17))))),
  .set (.arr .jac 296) (.add (.rd (.arr .jac 296)) (.mul (.neg (.num 34734585093427126 18)) (.mul (.rd (.var .jTemp)) (.neg (.num 35870588016911675 18))))),
  .set (.arr .jac 298) (.add (.rd (.arr .jac 298)) (.mul (.neg (.num 11027095278365338 16)) (.mul (.rd (.var .jTemp)) (.neg (.num 35870588016911675 18))))),
  .set (.arr .jac 301) (.add (.rd (.arr .jac 301)) (.mul (.num 11374441129299608 16) (.mul (.rd (.var .jTemp)) (.neg (.num 35870588016911675 18))))),
  .set (.arr .jac 317) (.add (.rd (.arr .jac 317)) (.mul (.neg (.num 33568593911733322 18)) (.mul (.rd (.var .jTemp)) (.neg (.num 71851123102163683 18))))),
  .set (.arr .jac 319) (.add (.rd (.arr .jac 319)) (.mul (.neg (.num 10656931194939898 16)) (.mul (.rd (.var .jTemp)) (.neg (.num 71851123102163683 18))))),
  .set (.arr .jac 322) (.add (.rd (.arr .jac 322)) (.mul (.num 10992617134057232 16) (.mul (.rd (.var .jTemp)) (.neg (.num 71851123102163683 18))))),
  .set (.arr .jac 338) (.add (.rd (.arr .jac 338)) (.mul (.neg (.num 32478341649959309 18)) (.mul (.rd (.var .jTemp)) (.neg (.num 10783165818741525 17))))),
  .set (.arr .jac 340) (.add (.rd (.arr .jac 340)) (.mul (.neg (.num 10310811742650532 16)) (.mul (.rd (.var .jTemp)) (.neg (.num 10783165818741525 17))))),
  .set (.arr .jac 343) (.add (.rd (.arr .jac 343)) (.mul (.num 10635595159150126 16) (.mul (.rd (.var .jTemp)) (.neg (.num 10783165818741525 17))))),
  .set (.arr .jac 359) (.add (.rd (.arr .jac 359)) (.mul (.neg (.num 35928873705342888 18)) (.mul (.rd (.var .jTemp)) (.neg (.num 14378791924458678 19))))),
  .set (.arr .jac 361) (.add (.rd (.arr .jac 361)) (.mul (.neg (.num 11406242870830863 16)) (.mul (.rd (.var .jTemp)) (.neg (.num 14378791924458678 19))))),
  .set (.arr .jac 364) (.add (.rd (.arr .jac 364)) (.mul (.num 11765531607884292 16) (.mul (.rd (.var .jTemp)) (.neg (.num 14378791924458678 19))))),
  .set (.arr .jac 380) (.add (.rd (.arr .jac 380)) (.mul (.neg (.num 3468276115987709 17)) (.mul (.rd (.var .jTemp)) (.neg (.num 37418414277697654 18))))),
  .set (.arr .jac 382) (.add (.rd (.arr .jac 382)) (.mul (.neg (.num 11010642873610286 16)) (.mul (.rd (.var .jTemp)) (.neg (.num 37418414277697654 18))))),
  .set (.arr .jac 385) (.add (.rd (.arr .jac 385)) (.mul (.num 11357470485209056 16) (.mul (.rd (.var .jTemp)) (.neg (.num 37418414277697654 18))))),
  .set (.arr .jac 401) (.add (.rd (.arr .jac 401)) (.mul (.neg (.num 33520188469166906 18)) (.mul (.rd (.var .jTemp)) (.neg (.num 73398949362949439 18))))),
  .set (.arr .jac 403) (.add (.rd (.arr .jac 403)) (.mul (.neg (.num 10641564049320178 16)) (.mul (.rd (.var .jTemp)) (.neg (.num 73398949362949439 18))))),
  .set (.arr .jac 406) (.add (.rd (.arr .jac 406)) (.mul (.num 10976765934011847 16) (.mul (.rd (.var .jTemp)) (.neg (.num 73398949362949439 18))))),
  .set (.arr .jac 422) (.add (.rd (.arr .jac 422)) (.mul (.neg (.num 2523130069089817 17)) (.mul (.rd (.var .jTemp)) (.neg (.num 42602775520927771 17))))),
  .set (.arr .jac 424) (.add (.rd (.arr .jac 424)) (.mul (.neg (.num 80101131470912179 17)) (.mul (.rd (.var .jTemp)) (.neg (.num 42602775520927771 17))))),
  .set (.arr .jac 427) (.add (.rd (.arr .jac 427)) (.mul (.num 82624261540002009 17) (.mul (.rd (.var .jTemp)) (.neg (.num 42602775520927771 17)))))]

/-- utilities/mechanisms/drm19/lib/src/jacobs/jacob_0.c:1797-1802 -/
def jacobT19 : List CStmt := [
  .set (.var .jTemp) (.mul (.mul (.div (.num 1 0) (.rd (.var .T))) (.sub (.add (.mul (.sub (.rd (.arr .fwd 19)) (.rd (.arr .rev 19))) (.neg (.num 172 2))) (.mul (.rd (.arr .fwd 19)) (.neg (.num 2 0)))) (.mul (.rd (.arr .rev 19)) (.add (.neg (.num 1 0)) (.mul (.neg (.rd (.var .T))) (.sub (.sub (.rd (.arr .dBdT 6)) (.rd (.arr .dBdT 1))) (.rd (.arr .dBdT 3)))))))) (.rd (.var .rhoInv))),
  .set (.arr .jac 2) (.add (.rd (.arr .jac 2)) (.mul (.neg (.rd (.var .jTemp))) (.num 10079400000000001 16))),
  .set (.arr .jac 4) (.add (.rd (.arr .jac 4)) (.mul (.neg (.rd (.var .jTemp))) (.num 31998799999999999 15))),
  .set (.arr .jac 7) (.add (.rd (.arr .jac 7)) (.mul (.rd (.var .jTemp)) (.num 33006740000000001 15)))]

/-- utilities/mechanisms/drm19/lib/src/jacobs/jacob_0.c:1803-1874 -/
def jacobS19 : List CStmt := [
  .ite (.rd (.var .T)) (.num 1000 0) (.var .Kc) (.sub (.add (.add (.num 24863279230000002 16) (.mul (.neg (.num 98065834999999968 17)) (.rd (.var .logT)))) (.mul (.rd (.var .T)) (.add (.neg (.num 87619317535266635 20)) (.mul (.rd (.var .T)) (.add (.num 1885164515332653 21) (.mul (.rd (.var .T)) (.add (.neg (.num 12162578593584016 25)) (.mul (.num 3024261435463867 28) (.rd (.var .T)))))))))) (.div (.neg (.num 24114908299999999 12)) (.rd (.var .T)))) (.sub (.add (.add (.num 54388072400000009 17) (.mul (.neg (.num 76532694999999951 17)) (.rd (.var .logT)))) (.mul (.rd (.var .T)) (.add (.num 37836630654214864 20) (.mul (.rd (.var .T)) (.add (.num 20718083807300866 24) (.mul (.rd (.var .T)) (.add (.neg (.num 79353483554039681 28)) (.mul (.num 54404627009013201 32) (.rd (.var .T)))))))))) (.div (.neg (.num 24273345466999999 12)) (.rd (.var .T)))),
  .set (.var .Kc) (.mul (.num 82057360967184814 18) (.exp (.rd (.var .Kc)))),
  .set (.var .jTemp) (.mul (.mul (.neg (.rd (.var .mwAvg))) (.rd (.var .rhoInv))) (.sub (.mul (.num 3 0) (.rd (.arr .fwd 19))) (.mul (.num 2 0) (.rd (.arr .rev 19))))),
  .set (.var .kf) (.exp (.sub (.num 33557947141898957 15) (.mul (.num 172 2) (.rd (.var .logT))))),
  .set (.var .kr) (.div (.rd (.var .kf)) (.rd (.var .Kc))),
  .set (.arr .jac 23) (.add (.rd (.arr .jac 23)) (.mul (.neg (.num 5 1)) (.sub (.mul (.rd (.var .jTemp)) (.num 92803892982949643 17)) (.mul (.num 71961070170503627 18) (.sub (.mul (.mul (.rd (.var .kf)) (.rd (.arr .C 1))) (.rd (.arr .C 3))) (.mul (.rd (.var .kr)) (.rd (.arr .C 6)))))))),
  .set (.arr .jac 25) (.add (.rd (.arr .jac 25)) (.mul (.neg (.num 15873365478103855 15)) (.sub (.mul (.rd (.var .jTemp)) (.num 92803892982949643 17)) (.mul (.num 71961070170503627 18) (.sub (.mul (.mul (.rd (.var .kf)) (.rd (.arr .C 1))) (.rd (.arr .C 3))) (.mul (.rd (.var .kr)) (.rd (.arr .C 6)))))))),
  .set (.arr .jac 28) (.add (.rd (.arr .jac 28)) (.mul (.num 16373365478103853 15) (.sub (.mul (.rd (.var .jTemp)) (.num 92803892982949643 17)) (.mul (.num 71961070170503627 18) (.sub (.mul (.mul (.rd (.var .kf)) (.rd (.arr .C 1))) (.rd (.arr .C 3))) (.mul (.rd (.var .kr)) (.rd (.arr .C 6)))))))),
  .set (.arr .jac 44) (.add (.rd (.arr .jac 44)) (.neg (.sub (.add (.mul (.rd (.var .jTemp)) (.num 96401946491474821 17)) (.mul (.mul (.rd (.var .kf)) (.rd (.arr .C 20))) (.rd (.arr .C 3)))) (.mul (.num 35980535085251814 18) (.sub (.mul (.mul (.rd (.var .kf)) (.rd (.arr .C 1))) (.rd (.arr .C 3))) (.mul (.rd (.var .kr)) (.rd (.arr .C 6)))))))),
  .set (.arr .jac 46) (.add (.rd (.arr .jac 46)) (.mul (.neg (.num 3174673095620771 14)) (.sub (.add (.mul (.rd (.var .jTemp)) (.num 96401946491474821 17)) (.mul (.mul (.rd (.var .kf)) (.rd (.arr .C 20))) (.rd (.arr .C 3)))) (.mul (.num 35980535085251814 18) (.sub (.mul (.mul (.rd (.var .kf)) (.rd (.arr .C 1))) (.rd (.arr .C 3))) (.mul (.rd (.var .kr)) (.rd (.arr .C 6)))))))),
  .set (.arr .jac 49) (.add (.rd (.arr .jac 49)) (.mul (.num 32746730956207706 15) (.sub (.add (.mul (.rd (.var .jTemp)) (.num 96401946491474821 17)) (.mul (.mul (.rd (.var .kf)) (.rd (.arr .C 20))) (.rd (.arr .C 3)))) (.mul (.num 35980535085251814 18) (.sub (.mul (.mul (.rd (.var .kf)) (.rd (.arr .C 1))) (.rd (.arr .C 3))) (.mul (.rd (.var .kr)) (.rd (.arr .C 6)))))))),
  .set (.arr .jac 65) (.add (.rd (.arr .jac 65)) (.mul (.neg (.num 62998612447966798 18)) (.sub (.mul (.rd (.var .jTemp)) (.num 42886781649405936 17)) (.mul (.num 57113218350594064 17) (.sub (.mul (.mul (.rd (.var .kf)) (.rd (.arr .C 1))) (.rd (.arr .C 3))) (.mul (.rd (.var .kr)) (.rd (.arr .C 6)))))))),
  .set (.arr .jac 67) (.add (.rd (.arr .jac 67)) (.mul (.neg (.num 2 0)) (.sub (.mul (.rd (.var .jTemp)) (.num 42886781649405936 17)) (.mul (.num 57113218350594064 17) (.sub (.mul (.mul (.rd (.var .kf)) (.rd (.arr .C 1))) (.rd (.arr .C 3))) (.mul (.rd (.var .kr)) (.rd (.arr .C 6)))))))),
  .set (.arr .jac 70) (.add (.rd (.arr .jac 70)) (.mul (.num 20629986124479669 16) (.sub (.mul (.rd (.var .jTemp)) (.num 42886781649405936 17)) (.mul (.num 57113218350594064 17) (.sub (.mul (.mul (.rd (.var .kf)) (.rd (.arr .C 1))) (.rd (.arr .C 3))) (.mul (.rd (.var .kr)) (.rd (.arr .C 6)))))))),
  .set (.arr .jac 86) (.add (.rd (.arr .jac 86)) (.mul (.neg (.num 31499306223983399 18)) (.sub (.add (.mul (.rd (.var .jTemp)) (.neg (.num 14226436701188128 17))) (.mul (.mul (.rd (.var .kf)) (.rd (.arr .C 1))) (.rd (.arr .C 20)))) (.mul (.num 11422643670118813 16) (.sub (.mul (.mul (.rd (.var .kf)) (.rd (.arr .C 1))) (.rd (.arr .C 3))) (.mul (.rd (.var .kr)) (.rd (.arr .C 6)))))))),
  .set (.arr .jac 88) (.add (.rd (.arr .jac 88)) (.neg (.sub (.add (.mul (.rd (.var .jTemp)) (.neg (.num 14226436701188128 17))) (.mul (.mul (.rd (.var .kf)) (.rd (.arr .C 1))) (.rd (.arr .C 20)))) (.mul (.num 11422643670118813 16) (.sub (.mul (.mul (.rd (.var .kf)) (.rd (.arr .C 1))) (.rd (.arr .C 3))) (.mul (.rd (.var .kr)) (.rd (.arr .C 6)))))))),
  .set (.arr .jac 91) (.add (.rd (.arr .jac 91)) (.mul (.num 10314993062239834 16) (.sub (.add (.mul (.rd (.var .jTemp)) (.neg (.num 14226436701188128 17))) (.mul (.mul (.rd (.var .kf)) (.rd (.arr .C 1))) (.rd (.arr .C 20)))) (.mul (.num 11422643670118813 16) (.sub (.mul (.mul (.rd (.var .kf)) (.rd (.arr .C 1))) (.rd (.arr .C 3))) (.mul (.rd (.var .kr)) (.rd (.arr .C 6)))))))),
  .set (.arr .jac 107) (.add (.rd (.arr .jac 107)) (.mul (.neg (.num 59264999700129481 18)) (.sub (.mul (.rd (.var .jTemp)) (.num 39288728140880758 17)) (.mul (.num 60711271859119242 17) (.sub (.mul (.mul (.rd (.var .kf)) (.rd (.arr .C 1))) (.rd (.arr .C 3))) (.mul (.rd (.var .kr)) (.rd (.arr .C 6)))))))),
  .set (.arr .jac 109) (.add (.rd (.arr .jac 109)) (.mul (.neg (.num 18814700005997411 16)) (.sub (.mul (.rd (.var .jTemp)) (.num 39288728140880758 17)) (.mul (.num 60711271859119242 17) (.sub (.mul (.mul (.rd (.var .kf)) (.rd (.arr .C 1))) (.rd (.arr .C 3))) (.mul (.rd (.var .kr)) (.rd (.arr .C 6)))))))),
  .set (.arr .jac 112) (.add (.rd (.arr .jac 112)) (.mul (.num 19407350002998707 16) (.sub (.mul (.rd (.var .jTemp)) (.num 39288728140880758 17)) (.mul (.num 60711271859119242 17) (.sub (.mul (.mul (.rd (.var .kf)) (.rd (.arr .C 1))) (.rd (.arr .C 3))) (.mul (.rd (.var .kr)) (.rd (.arr .C 6)))))))),
  .set (.arr .jac 128) (.add (.rd (.arr .jac 128)) (.mul (.neg (.num 55949172036182618 18)) (.sub (.mul (.rd (.var .jTemp)) (.num 35690674632355568 17)) (.mul (.num 64309325367644432 17) (.sub (.mul (.mul (.rd (.var .kf)) (.rd (.arr .C 1))) (.rd (.arr .C 3))) (.mul (.rd (.var .kr)) (.rd (.arr .C 6)))))))),
  .set (.arr .jac 130) (.add (.rd (.arr .jac 130)) (.mul (.neg (.num 17762033118552694 16)) (.sub (.mul (.rd (.var .jTemp)) (.num 35690674632355568 17)) (.mul (.num 64309325367644432 17) (.sub (.mul (.mul (.rd (.var .kf)) (.rd (.arr .C 1))) (.rd (.arr .C 3))) (.mul (.rd (.var .kr)) (.rd (.arr .C 6)))))))),
  .set (.arr .jac 133) (.add (.rd (.arr .jac 133)) (.mul (.num 1832152483891452 15) (.sub (.mul (.rd (.var .jTemp)) (.num 35690674632355568 17)) (.mul (.num 64309325367644432 17) (.sub (.mul (.mul (.rd (.var .kf)) (.rd (.arr .C 1))) (.rd (.arr .C 3))) (.mul (.rd (.var .kr)) (.rd (.arr .C 6)))))))),
  .set (.arr .jac 149) (.add (.rd (.arr .jac 149)) (.mul (.neg (.num 3053739933116691 17)) (.sub (.sub (.mul (.rd (.var .jTemp)) (.neg (.num 17824490209713328 17))) (.mul (.rd (.var .kr)) (.rd (.arr .C 20)))) (.mul (.num 11782449020971333 16) (.sub (.mul (.mul (.rd (.var .kf)) (.rd (.arr .C 1))) (.rd (.arr .C 3))) (.mul (.rd (.var .kr)) (.rd (.arr .C 6)))))))),
  .set (.arr .jac 151) (.add (.rd (.arr .jac 151)) (.mul (.neg (.num 96946260066883305 17)) (.sub (.sub (.mul (.rd (.var .jTemp)) (.neg (.num 17824490209713328 17))) (.mul (.rd (.var .kr)) (.rd (.arr .C 20)))) (.mul (.num 11782449020971333 16) (.sub (.mul (.mul (.rd (.var .kf)) (.rd (.arr .C 1))) (.rd (.arr .C 3))) (.mul (.rd (.var .kr)) (.rd (.arr .C 6)))))))),
  .set (.arr .jac 154) (.add (.rd (.arr .jac 154)) (.sub (.sub (.mul (.rd (.var .jTemp)) (.neg (.num 17824490209713328 17))) (.mul (.rd (.var .kr)) (.rd (.arr .C 20)))) (.mul (.num 11782449020971333 16) (.sub (.mul (.mul (.rd (.var .kf)) (.rd (.arr .C 1))) (.rd (.arr .C 3))) (.mul (.rd (.var .kr)) (.rd (.arr .C 6))))))),
  .set (.arr .jac 170) (.add (.rd (.arr .jac 170)) (.mul (.neg (.num 71857747410685777 18)) (.sub (.mul (.rd (.var .jTemp)) (.num 49928106040377707 17)) (.mul (.num 50071893959622293 17) (.sub (.mul (.mul (.rd (.var .kf)) (.rd (.arr .C 1))) (.rd (.arr .C 3))) (.mul (.rd (.var .kr)) (.rd (.arr .C 6)))))))),
  .set (.arr .jac 172) (.add (.rd (.arr .jac 172)) (.mul (.neg (.num 22812485741661725 16)) (.sub (.mul (.rd (.var .jTemp)) (.num 49928106040377707 17)) (.mul (.num 50071893959622293 17) (.sub (.mul (.mul (.rd (.var .kf)) (.rd (.arr .C 1))) (.rd (.arr .C 3))) (.mul (.rd (.var .kr)) (.rd (.arr .C 6)))))))),
  .set (.arr .jac 175) (.add (.rd (.arr .jac 175)) (.mul (.num 23531063215768584 16) (.sub (.mul (.rd (.var .jTemp)) (.num 49928106040377707 17)) (.mul (.num 50071893959622293 17) (.sub (.mul (.mul (.rd (.var .kf)) (.rd (.arr .C 1))) (.rd (.arr .C 3))) (.mul (.rd (.var .kr)) (.rd (.arr .C 6)))))))),
  .set (.arr .jac 191) (.add (.rd (.arr .jac 191)) (.mul (.neg (.num 71857747410685777 18)) (.sub (.mul (.rd (.var .jTemp)) (.num 49928106040377707 17)) (.mul (.num 50071893959622293 17) (.sub (.mul (.mul (.rd (.var .kf)) (.rd (.arr .C 1))) (.rd (.arr .C 3))) (.mul (.rd (.var .kr)) (.rd (.arr .C 6)))))))),
  .set (.arr .jac 193) (.add (.rd (.arr .jac 193)) (.mul (.neg (.num 22812485741661725 16)) (.sub (.mul (.rd (.var .jTemp)) (.num 49928106040377707 17)) (.mul (.num 50071893959622293 17) (.sub (.mul (.mul (.rd (.var .kf)) (.rd (.arr .C 1))) (.rd (.arr .C 3))) (.mul (.rd (.var .kr)) (.rd (.arr .C 6)))))))),
  .set (.arr .jac 196) (.add (.rd (.arr .jac 196)) (.mul (.num 23531063215768584 16) (.sub (.mul (.rd (.var .jTemp)) (.num 49928106040377707 17)) (.mul (.num 50071893959622293 17) (.sub (.mul (.mul (.rd (.var .kf)) (.rd (.arr .C 1))) (.rd (.arr .C 3))) (.mul (.rd (.var .kr)) (.rd (.arr .C 6)))))))),
  .set (.arr .jac 212) (.add (.rd (.arr .jac 212)) (.mul (.neg (.num 67040376938333812 18)) (.sub (.mul (.rd (.var .jTemp)) (.num 46330052531852528 17)) (.mul (.num 53669947468147472 17) (.sub (.mul (.mul (.rd (.var .kf)) (.rd (.arr .C 1))) (.rd (.arr .C 3))) (.mul (.rd (.var .kr)) (.rd (.arr .C 6)))))))),
  .set (.arr .jac 214) (.add (.rd (.arr .jac 214)) (.mul (.neg (.num 21283128098640356 16)) (.sub (.mul (.rd (.var .jTemp)) (.num 46330052531852528 17)) (.mul (.num 53669947468147472 17) (.sub (.mul (.mul (.rd (.var .kf)) (.rd (.arr .C 1))) (.rd (.arr .C 3))) (.mul (.rd (.var .kr)) (.rd (.arr .C 6)))))))),
  .set (.arr .jac 217) (.add (.rd (.arr .jac 217)) (.mul (.num 21953531868023695 16) (.sub (.mul (.rd (.var .jTemp)) (.num 46330052531852528 17)) (.mul (.num 53669947468147472 17) (.sub (.mul (.mul (.rd (.var .kf)) (.rd (.arr .C 1))) (.rd (.arr .C 3))) (.mul (.rd (.var .kr)) (.rd (.arr .C 6)))))))),
  .set (.arr .jac 233) (.add (.rd (.arr .jac 233)) (.mul (.neg (.num 6282834125798803 17)) (.sub (.mul (.rd (.var .jTemp)) (.num 42731999023327338 17)) (.mul (.num 57268000976672662 17) (.sub (.mul (.mul (.rd (.var .kf)) (.rd (.arr .C 1))) (.rd (.arr .C 3))) (.mul (.rd (.var .kr)) (.rd (.arr .C 6)))))))),
  .set (.arr .jac 235) (.add (.rd (.arr .jac 235)) (.mul (.neg (.num 19945944463421503 16)) (.sub (.mul (.rd (.var .jTemp)) (.num 42731999023327338 17)) (.mul (.num 57268000976672662 17) (.sub (.mul (.mul (.rd (.var .kf)) (.rd (.arr .C 1))) (.rd (.arr .C 3))) (.mul (.rd (.var .kr)) (.rd (.arr .C 6)))))))),
  .set (.arr .jac 238) (.add (.rd (.arr .jac 238)) (.mul (.num 20574227876001383 16) (.sub (.mul (.rd (.var .jTemp)) (.num 42731999023327338 17)) (.mul (.num 57268000976672662 17) (.sub (.mul (.mul (.rd (.var .kf)) (.rd (.arr .C 1))) (.rd (.arr .C 3))) (.mul (.rd (.var .kr)) (.rd (.arr .C 6)))))))),
  .set (.arr .jac 254) (.add (.rd (.arr .jac 254)) (.mul (.neg (.num 35984491474595155 18)) (.sub (.mul (.rd (.var .jTemp)) (.num 10994706834011048 20)) (.mul (.num 99989005293165989 17) (.sub (.mul (.mul (.rd (.var .kf)) (.rd (.arr .C 1))) (.rd (.arr .C 3))) (.mul (.rd (.var .kr)) (.rd (.arr .C 6)))))))),
  .set (.arr .jac 256) (.add (.rd (.arr .jac 256)) (.mul (.neg (.num 11423899694399224 16)) (.sub (.mul (.rd (.var .jTemp)) (.num 10994706834011048 20)) (.mul (.num 99989005293165989 17) (.sub (.mul (.mul (.rd (.var .kf)) (.rd (.arr .C 1))) (.rd (.arr .C 3))) (.mul (.rd (.var .kr)) (.rd (.arr .C 6)))))))),
  .set (.arr .jac 259) (.add (.rd (.arr .jac 259)) (.mul (.num 11783744609145177 16) (.sub (.mul (.rd (.var .jTemp)) (.num 10994706834011048 20)) (.mul (.num 99989005293165989 17) (.sub (.mul (.mul (.rd (.var .kf)) (.rd (.arr .C 1))) (.rd (.arr .C 3))) (.mul (.rd (.var .kr)) (.rd (.arr .C 6)))))))),
  .set (.arr .jac 275) (.add (.rd (.arr .jac 275)) (.mul (.neg (.num 22902626233248052 18)) (.sub (.mul (.rd (.var .jTemp)) (.neg (.num 57102223643760053 17))) (.mul (.num 15710222364376005 16) (.sub (.mul (.mul (.rd (.var .kf)) (.rd (.arr .C 1))) (.rd (.arr .C 3))) (.mul (.rd (.var .kr)) (.rd (.arr .C 6)))))))),
  .set (.arr .jac 277) (.add (.rd (.arr .jac 277)) (.mul (.neg (.num 72708351321751064 17)) (.sub (.mul (.rd (.var .jTemp)) (.neg (.num 57102223643760053 17))) (.mul (.num 15710222364376005 16) (.sub (.mul (.mul (.rd (.var .kf)) (.rd (.arr .C 1))) (.rd (.arr .C 3))) (.mul (.rd (.var .kr)) (.rd (.arr .C 6)))))))),
  .set (.arr .jac 280) (.add (.rd (.arr .jac 280)) (.mul (.num 74998613945075876 17) (.sub (.mul (.rd (.var .jTemp)) (.neg (.num 57102223643760053 17))) (.mul (.num 15710222364376005 16) (.sub (.mul (.mul (.rd (.var .kf)) (.rd (.arr .C 1))) (.rd (.arr .C 3))) (.mul (.rd (.var .kr)) (.rd (.arr .C 6)))))))),
  .set (.arr .jac 296) (.add (.rd (.arr .jac 296)) (.mul (.neg (.num 34734585093427126 18)) (.sub (.mul (.rd (.var .jTemp)) (.neg (.num 35870588016911675 18))) (.mul (.num 10358705880169117 16) (.sub (.mul (.mul (.rd (.var .kf)) (.rd (.arr .C 1))) (.rd (.arr .C 3))) (.mul (.rd (.var .kr)) (.rd (.arr .C 6)))))))),
  .set (.arr .jac 298) (.add (.rd (.arr .jac 298)) (.mul (.neg (.num 11027095278365338 16)) (.sub (.mul (.rd (.var .jTemp)) (.neg (.num 35870588016911675 18))) (.mul (.num 10358705880169117 16) (.sub (.mul (.mul (.rd (.var .kf)) (.rd (.arr .C 1))) (.rd (.arr .C 3))) (.mul (.rd (.var .kr)) (.rd (.arr .C 6)))))))),
  .set (.arr .jac 301) (.add (.rd (.arr .jac 301)) (.mul (.num 11374441129299608 16) (.sub (.mul (.rd (.var .jTemp)) (.neg (.num 35870588016911675 18))) (.mul (.num 10358705880169117 16) (.sub (.mul (.mul (.rd (.var .kf)) (.rd (.arr .C 1))) (.rd (.arr .C 3))) (.mul (.rd (.var .kr)) (.rd (.arr .C 6)))))))),
  .set (.arr .jac 317) (.add (.rd (.arr .jac 317)) (.mul (.neg (.num 33568593911733322 18)) (.sub (.mul (.rd (.var .jTemp)) (.neg (.num 71851123102163683 18))) (.mul (.num 10718511231021637 16) (.sub (.mul (.mul (.rd (.var .kf)) (.rd (.arr .C 1))) (.rd (.arr .C 3))) (.mul (.rd (.var .kr)) (.rd (.arr .C 6)))))))),
  .set (.arr .jac 319) (.add (.rd (.arr .jac 319)) (.mul (.neg (.num 10656931194939898 16)) (.sub (.mul (.rd (.var .jTemp)) (.neg (.num 71851123102163683 18))) (.mul (.num 10718511231021637 16) (.sub (.mul (.mul (.rd (.var .kf)) (.rd (.arr .C 1))) (.rd (.arr .C 3))) (.mul (.rd (.var .kr)) (.rd (.arr .C 6)))))))),
  .set (.arr .jac 322) (.add (.rd (.arr .jac 322)) (.mul (.num 10992617134057232 16) (.sub (.mul (.rd (.var .jTemp)) (.neg (.num 71851123102163683 18))) (.mul (.num 10718511231021637 16) (.sub (.mul (.mul (.rd (.var .kf)) (.rd (.arr .C 1))) (.rd (.arr .C 3))) (.mul (.rd (.var .kr)) (.rd (.arr .C 6)))))))),
  .set (.arr .jac 338) (.add (.rd (.arr .jac 338)) (.mul (.neg (.num 32478341649959309 18)) (.sub (.mul (.rd (.var .jTemp)) (.neg (.num 10783165818741525 17))) (.mul (.num 11078316581874152 16) (.sub (.mul (.mul (.rd (.var .kf)) (.rd (.arr .C 1))) (.rd (.arr .C 3))) (.mul (.rd (.var .kr)) (.rd (.arr .C 6)))))))),
  .set (.arr .jac 340) (.add (.rd (.arr .jac 340)) (.mul (.neg (.num 10310811742650532 16)) (.sub (.mul (.rd (.var .jTemp)) (.neg (.num 10783165818741525 17))) (.mul (.num 11078316581874152 16) (.sub (.mul (.mul (.rd (.var .kf)) (.rd (.arr .C 1))) (.rd (.arr .C 3))) (.mul (.rd (.var .kr)) (.rd (.arr .C 6)))))))),
  .set (.arr .jac 343) (.add (.rd (.arr .jac 343)) (.mul (.num 10635595159150126 16) (.sub (.mul (.rd (.var .jTemp)) (.neg (.num 10783165818741525 17))) (.mul (.num 11078316581874152 16) (.sub (.mul (.mul (.rd (.var .kf)) (.rd (.arr .C 1))) (.rd (.arr .C 3))) (.mul (.rd (.var .kr)) (.rd (.arr .C 6)))))))),
  .set (.arr .jac 359) (.add (.rd (.arr .jac 359)) (.mul (.neg (.num 35928873705342888 18)) (.sub (.mul (.rd (.var .jTemp)) (.neg (.num 14378791924458678 19))) (.mul (.num 10014378791924459 16) (.sub (.mul (.mul (.rd (.var .kf)) (.rd (.arr .C 1))) (.rd (.arr .C 3))) (.mul (.rd (.var .kr)) (.rd (.arr .C 6)))))))),
  .set (.arr .jac 361) (.add (.rd (.arr .jac 361)) (.mul (.neg (.num 11406242870830863 16)) (.sub (.mul (.rd (.var .jTemp)) (.neg (.num 14378791924458678 19))) (.mul (.num 10014378791924459 16) (.sub (.mul (.mul (.rd (.var .kf)) (.rd (.arr .C 1))) (.rd (.arr .C 3))) (.mul (.rd (.var .kr)) (.rd (.arr .C 6)))))))),
  .set (.arr .jac 364) (.add (.rd (.arr .jac 364)) (.mul (.num 11765531607884292 16) (.sub (.mul (.rd (.var .jTemp)) (.neg (.num 14378791924458678 19))) (.mul (.num 10014378791924459 16) (.sub (.mul (.mul (.rd (.var .kf)) (.rd (.arr .C 1))) (.rd (.arr .C 3))) (.mul (.rd (.var .kr)) (.rd (.arr .C 6)))))))),
  .set (.arr .jac 380) (.add (.rd (.arr .jac 380)) (.mul (.neg (.num 3468276115987709 17)) (.sub (.mul (.rd (.var .jTemp)) (.neg (.num 37418414277697654 18))) (.mul (.num 10374184142776977 16) (.sub (.mul (.mul (.rd (.var .kf)) (.rd (.arr .C 1))) (.rd (.arr .C 3))) (.mul (.rd (.var .kr)) (.rd (.arr .C 6)))))))),
  .set (.arr .jac 382) (.add (.rd (.arr .jac 382)) (.mul (.neg (.num 11010642873610286 16)) (.sub (.mul (.rd (.var .jTemp)) (.neg (.num 37418414277697654 18))) (.mul (.num 10374184142776977 16) (.sub (.mul (.mul (.rd (.var .kf)) (.rd (.arr .C 1))) (.rd (.arr .C 3))) (.mul (.rd (.var .kr)) (.rd (.arr .C 6)))))))),
  .set (.arr .jac 385) (.add (.rd (.arr .jac 385)) (.mul (.num 11357470485209056 16) (.sub (.mul (.rd (.var .jTemp)) (.neg (.num 37418414277697654 18))) (.mul (.num 10374184142776977 16) (.sub (.mul (.mul (.rd (.var .kf)) (.rd (.arr .C 1))) (.rd (.arr .C 3))) (.mul (.rd (.var .kr)) (.rd (.arr .C 6)))))))),
  .set (.arr .jac 401) (.add (.rd (.arr .jac 401)) (.mul (.neg (.num 33520188469166906 18)) (.sub (.mul (.rd (.var .jTemp)) (.neg (.num 73398949362949439 18))) (.mul (.num 10733989493629494 16) (.sub (.mul (.mul (.rd (.var .kf)) (.rd (.arr .C 1))) (.rd (.arr .C 3))) (.mul (.rd (.var .kr)) (.rd (.arr .C 6)))))))),
  .set (.arr .jac 403) (.add (.rd (.arr .jac 403)) (.mul (.neg (.num 10641564049320178 16)) (.sub (.mul (.rd (.var .jTemp)) (.neg (.num 73398949362949439 18))) (.mul (.num 10733989493629494 16) (.sub (.mul (.mul (.rd (.var .kf)) (.rd (.arr .C 1))) (.rd (.arr .C 3))) (.mul (.rd (.var .kr)) (.rd (.arr .C 6)))))))),
  .set (.arr .jac 406) (.add (.rd (.arr .jac 406)) (.mul (.num 10976765934011847 16) (.sub (.mul (.rd (.var .jTemp)) (.neg (.num 73398949362949439 18))) (.mul (.num 10733989493629494 16) (.sub (.mul (.mul (.rd (.var .kf)) (.rd (.arr .C 1))) (.rd (.arr .C 3))) (.mul (.rd (.var .kr)) (.rd (.arr .C 6)))))))),
  .set (.arr .jac 422) (.add (.rd (.arr .jac 422)) (.mul (.neg (.num 2523130069089817 17)) (.sub (.mul (.rd (.var .jTemp)) (.neg (.num 42602775520927771 17))) (.mul (.num 14260277552092777 16) (.sub (.mul (.mul (.rd (.var .kf)) (.rd (.arr .C 1))) (.rd (.arr .C 3))) (.mul (.rd (.var .kr)) (.rd (.arr .C 6)))))))),
  .set (.arr .jac 424) (.add (.rd (.arr .jac 424)) (.mul (.neg (.num 80101131470912179 17)) (.sub (.mul (.rd (.var .jTemp)) (.neg (.num 42602775520927771 17))) (.mul (.num 14260277552092777 16) (.sub (.mul (.mul (.rd (.var .kf)) (.rd (.arr .C 1))) (.rd (.arr .C 3))) (.mul (.rd (.var .kr)) (.rd (.arr .C 6)))))))),
  .set (.arr .jac 427) (.add (.rd (.arr .jac 427)) (.mul (.num 82624261540002009 17) (.sub (.mul (.rd (.var .jTemp)) (.neg (.num 42602775520927771 17))) (.mul (.num 14260277552092777 16) (.sub (.mul (.mul (.rd (.var .kf)) (.rd (.arr .C 1))) (.rd (.arr .C 3))) (.mul (.rd (.var .kr)) (.rd (.arr .C 6))))))))]

/-- utilities/mechanisms/drm19/lib/src/jacobs/jacob_0.c:1875-1880 -/
def jacobT20 : List CStmt := [
  .set (.var .jTemp) (.mul (.mul (.div (.num 1 0) (.rd (.var .T))) (.sub (.add (.mul (.sub (.rd (.arr .fwd 20)) (.rd (.arr .rev 20))) (.neg (.num 80000000000000004 17))) (.mul (.rd (.arr .fwd 20)) (.neg (.num 2 0)))) (.mul (.rd (.arr .rev 20)) (.add (.neg (.num 1 0)) (.mul (.neg (.rd (.var .T))) (.sub (.sub (.rd (.arr .dBdT 6)) (.rd (.arr .dBdT 1))) (.rd (.arr .dBdT 3)))))))) (.rd (.var .rhoInv))),
  .set (.arr .jac 4) (.add (.rd (.arr .jac 4)) (.mul (.neg (.rd (.var .jTemp))) (.num 31998799999999999 15))),
  .set (.arr .jac 2) (.add (.rd (.arr .jac 2)) (.mul (.neg (.rd (.var .jTemp))) (.num 10079400000000001 16))),
  .set (.arr .jac 7) (.add (.rd (.arr .jac 7)) (.mul (.rd (.var .jTemp)) (.num 33006740000000001 15)))]

/-- utilities/mechanisms/drm19/lib/src/jacobs/jacob_0.c:1881-1952 -/
def jacobS20 : List CStmt := [
  .ite (.rd (.var .T)) (.num 1000 0) (.var .Kc) (.sub (.add (.add (.num 24863279230000002 16) (.mul (.neg (.num 98065834999999968 17)) (.rd (.var .logT)))) (.mul (.rd (.var .T)) (.add (.neg (.num 87619317535266635 20)) (.mul (.rd (.var .T)) (.add (.num 1885164515332653 21) (.mul (.rd (.var .T)) (.add (.neg (.num 12162578593584016 25)) (.mul (.num 3024261435463867 28) (.rd (.var .T)))))))))) (.div (.neg (.num 24114908299999999 12)) (.rd (.var .T)))) (.sub (.add (.add (.num 54388072400000009 17) (.mul (.neg (.num 76532694999999951 17)) (.rd (.var .logT)))) (.mul (.rd (.var .T)) (.add (.num 37836630654214864 20) (.mul (.rd (.var .T)) (.add (.num 20718083807300866 24) (.mul (.rd (.var .T)) (.add (.neg (.num 79353483554039681 28)) (.mul (.num 54404627009013201 32) (.rd (.var .T)))))))))) (.div (.neg (.num 24273345466999999 12)) (.rd (.var .T)))),
  .set (.var .Kc) (.mul (.num 82057360967184814 18) (.exp (.rd (.var .Kc)))),
  .set (.var .jTemp) (.mul (.mul (.neg (.rd (.var .mwAvg))) (.rd (.var .rhoInv))) (.sub (.mul (.num 3 0) (.rd (.arr .fwd 20))) (.mul (.num 2 0) (.rd (.arr .rev 20))))),
  .set (.var .kf) (.exp (.sub (.num 27274346171989816 15) (.mul (.num 8 1) (.rd (.var .logT))))),
  .set (.var .kr) (.div (.rd (.var .kf)) (.rd (.var .Kc))),
  .set (.arr .jac 25) (.add (.rd (.arr .jac 25)) (.mul (.neg (.num 15873365478103855 15)) (.mul (.rd (.var .jTemp)) (.num 92803892982949643 17)))),
  .set (.arr .jac 23) (.add (.rd (.arr .jac 23)) (.mul (.neg (.num 5 1)) (.mul (.rd (.var .jTemp)) (.num 92803892982949643 17)))),
  .set (.arr .jac 28) (.add (.rd (.arr .jac 28)) (.mul (.num 16373365478103853 15) (.mul (.rd (.var .jTemp)) (.num 92803892982949643 17)))),
  .set (.arr .jac 46) (.add (.rd (.arr .jac 46)) (.mul (.neg (.num 3174673095620771 14)) (.add (.mul (.rd (.var .jTemp)) (.num 96401946491474821 17)) (.mul (.mul (.rd (.var .kf)) (.rd (.arr .C 19))) (.rd (.arr .C 3)))))),
  .set (.arr .jac 44) (.add (.rd (.arr .jac 44)) (.neg (.add (.mul (.rd (.var .jTemp)) (.num 96401946491474821 17)) (.mul (.mul (.rd (.var .kf)) (.rd (.arr .C 19))) (.rd (.arr .C 3)))))),
  .set (.arr .jac 49) (.add (.rd (.arr .jac 49)) (.mul (.num 32746730956207706 15) (.add (.mul (.rd (.var .jTemp)) (.num 96401946491474821 17)) (.mul (.mul (.rd (.var .kf)) (.rd (.arr .C 19))) (.rd (.arr .C 3)))))),
  .set (.arr .jac 67) (.add (.rd (.arr .jac 67)) (.mul (.neg (.num 2 0)) (.mul (.rd (.var .jTemp)) (.num 42886781649405936 17)))),
  .set (.arr .jac 65) (.add (.rd (.arr .jac 65)) (.mul (.neg (.num 62998612447966798 18)) (.mul (.rd (.var .jTemp)) (.num 42886781649405936 17)))),
  .set (.arr .jac 70) (.add (.rd (.arr .jac 70)) (.mul (.num 20629986124479669 16) (.mul (.rd (.var .jTemp)) (.num 42886781649405936 17)))),
  .set (.arr .jac 88) (.add (.rd (.arr .jac 88)) (.neg (.add (.mul (.rd (.var .jTemp)) (.neg (.num 14226436701188128 17))) (.mul (.mul (.rd (.var .kf)) (.rd (.arr .C 1))) (.rd (.arr .C 19)))))),
  .set (.arr .jac 86) (.add (.rd (.arr .jac 86)) (.mul (.neg (.num 31499306223983399 18)) (.add (.mul (.rd (.var .jTemp)) (.neg (.num 14226436701188128 17))) (.mul (.mul (.rd (.var .kf)) (.rd (.arr .C 1))) (.rd (.arr .C 19)))))),
  .set (.arr .jac 91) (.add (.rd (.arr .jac 91)) (.mul (.num 10314993062239834 16) (.add (.mul (.rd (.var .jTemp)) (.neg (.num 14226436701188128 17))) (.mul (.mul (.rd (.var .kf)) (.rd (.arr .C 1))) (.rd (.arr .C 19)))))),
  .set (.arr .jac 109) (.add (.rd (.arr .jac 109)) (.mul (.neg (.num 18814700005997411 16)) (.mul (.rd (.var .jTemp)) (.num 39288728140880758 17)))),
  .set (.arr .jac 107) (.add (.rd (.arr .jac 107)) (.mul (.neg (.num 59264999700129481 18)) (.mul (.rd (.var .jTemp)) (.num 39288728140880758 17)))),
  .set (.arr .jac 112) (.add (.rd (.arr .jac 112)) (.mul (.num 19407350002998707 16) (.mul (.rd (.var .jTemp)) (.num 39288728140880758 17)))),
  .set (.arr .jac 130) (.add (.rd (.arr .jac 130)) (.mul (.neg (.num 17762033118552694 16)) (.mul (.rd (.var .jTemp)) (.num 35690674632355568 17)))),
  .set (.arr .jac 128) (.add (.rd (.arr .jac 128)) (.mul (.neg (.num 55949172036182618 18)) (.mul (.rd (.var .jTemp)) (.num 35690674632355568 17)))),
  .set (.arr .jac 133) (.add (.rd (.arr .jac 133)) (.mul (.num 1832152483891452 15) (.mul (.rd (.var .jTemp)) (.num 35690674632355568 17)))),
  .set (.arr .jac 151) (.add (.rd (.arr .jac 151)) (.mul (.neg (.num 96946260066883305 17)) (.sub (.mul (.rd (.var .jTemp)) (.neg (.num 17824490209713328 17))) (.mul (.rd (.var .kr)) (.rd (.arr .C 19)))))),
  .set (.arr .jac 149) (.add (.rd (.arr .jac 149)) (.mul (.neg (.num 3053739933116691 17)) (.sub (.mul (.rd (.var .jTemp)) (.neg (.num 17824490209713328 17))) (.mul (.rd (.var .kr)) (.rd (.arr .C 19)))))),
  .set (.arr .jac 154) (.add (.rd (.arr .jac 154)) (.sub (.mul (.rd (.var .jTemp)) (.neg (.num 17824490209713328 17))) (.mul (.rd (.var .kr)) (.rd (.arr .C 19))))),
  .set (.arr .jac 172) (.add (.rd (.arr .jac 172)) (.mul (.neg (.num 22812485741661725 16)) (.mul (.rd (.var .jTemp)) (.num 49928106040377707 17)))),
  .set (.arr .jac 170) (.add (.rd (.arr .jac 170)) (.mul (.neg (.num 71857747410685777 18)) (.mul (.rd (.var .jTemp)) (.num 49928106040377707 17)))),
  .set (.arr .jac 175) (.add (.rd (.arr .jac 175)) (.mul (.num 23531063215768584 16) (.mul (.rd (.var .jTemp)) (.num 49928106040377707 17)))),
  .set (.arr .jac 193) (.add (.rd (.arr .jac 193)) (.mul (.neg (.num 22812485741661725 16)) (.mul (.rd (.var .jTemp)) (.num 49928106040377707 17)))),
  .set (.arr .jac 191) (.add (.rd (.arr .jac 191)) (.mul (.neg (.num 71857747410685777 18)) (.mul (.rd (.var .jTemp)) (.num 49928106040377707 17)))),
  .set (.arr .jac 196) (.add (.rd (.arr .jac 196)) (.mul (.num 23531063215768584 16) (.mul (.rd (.var .jTemp)) (.num 49928106040377707 17)))),
  .set (.arr .jac 214) (.add (.rd (.arr .jac 214)) (.mul (.neg (.num 21283128098640356 16)) (.mul (.rd (.var .jTemp)) (.num 46330052531852528 17)))),
  .set (.arr .jac 212) (.add (.rd (.arr .jac 212)) (.mul (.neg (.num 67040376938333812 18)) (.mul (.rd (.var .jTemp)) (.num 46330052531852528 17)))),
  .set (.arr .jac 217) (.add (.rd (.arr .jac 217)) (.mul (.num 21953531868023695 16) (.mul (.rd (.var .jTemp)) (.num 46330052531852528 17)))),
  .set (.arr .jac 235) (.add (.rd (.arr .jac 235)) (.mul (.neg (.num 19945944463421503 16)) (.mul (.rd (.var .jTemp)) (.num 42731999023327338 17)))),
  .set (.arr .jac 233) (.add (.rd (.arr .jac 233)) (.mul (.neg (.num 6282834125798803 17)) (.mul (.rd (.var .jTemp)) (.num 42731999023327338 17)))),
  .set (.arr .jac 238) (.add (.rd (.arr .jac 238)) (.mul (.num 20574227876001383 16) (.mul (.rd (.var .jTemp)) (.num 42731999023327338 17)))),
  .set (.arr .jac 256) (.add (.rd (.arr .jac 256)) (.mul (.neg (.num 11423899694399224 16)) (.mul (.rd (.var .jTemp)) (.num 10994706834011048 20)))),
  .set (.arr .jac 254) (.add (.rd (.arr .jac 254)) (.mul (.neg (.num 35984491474595155 18)) (.mul (.rd (.var .jTemp)) (.num 10994706834011048 20)))),
  .set (.arr .jac 259) (.add (.rd (.arr .jac 259)) (.mul (.num 11783744609145177 16) (.mul (.rd (.var .jTemp)) (.num 10994706834011048 20)))),
  .set (.arr .jac 277) (.add (.rd (.arr .jac 277)) (.mul (.neg (.num 72708351321751064 17)) (.mul (.rd (.var .jTemp)) (.neg (.num 57102223643760053 17))))),
  .set (.arr .jac 275) (.add (.rd (.arr .jac 275)) (.mul (.neg (.num 22902626233248052 18)) (.mul (.rd (.var .jTemp)) (.neg (.num 57102223643760053 17))))),
  .set (.arr .jac 280) (.add (.rd (.arr .jac 280)) (.mul (.num 74998613945075876 17) (.mul (.rd (.var .jTemp)) (.neg (.num 57102223643760053 17))))),
  .set (.arr .jac 298) (.add (.rd (.arr .jac 298)) (.mul (.neg (.num 11027095278365338 16)) (.mul (.rd (.var .jTemp)) (.neg (.num 35870588016911675 18))))),
  .set (.arr .jac 296) (.add (.rd (.arr .jac 296)) (.mul (.neg (.num 34734585093427126 18)) (.mul (.rd (.var .jTemp)) (.neg (.num 35870588016911675 18))))),
  .set (.arr .jac 301) (.add (.rd (.arr .jac 301)) (.mul (.num 11374441129299608 16) (.mul (.rd (.var .jTemp)) (.neg (.num 35870588016911675 18))))),
  .set (.arr .jac 319) (.add (.rd (.arr .jac 319)) (.mul (.neg (.num 10656931194939898 16)) (.mul (.rd (.var .jTemp)) (.neg (.num 71851123102163683 18))))),
  .set (.arr .jac 317) (.add (.rd (.arr .jac 317)) (.mul (.neg (.num 33568593911733322 18)) (.mul (.rd (.var .jTemp)) (.neg (.num 71851123102163683 18))))),
  .set (.arr .jac 322) (.add (.rd (.arr .jac 322)) (.mul (.num 10992617134057232 16) (.mul (.rd (.var .jTemp)) (.neg (.num 71851123102163683 18))))),
  .set (.arr .jac 340) (.add (.rd (.arr .jac 340)) (.mul (.neg (.num 10310811742650532 16)) (.mul (.rd (.var .jTemp)) (.neg (.num 10783165818741525 17))))),
  .set (.arr .jac 338) (.add (.rd (.arr .jac 338)) (.mul (.neg (.num 32478341649959309 18)) (.mul (.rd (.var .jTemp)) (.neg (.num 10783165818741525 17))))),
  .set (.arr .jac 343) (.add (.rd (.arr .jac 343)) (.mul (.num 10635595159150126 16) (.mul (.rd (.var .jTemp)) (.neg (.num 10783165818741525 17))))),
  .set (.arr .jac 361) (.add (.rd (.arr .jac 361)) (.mul (.neg (.num 11406242870830863 16)) (.mul (.rd (.var .jTemp)) (.neg (.num 14378791924458678 19))))),
  .set (.arr .jac 359) (.add (.rd (.arr .jac 359)) (.mul (.neg (.num 35928873705342888 18)) (.mul (.rd (.var .jTemp)) (.neg (.num 14378791924458678 19))))),
  .set (.arr .jac 364) (.add (.rd (.arr .jac 364)) (.mul (.num 11765531607884292 16) (.mul (.rd (.var .jTemp)) (.neg (.num 14378791924458678 19))))),
  .set (.arr .jac 382) (.add (.rd (.arr .jac 382)) (.mul (.neg (.num 11010642873610286 16)) (.mul (.rd (.var .jTemp)) (.neg (.num 37418414277697654 18))))),
  .set (.arr .jac 380) (.add (.rd (.arr .jac 380)) (.mul (.neg (.num 3468276115987709 17)) (.mul (.rd (.var .jTemp)) (.neg (.num 37418414277697654 18))))),
  .set (.arr .jac 385) (.add (.rd (.arr .jac 385)) (.mul (.num 11357470485209056 16) (.mul (.rd (.var .jTemp)) (.neg (.num 37418414277697654 18))))),
  .set (.arr .jac 403) (.add (.rd (.arr .jac 403)) (.mul (.neg (.num 10641564049320178 16)) (.mul (.rd (.var .jTemp)) (.neg (.num 73398949362949439 18))))),
  .set (.arr .jac 401) (.add (.rd (.arr .jac 401)) (.mul (.neg (.num 33520188469166906 18)) (.mul (.rd (.var .jTemp)) (.neg (.num 73398949362949439 18))))),
  .set (.arr .jac 406) (.add (.rd (.arr .jac 406)) (.mul (.num 10976765934011847 16) (.mul (.rd (.var .jTemp)) (.neg (.num 73398949362949439 18))))),
  .set (.arr .jac 424) (.add (.rd (.arr .jac 424)) (.mul (.neg (.num 80101131470912179 17)) (.sub (.add (.mul (.rd (.var .jTemp)) (.neg (.num 42602775520927771 17))) (.mul (.mul (.rd (.var .kf)) (.rd (.arr .C 1))) (.rd (.arr .C 3)))) (.mul (.rd (.var .kr)) (.rd (.arr .C 6)))))),
  .set (.arr .jac 422) (.add (.rd (.arr .jac 422)) (.mul (.neg (.num 2523130069089817 17)) (.sub (.add (.mul (.rd (.var .jTemp)) (.neg (.num 42602775520927771 17))) (.mul (.mul (.rd (.var .kf)) (.rd (.arr .C 1))) (.rd (.arr .C 3)))) (.mul (.rd (.var .kr)) (.rd (.arr .C 6)))))),
  .set (.arr .jac 427) (.add (.rd (.arr .jac 427)) (.mul (.num 82624261540002009 17) (.sub (.add (.mul (.rd (.var .jTemp)) (.neg (.num 42602775520927771 17))) (.mul (.mul (.rd (.var .kf)) (.rd (.arr .C 1))) (.rd (.arr .C 3)))) (.mul (.rd (.var .kr)) (.rd (.arr .C 6))))))]

/-- utilities/mechanisms/drm19/lib/src/jacobs/jacob_0.c:1953-1959 -/
def jacobT21 : List CStmt := [
  .set (.var .jTemp) (.mul (.mul (.div (.num 1 0) (.rd (.var .T))) (.sub (.add (.mul (.sub (.rd (.arr .fwd 21)) (.rd (.arr .rev 21))) (.div (.num 72529035883151109 13) (.rd (.var .T)))) (.mul (.rd (.arr .fwd 21)) (.neg (.num 1 0)))) (.mul (.rd (.arr .rev 21)) (.add (.neg (.num 1 0)) (.mul (.neg (.rd (.var .T))) (.sub (.sub (.add (.rd (.arr .dBdT 2)) (.rd (.arr .dBdT 4))) (.rd (.arr .dBdT 1))) (.rd (.arr .dBdT 3)))))))) (.rd (.var .rhoInv))),
  .set (.arr .jac 2) (.add (.rd (.arr .jac 2)) (.mul (.neg (.rd (.var .jTemp))) (.num 10079400000000001 16))),
  .set (.arr .jac 3) (.add (.rd (.arr .jac 3)) (.mul (.rd (.var .jTemp)) (.num 159994 4))),
  .set (.arr .jac 4) (.add (.rd (.arr .jac 4)) (.mul (.neg (.rd (.var .jTemp))) (.num 31998799999999999 15))),
  .set (.arr .jac 5) (.add (.rd (.arr .jac 5)) (.mul (.rd (.var .jTemp)) (.num 17007339999999999 15)))]

/-- utilities/mechanisms/drm19/lib/src/jacobs/jacob_0.c:1960-2051 -/
def jacobS21 : List CStmt := [
  .ite (.rd (.var .T)) (.num 1000 0) (.var .Kc) (.sub (.add (.add (.neg (.num 21408110450000004 16)) (.mul (.num 87782617000000007 17) (.rd (.var .logT)))) (.mul (.rd (.var .T)) (.add (.neg (.num 13419511003526666 19)) (.mul (.rd (.var .T)) (.add (.num 23561672699932007 23) (.mul (.rd (.var .T)) (.add (.neg (.num 27325373525067973 27)) (.mul (.num 11652302046386607 30) (.rd (.var .T)))))))))) (.div (.num 83276234200000017 13) (.rd (.var .T)))) (.sub (.add (.add (.num 43747157639999994 16) (.mul (.neg (.num 12022939999999949 17)) (.rd (.var .logT)))) (.mul (.rd (.var .T)) (.add (.neg (.num 51031595730785127 20)) (.mul (.rd (.var .T)) (.add (.num 15440338995730085 23) (.mul (.rd (.var .T)) (.add (.neg (.num 25619540480403969 27)) (.mul (.num 1732067670590132 30) (.rd (.var .T)))))))))) (.div (.num 86910339200000017 13) (.rd (.var .T)))),
  .set (.var .Kc) (.exp (.rd (.var .Kc))),
  .set (.var .jTemp) (.mul (.mul (.neg (.rd (.var .mwAvg))) (.rd (.var .rhoInv))) (.sub (.mul (.num 2 0) (.rd (.arr .fwd 21))) (.mul (.num 2 0) (.rd (.arr .rev 21))))),
  .set (.var .kf) (.exp (.sub (.num 2514210644474301 14) (.div (.num 72529035883151109 13) (.rd (.var .T))))),
  .set (.var .kr) (.div (.rd (.var .kf)) (.rd (.var .Kc))),
  .set (.arr .jac 23) (.add (.rd (.arr .jac 23)) (.mul (.neg (.num 5 1)) (.mul (.rd (.var .jTemp)) (.num 92803892982949643 17)))),
  .set (.arr .jac 24) (.add (.rd (.arr .jac 24)) (.mul (.num 79366827390519274 16) (.mul (.rd (.var .jTemp)) (.num 92803892982949643 17)))),
  .set (.arr .jac 25) (.add (.rd (.arr .jac 25)) (.mul (.neg (.num 15873365478103855 15)) (.mul (.rd (.var .jTemp)) (.num 92803892982949643 17)))),
  .set (.arr .jac 26) (.add (.rd (.arr .jac 26)) (.mul (.num 84366827390519266 16) (.mul (.rd (.var .jTemp)) (.num 92803892982949643 17)))),
  .set (.arr .jac 44) (.add (.rd (.arr .jac 44)) (.neg (.add (.mul (.rd (.var .jTemp)) (.num 96401946491474821 17)) (.mul (.rd (.var .kf)) (.rd (.arr .C 3)))))),
  .set (.arr .jac 45) (.add (.rd (.arr .jac 45)) (.mul (.num 15873365478103855 15) (.add (.mul (.rd (.var .jTemp)) (.num 96401946491474821 17)) (.mul (.rd (.var .kf)) (.rd (.arr .C 3)))))),
  .set (.arr .jac 46) (.add (.rd (.arr .jac 46)) (.mul (.neg (.num 3174673095620771 14)) (.add (.mul (.rd (.var .jTemp)) (.num 96401946491474821 17)) (.mul (.rd (.var .kf)) (.rd (.arr .C 3)))))),
  .set (.arr .jac 47) (.add (.rd (.arr .jac 47)) (.mul (.num 16873365478103853 15) (.add (.mul (.rd (.var .jTemp)) (.num 96401946491474821 17)) (.mul (.rd (.var .kf)) (.rd (.arr .C 3)))))),
  .set (.arr .jac 65) (.add (.rd (.arr .jac 65)) (.mul (.neg (.num 62998612447966798 18)) (.sub (.mul (.rd (.var .jTemp)) (.num 42886781649405936 17)) (.mul (.rd (.var .kr)) (.rd (.arr .C 4)))))),
  .set (.arr .jac 66) (.add (.rd (.arr .jac 66)) (.sub (.mul (.rd (.var .jTemp)) (.num 42886781649405936 17)) (.mul (.rd (.var .kr)) (.rd (.arr .C 4))))),
  .set (.arr .jac 67) (.add (.rd (.arr .jac 67)) (.mul (.neg (.num 2 0)) (.sub (.mul (.rd (.var .jTemp)) (.num 42886781649405936 17)) (.mul (.rd (.var .kr)) (.rd (.arr .C 4)))))),
  .set (.arr .jac 68) (.add (.rd (.arr .jac 68)) (.mul (.num 10629986124479667 16) (.sub (.mul (.rd (.var .jTemp)) (.num 42886781649405936 17)) (.mul (.rd (.var .kr)) (.rd (.arr .C 4)))))),
  .set (.arr .jac 86) (.add (.rd (.arr .jac 86)) (.mul (.neg (.num 31499306223983399 18)) (.add (.mul (.rd (.var .jTemp)) (.neg (.num 14226436701188128 17))) (.mul (.rd (.var .kf)) (.rd (.arr .C 1)))))),
  .set (.arr .jac 87) (.add (.rd (.arr .jac 87)) (.mul (.num 5 1) (.add (.mul (.rd (.var .jTemp)) (.neg (.num 14226436701188128 17))) (.mul (.rd (.var .kf)) (.rd (.arr .C 1)))))),
  .set (.arr .jac 88) (.add (.rd (.arr .jac 88)) (.neg (.add (.mul (.rd (.var .jTemp)) (.neg (.num 14226436701188128 17))) (.mul (.rd (.var .kf)) (.rd (.arr .C 1)))))),
  .set (.arr .jac 89) (.add (.rd (.arr .jac 89)) (.mul (.num 53149930622398334 17) (.add (.mul (.rd (.var .jTemp)) (.neg (.num 14226436701188128 17))) (.mul (.rd (.var .kf)) (.rd (.arr .C 1)))))),
  .set (.arr .jac 107) (.add (.rd (.arr .jac 107)) (.mul (.neg (.num 59264999700129481 18)) (.sub (.mul (.rd (.var .jTemp)) (.num 39288728140880758 17)) (.mul (.rd (.var .kr)) (.rd (.arr .C 2)))))),
  .set (.arr .jac 108) (.add (.rd (.arr .jac 108)) (.mul (.num 94073500029987056 17) (.sub (.mul (.rd (.var .jTemp)) (.num 39288728140880758 17)) (.mul (.rd (.var .kr)) (.rd (.arr .C 2)))))),
  .set (.arr .jac 109) (.add (.rd (.arr .jac 109)) (.mul (.neg (.num 18814700005997411 16)) (.sub (.mul (.rd (.var .jTemp)) (.num 39288728140880758 17)) (.mul (.rd (.var .kr)) (.rd (.arr .C 2)))))),
  .set (.arr .jac 110) (.add (.rd (.arr .jac 110)) (.sub (.mul (.rd (.var .jTemp)) (.num 39288728140880758 17)) (.mul (.rd (.var .kr)) (.rd (.arr .C 2))))),
  .set (.arr .jac 128) (.add (.rd (.arr .jac 128)) (.mul (.neg (.num 55949172036182618 18)) (.mul (.rd (.var .jTemp)) (.num 35690674632355568 17)))),
  .set (.arr .jac 129) (.add (.rd (.arr .jac 129)) (.mul (.num 88810165592763468 17) (.mul (.rd (.var .jTemp)) (.num 35690674632355568 17)))),
  .set (.arr .jac 130) (.add (.rd (.arr .jac 130)) (.mul (.neg (.num 17762033118552694 16)) (.mul (.rd (.var .jTemp)) (.num 35690674632355568 17)))),
  .set (.arr .jac 131) (.add (.rd (.arr .jac 131)) (.mul (.num 94405082796381734 17) (.mul (.rd (.var .jTemp)) (.num 35690674632355568 17)))),
  .set (.arr .jac 149) (.add (.rd (.arr .jac 149)) (.mul (.neg (.num 3053739933116691 17)) (.mul (.rd (.var .jTemp)) (.neg (.num 17824490209713328 17))))),
  .set (.arr .jac 150) (.add (.rd (.arr .jac 150)) (.mul (.num 48473130033441653 17) (.mul (.rd (.var .jTemp)) (.neg (.num 17824490209713328 17))))),
  .set (.arr .jac 151) (.add (.rd (.arr .jac 151)) (.mul (.neg (.num 96946260066883305 17)) (.mul (.rd (.var .jTemp)) (.neg (.num 17824490209713328 17))))),
  .set (.arr .jac 152) (.add (.rd (.arr .jac 152)) (.mul (.num 51526869966558342 17) (.mul (.rd (.var .jTemp)) (.neg (.num 17824490209713328 17))))),
  .set (.arr .jac 170) (.add (.rd (.arr .jac 170)) (.mul (.neg (.num 71857747410685777 18)) (.mul (.rd (.var .jTemp)) (.num 49928106040377707 17)))),
  .set (.arr .jac 171) (.add (.rd (.arr .jac 171)) (.mul (.num 11406242870830863 16) (.mul (.rd (.var .jTemp)) (.num 49928106040377707 17)))),
  .set (.arr .jac 172) (.add (.rd (.arr .jac 172)) (.mul (.neg (.num 22812485741661725 16)) (.mul (.rd (.var .jTemp)) (.num 49928106040377707 17)))),
  .set (.arr .jac 173) (.add (.rd (.arr .jac 173)) (.mul (.num 12124820344937721 16) (.mul (.rd (.var .jTemp)) (.num 49928106040377707 17)))),
  .set (.arr .jac 191) (.add (.rd (.arr .jac 191)) (.mul (.neg (.num 71857747410685777 18)) (.mul (.rd (.var .jTemp)) (.num 49928106040377707 17)))),
  .set (.arr .jac 192) (.add (.rd (.arr .jac 192)) (.mul (.num 11406242870830863 16) (.mul (.rd (.var .jTemp)) (.num 49928106040377707 17)))),
  .set (.arr .jac 193) (.add (.rd (.arr .jac 193)) (.mul (.neg (.num 22812485741661725 16)) (.mul (.rd (.var .jTemp)) (.num 49928106040377707 17)))),
  .set (.arr .jac 194) (.add (.rd (.arr .jac 194)) (.mul (.num 12124820344937721 16) (.mul (.rd (.var .jTemp)) (.num 49928106040377707 17)))),
  .set (.arr .jac 212) (.add (.rd (.arr .jac 212)) (.mul (.neg (.num 67040376938333812 18)) (.mul (.rd (.var .jTemp)) (.num 46330052531852528 17)))),
  .set (.arr .jac 213) (.add (.rd (.arr .jac 213)) (.mul (.num 10641564049320178 16) (.mul (.rd (.var .jTemp)) (.num 46330052531852528 17)))),
  .set (.arr .jac 214) (.add (.rd (.arr .jac 214)) (.mul (.neg (.num 21283128098640356 16)) (.mul (.rd (.var .jTemp)) (.num 46330052531852528 17)))),
  .set (.arr .jac 215) (.add (.rd (.arr .jac 215)) (.mul (.num 11311967818703517 16) (.mul (.rd (.var .jTemp)) (.num 46330052531852528 17)))),
  .set (.arr .jac 233) (.add (.rd (.arr .jac 233)) (.mul (.neg (.num 6282834125798803 17)) (.mul (.rd (.var .jTemp)) (.num 42731999023327338 17)))),
  .set (.arr .jac 234) (.add (.rd (.arr .jac 234)) (.mul (.num 99729722317107516 17) (.mul (.rd (.var .jTemp)) (.num 42731999023327338 17)))),
  .set (.arr .jac 235) (.add (.rd (.arr .jac 235)) (.mul (.neg (.num 19945944463421503 16)) (.mul (.rd (.var .jTemp)) (.num 42731999023327338 17)))),
  .set (.arr .jac 236) (.add (.rd (.arr .jac 236)) (.mul (.num 10601255644290632 16) (.mul (.rd (.var .jTemp)) (.num 42731999023327338 17)))),
  .set (.arr .jac 254) (.add (.rd (.arr .jac 254)) (.mul (.neg (.num 35984491474595155 18)) (.mul (.rd (.var .jTemp)) (.num 10994706834011048 20)))),
  .set (.arr .jac 255) (.add (.rd (.arr .jac 255)) (.mul (.num 57119498471996122 17) (.mul (.rd (.var .jTemp)) (.num 10994706834011048 20)))),
  .set (.arr .jac 256) (.add (.rd (.arr .jac 256)) (.mul (.neg (.num 11423899694399224 16)) (.mul (.rd (.var .jTemp)) (.num 10994706834011048 20)))),
  .set (.arr .jac 257) (.add (.rd (.arr .jac 257)) (.mul (.num 60717947619455637 17) (.mul (.rd (.var .jTemp)) (.num 10994706834011048 20)))),
  .set (.arr .jac 275) (.add (.rd (.arr .jac 275)) (.mul (.neg (.num 22902626233248052 18)) (.mul (.rd (.var .jTemp)) (.neg (.num 57102223643760053 17))))),
  .set (.arr .jac 276) (.add (.rd (.arr .jac 276)) (.mul (.num 36354175660875532 17) (.mul (.rd (.var .jTemp)) (.neg (.num 57102223643760053 17))))),
  .set (.arr .jac 277) (.add (.rd (.arr .jac 277)) (.mul (.neg (.num 72708351321751064 17)) (.mul (.rd (.var .jTemp)) (.neg (.num 57102223643760053 17))))),
  .set (.arr .jac 278) (.add (.rd (.arr .jac 278)) (.mul (.num 38644438284200339 17) (.mul (.rd (.var .jTemp)) (.neg (.num 57102223643760053 17))))),
  .set (.arr .jac 296) (.add (.rd (.arr .jac 296)) (.mul (.neg (.num 34734585093427126 18)) (.mul (.rd (.var .jTemp)) (.neg (.num 35870588016911675 18))))),
  .set (.arr .jac 297) (.add (.rd (.arr .jac 297)) (.mul (.num 55135476391826688 17) (.mul (.rd (.var .jTemp)) (.neg (.num 35870588016911675 18))))),
  .set (.arr .jac 298) (.add (.rd (.arr .jac 298)) (.mul (.neg (.num 11027095278365338 16)) (.mul (.rd (.var .jTemp)) (.neg (.num 35870588016911675 18))))),
  .set (.arr .jac 299) (.add (.rd (.arr .jac 299)) (.mul (.num 58608934901169396 17) (.mul (.rd (.var .jTemp)) (.neg (.num 35870588016911675 18))))),
  .set (.arr .jac 317) (.add (.rd (.arr .jac 317)) (.mul (.neg (.num 33568593911733322 18)) (.mul (.rd (.var .jTemp)) (.neg (.num 71851123102163683 18))))),
  .set (.arr .jac 318) (.add (.rd (.arr .jac 318)) (.mul (.num 53284655974699491 17) (.mul (.rd (.var .jTemp)) (.neg (.num 71851123102163683 18))))),
  .set (.arr .jac 319) (.add (.rd (.arr .jac 319)) (.mul (.neg (.num 10656931194939898 16)) (.mul (.rd (.var .jTemp)) (.neg (.num 71851123102163683 18))))),
  .set (.arr .jac 320) (.add (.rd (.arr .jac 320)) (.mul (.num 5664151536587283 16) (.mul (.rd (.var .jTemp)) (.neg (.num 71851123102163683 18))))),
  .set (.arr .jac 338) (.add (.rd (.arr .jac 338)) (.mul (.neg (.num 32478341649959309 18)) (.mul (.rd (.var .jTemp)) (.neg (.num 10783165818741525 17))))),
  .set (.arr .jac 339) (.add (.rd (.arr .jac 339)) (.mul (.num 5155405871325266 16) (.mul (.rd (.var .jTemp)) (.neg (.num 10783165818741525 17))))),
  .set (.arr .jac 340) (.add (.rd (.arr .jac 340)) (.mul (.neg (.num 10310811742650532 16)) (.mul (.rd (.var .jTemp)) (.neg (.num 10783165818741525 17))))),
  .set (.arr .jac 341) (.add (.rd (.arr .jac 341)) (.mul (.num 54801892878248593 17) (.mul (.rd (.var .jTemp)) (.neg (.num 10783165818741525 17))))),
  .set (.arr .jac 359) (.add (.rd (.arr .jac 359)) (.mul (.neg (.num 35928873705342888 18)) (.mul (.rd (.var .jTemp)) (.neg (.num 14378791924458678 19))))),
  .set (.arr .jac 360) (.add (.rd (.arr .jac 360)) (.mul (.num 57031214354154314 17) (.mul (.rd (.var .jTemp)) (.neg (.num 14378791924458678 19))))),
  .set (.arr .jac 361) (.add (.rd (.arr .jac 361)) (.mul (.neg (.num 11406242870830863 16)) (.mul (.rd (.var .jTemp)) (.neg (.num 14378791924458678 19))))),
  .set (.arr .jac 362) (.add (.rd (.arr .jac 362)) (.mul (.num 60624101724688606 17) (.mul (.rd (.var .jTemp)) (.neg (.num 14378791924458678 19))))),
  .set (.arr .jac 380) (.add (.rd (.arr .jac 380)) (.mul (.neg (.num 3468276115987709 17)) (.mul (.rd (.var .jTemp)) (.neg (.num 37418414277697654 18))))),
  .set (.arr .jac 381) (.add (.rd (.arr .jac 381)) (.mul (.num 55053214368051429 17) (.mul (.rd (.var .jTemp)) (.neg (.num 37418414277697654 18))))),
  .set (.arr .jac 382) (.add (.rd (.arr .jac 382)) (.mul (.neg (.num 11010642873610286 16)) (.mul (.rd (.var .jTemp)) (.neg (.num 37418414277697654 18))))),
  .set (.arr .jac 383) (.add (.rd (.arr .jac 383)) (.mul (.num 58521490484039129 17) (.mul (.rd (.var .jTemp)) (.neg (.num 37418414277697654 18))))),
  .set (.arr .jac 401) (.add (.rd (.arr .jac 401)) (.mul (.neg (.num 33520188469166906 18)) (.mul (.rd (.var .jTemp)) (.neg (.num 73398949362949439 18))))),
  .set (.arr .jac 402) (.add (.rd (.arr .jac 402)) (.mul (.num 5320782024660089 16) (.mul (.rd (.var .jTemp)) (.neg (.num 73398949362949439 18))))),
  .set (.arr .jac 403) (.add (.rd (.arr .jac 403)) (.mul (.neg (.num 10641564049320178 16)) (.mul (.rd (.var .jTemp)) (.neg (.num 73398949362949439 18))))),
  .set (.arr .jac 404) (.add (.rd (.arr .jac 404)) (.mul (.num 56559839093517583 17) (.mul (.rd (.var .jTemp)) (.neg (.num 73398949362949439 18))))),
  .set (.arr .jac 422) (.add (.rd (.arr .jac 422)) (.mul (.neg (.num 2523130069089817 17)) (.mul (.rd (.var .jTemp)) (.neg (.num 42602775520927771 17))))),
  .set (.arr .jac 423) (.add (.rd (.arr .jac 423)) (.mul (.num 4005056573545609 16) (.mul (.rd (.var .jTemp)) (.neg (.num 42602775520927771 17))))),
  .set (.arr .jac 424) (.add (.rd (.arr .jac 424)) (.mul (.neg (.num 80101131470912179 17)) (.mul (.rd (.var .jTemp)) (.neg (.num 42602775520927771 17))))),
  .set (.arr .jac 425) (.add (.rd (.arr .jac 425)) (.mul (.num 42573695804545908 17) (.mul (.rd (.var .jTemp)) (.neg (.num 42602775520927771 17)))))]

/-- utilities/mechanisms/drm19/lib/src/jacobs/jacob_0.c:2052-2056 -/
def jacobT22 : List CStmt := [
  .set (.var .jTemp) (.mul (.add (.div (.mul (.neg (.rd (.arr .presMod 3))) (.sub (.rd (.arr .fwd 22)) (.rd (.arr .rev 22)))) (.rd (.var .T))) (.mul (.div (.rd (.arr .presMod 3)) (.rd (.var .T))) (.sub (.add (.mul (.sub (.rd (.arr .fwd 22)) (.rd (.arr .rev 22))) (.neg (.num 1 0))) (.mul (.rd (.arr .fwd 22)) (.neg (.num 1 0)))) (.mul (.rd (.arr .rev 22)) (.mul (.neg (.rd (.var .T))) (.sub (.rd (.arr .dBdT 0)) (.mul (.num 2 0) (.rd (.arr .dBdT 1))))))))) (.rd (.var .rhoInv))),
  .set (.arr .jac 1) (.add (.rd (.arr .jac 1)) (.mul (.rd (.var .jTemp)) (.num 20158800000000001 16))),
  .set (.arr .jac 2) (.add (.rd (.arr .jac 2)) (.mul (.mul (.rd (.var .jTemp)) (.neg (.num 2 0))) (.num 10079400000000001 16)))]

/-- utilities/mechanisms/drm19/lib/src/jacobs/jacob_0.c:2057-2109 -/
def jacobS22 : List CStmt := [
  .ite (.rd (.var .T)) (.num 1000 0) (.var .Kc) (.sub (.add (.add (.num 42320448239999999 16) (.mul (.neg (.num 16556688799999999 16)) (.rd (.var .logT)))) (.mul (.rd (.var .T)) (.add (.num 39902603742946671 19) (.mul (.rd (.var .T)) (.add (.neg (.num 32463584993346931 22)) (.mul (.rd (.var .T)) (.add (.num 16797674496165307 25) (.mul (.neg (.num 36880588040722682 29)) (.rd (.var .T)))))))))) (.div (.neg (.num 51865254972999996 12)) (.rd (.var .T)))) (.sub (.add (.add (.neg (.num 64893666199999966 17)) (.mul (.neg (.num 6627208200000001 16)) (.rd (.var .logT)))) (.mul (.rd (.var .T)) (.add (.neg (.num 24701213465702698 21)) (.mul (.rd (.var .T)) (.add (.num 83242790947935064 24) (.mul (.rd (.var .T)) (.add (.neg (.num 1496386537747461 26)) (.mul (.num 10012768301802643 31) (.rd (.var .T)))))))))) (.div (.neg (.num 51897478722 6)) (.rd (.var .T)))),
  .set (.var .Kc) (.mul (.num 82057360967184814 18) (.exp (.rd (.var .Kc)))),
  .set (.var .presModTemp) (.sub (.rd (.arr .fwd 22)) (.rd (.arr .rev 22))),
  .set (.var .jTemp) (.mul (.mul (.mul (.neg (.rd (.var .mwAvg))) (.rd (.var .rhoInv))) (.rd (.arr .presMod 3))) (.sub (.mul (.num 3 0) (.rd (.arr .fwd 22))) (.mul (.num 2 0) (.rd (.arr .rev 22))))),
  .set (.var .kf) (.exp (.sub (.num 27631021115928547 15) (.mul (.num 1 0) (.rd (.var .logT))))),
  .set (.var .kr) (.div (.rd (.var .kf)) (.rd (.var .Kc))),
  .set (.arr .jac 22) (.add (.rd (.arr .jac 22)) (.add (.add (.mul (.rd (.var .jTemp)) (.num 92803892982949643 17)) (.mul (.neg (.num 71961070170503627 18)) (.rd (.var .presModTemp)))) (.mul (.rd (.arr .presMod 3)) (.neg (.rd (.var .kr)))))),
  .set (.arr .jac 23) (.add (.rd (.arr .jac 23)) (.neg (.add (.add (.mul (.rd (.var .jTemp)) (.num 92803892982949643 17)) (.mul (.neg (.num 71961070170503627 18)) (.rd (.var .presModTemp)))) (.mul (.rd (.arr .presMod 3)) (.neg (.rd (.var .kr))))))),
  .set (.arr .jac 43) (.add (.rd (.arr .jac 43)) (.mul (.num 2 0) (.add (.add (.mul (.rd (.var .jTemp)) (.num 96401946491474821 17)) (.mul (.num 96401946491474821 17) (.rd (.var .presModTemp)))) (.mul (.rd (.arr .presMod 3)) (.mul (.mul (.rd (.var .kf)) (.num 2 0)) (.rd (.arr .C 1))))))),
  .set (.arr .jac 44) (.add (.rd (.arr .jac 44)) (.mul (.neg (.num 2 0)) (.add (.add (.mul (.rd (.var .jTemp)) (.num 96401946491474821 17)) (.mul (.num 96401946491474821 17) (.rd (.var .presModTemp)))) (.mul (.rd (.arr .presMod 3)) (.mul (.mul (.rd (.var .kf)) (.num 2 0)) (.rd (.arr .C 1))))))),
  .set (.arr .jac 64) (.add (.rd (.arr .jac 64)) (.mul (.num 1259972248959336 16) (.add (.mul (.rd (.var .jTemp)) (.num 42886781649405936 17)) (.mul (.num 42886781649405936 17) (.rd (.var .presModTemp)))))),
  .set (.arr .jac 65) (.add (.rd (.arr .jac 65)) (.mul (.neg (.num 1259972248959336 16)) (.add (.mul (.rd (.var .jTemp)) (.num 42886781649405936 17)) (.mul (.num 42886781649405936 17) (.rd (.var .presModTemp)))))),
  .set (.arr .jac 85) (.add (.rd (.arr .jac 85)) (.mul (.num 62998612447966798 18) (.add (.mul (.rd (.var .jTemp)) (.neg (.num 14226436701188128 17))) (.mul (.neg (.num 14226436701188128 17)) (.rd (.var .presModTemp)))))),
  .set (.arr .jac 86) (.add (.rd (.arr .jac 86)) (.mul (.neg (.num 62998612447966798 18)) (.add (.mul (.rd (.var .jTemp)) (.neg (.num 14226436701188128 17))) (.mul (.neg (.num 14226436701188128 17)) (.rd (.var .presModTemp)))))),
  .set (.arr .jac 106) (.add (.rd (.arr .jac 106)) (.mul (.num 11852999940025896 17) (.add (.mul (.rd (.var .jTemp)) (.num 39288728140880758 17)) (.mul (.num 39288728140880758 17) (.rd (.var .presModTemp)))))),
  .set (.arr .jac 107) (.add (.rd (.arr .jac 107)) (.mul (.neg (.num 11852999940025896 17)) (.add (.mul (.rd (.var .jTemp)) (.num 39288728140880758 17)) (.mul (.num 39288728140880758 17) (.rd (.var .presModTemp)))))),
  .set (.arr .jac 127) (.add (.rd (.arr .jac 127)) (.mul (.num 11189834407236524 17) (.add (.mul (.rd (.var .jTemp)) (.num 35690674632355568 17)) (.mul (.neg (.num 64309325367644432 17)) (.rd (.var .presModTemp)))))),
  .set (.arr .jac 128) (.add (.rd (.arr .jac 128)) (.mul (.neg (.num 11189834407236524 17)) (.add (.mul (.rd (.var .jTemp)) (.num 35690674632355568 17)) (.mul (.neg (.num 64309325367644432 17)) (.rd (.var .presModTemp)))))),
  .set (.arr .jac 148) (.add (.rd (.arr .jac 148)) (.mul (.num 61074798662333819 18) (.add (.mul (.rd (.var .jTemp)) (.neg (.num 17824490209713328 17))) (.mul (.neg (.num 17824490209713328 17)) (.rd (.var .presModTemp)))))),
  .set (.arr .jac 149) (.add (.rd (.arr .jac 149)) (.mul (.neg (.num 61074798662333819 18)) (.add (.mul (.rd (.var .jTemp)) (.neg (.num 17824490209713328 17))) (.mul (.neg (.num 17824490209713328 17)) (.rd (.var .presModTemp)))))),
  .set (.arr .jac 169) (.add (.rd (.arr .jac 169)) (.mul (.num 14371549482137155 17) (.add (.mul (.rd (.var .jTemp)) (.num 49928106040377707 17)) (.mul (.num 49928106040377707 17) (.rd (.var .presModTemp)))))),
  .set (.arr .jac 170) (.add (.rd (.arr .jac 170)) (.mul (.neg (.num 14371549482137155 17)) (.add (.mul (.rd (.var .jTemp)) (.num 49928106040377707 17)) (.mul (.num 49928106040377707 17) (.rd (.var .presModTemp)))))),
  .set (.arr .jac 190) (.add (.rd (.arr .jac 190)) (.mul (.num 14371549482137155 17) (.add (.mul (.rd (.var .jTemp)) (.num 49928106040377707 17)) (.mul (.num 49928106040377707 17) (.rd (.var .presModTemp)))))),
  .set (.arr .jac 191) (.add (.rd (.arr .jac 191)) (.mul (.neg (.num 14371549482137155 17)) (.add (.mul (.rd (.var .jTemp)) (.num 49928106040377707 17)) (.mul (.num 49928106040377707 17) (.rd (.var .presModTemp)))))),
  .set (.arr .jac 211) (.add (.rd (.arr .jac 211)) (.mul (.num 13408075387666762 17) (.add (.mul (.rd (.var .jTemp)) (.num 46330052531852528 17)) (.mul (.num 46330052531852528 17) (.rd (.var .presModTemp)))))),
  .set (.arr .jac 212) (.add (.rd (.arr .jac 212)) (.mul (.neg (.num 13408075387666762 17)) (.add (.mul (.rd (.var .jTemp)) (.num 46330052531852528 17)) (.mul (.num 46330052531852528 17) (.rd (.var .presModTemp)))))),
  .set (.arr .jac 232) (.add (.rd (.arr .jac 232)) (.mul (.num 12565668251597606 17) (.add (.mul (.rd (.var .jTemp)) (.num 42731999023327338 17)) (.mul (.num 14273199902332734 16) (.rd (.var .presModTemp)))))),
  .set (.arr .jac 233) (.add (.rd (.arr .jac 233)) (.mul (.neg (.num 12565668251597606 17)) (.add (.mul (.rd (.var .jTemp)) (.num 42731999023327338 17)) (.mul (.num 14273199902332734 16) (.rd (.var .presModTemp)))))),
  .set (.arr .jac 253) (.add (.rd (.arr .jac 253)) (.mul (.num 7196898294919031 17) (.add (.mul (.rd (.var .jTemp)) (.num 10994706834011048 20)) (.mul (.num 10994706834011048 20) (.rd (.var .presModTemp)))))),
  .set (.arr .jac 254) (.add (.rd (.arr .jac 254)) (.mul (.neg (.num 7196898294919031 17)) (.add (.mul (.rd (.var .jTemp)) (.num 10994706834011048 20)) (.mul (.num 10994706834011048 20) (.rd (.var .presModTemp)))))),
  .set (.arr .jac 274) (.add (.rd (.arr .jac 274)) (.mul (.num 45805252466496103 18) (.add (.mul (.rd (.var .jTemp)) (.neg (.num 57102223643760053 17))) (.mul (.neg (.num 15710222364376005 16)) (.rd (.var .presModTemp)))))),
  .set (.arr .jac 275) (.add (.rd (.arr .jac 275)) (.mul (.neg (.num 45805252466496103 18)) (.add (.mul (.rd (.var .jTemp)) (.neg (.num 57102223643760053 17))) (.mul (.neg (.num 15710222364376005 16)) (.rd (.var .presModTemp)))))),
  .set (.arr .jac 295) (.add (.rd (.arr .jac 295)) (.mul (.num 69469170186854251 18) (.add (.mul (.rd (.var .jTemp)) (.neg (.num 35870588016911675 18))) (.mul (.neg (.num 35870588016911675 18)) (.rd (.var .presModTemp)))))),
  .set (.arr .jac 296) (.add (.rd (.arr .jac 296)) (.mul (.neg (.num 69469170186854251 18)) (.add (.mul (.rd (.var .jTemp)) (.neg (.num 35870588016911675 18))) (.mul (.neg (.num 35870588016911675 18)) (.rd (.var .presModTemp)))))),
  .set (.arr .jac 316) (.add (.rd (.arr .jac 316)) (.mul (.num 67137187823466643 18) (.add (.mul (.rd (.var .jTemp)) (.neg (.num 71851123102163683 18))) (.mul (.neg (.num 71851123102163683 18)) (.rd (.var .presModTemp)))))),
  .set (.arr .jac 317) (.add (.rd (.arr .jac 317)) (.mul (.neg (.num 67137187823466643 18)) (.add (.mul (.rd (.var .jTemp)) (.neg (.num 71851123102163683 18))) (.mul (.neg (.num 71851123102163683 18)) (.rd (.var .presModTemp)))))),
  .set (.arr .jac 337) (.add (.rd (.arr .jac 337)) (.mul (.num 64956683299918619 18) (.add (.mul (.rd (.var .jTemp)) (.neg (.num 10783165818741525 17))) (.mul (.neg (.num 10783165818741525 17)) (.rd (.var .presModTemp)))))),
  .set (.arr .jac 338) (.add (.rd (.arr .jac 338)) (.mul (.neg (.num 64956683299918619 18)) (.add (.mul (.rd (.var .jTemp)) (.neg (.num 10783165818741525 17))) (.mul (.neg (.num 10783165818741525 17)) (.rd (.var .presModTemp)))))),
  .set (.arr .jac 358) (.add (.rd (.arr .jac 358)) (.mul (.num 71857747410685777 18) (.add (.mul (.rd (.var .jTemp)) (.neg (.num 14378791924458678 19))) (.mul (.neg (.num 14378791924458678 19)) (.rd (.var .presModTemp)))))),
  .set (.arr .jac 359) (.add (.rd (.arr .jac 359)) (.mul (.neg (.num 71857747410685777 18)) (.add (.mul (.rd (.var .jTemp)) (.neg (.num 14378791924458678 19))) (.mul (.neg (.num 14378791924458678 19)) (.rd (.var .presModTemp)))))),
  .set (.arr .jac 379) (.add (.rd (.arr .jac 379)) (.mul (.num 6936552231975418 17) (.add (.mul (.rd (.var .jTemp)) (.neg (.num 37418414277697654 18))) (.mul (.neg (.num 37418414277697654 18)) (.rd (.var .presModTemp)))))),
  .set (.arr .jac 380) (.add (.rd (.arr .jac 380)) (.mul (.neg (.num 6936552231975418 17)) (.add (.mul (.rd (.var .jTemp)) (.neg (.num 37418414277697654 18))) (.mul (.neg (.num 37418414277697654 18)) (.rd (.var .presModTemp)))))),
  .set (.arr .jac 400) (.add (.rd (.arr .jac 400)) (.mul (.num 67040376938333812 18) (.add (.mul (.rd (.var .jTemp)) (.neg (.num 73398949362949439 18))) (.mul (.num 19266010506370506 16) (.rd (.var .presModTemp)))))),
  .set (.arr .jac 401) (.add (.rd (.arr .jac 401)) (.mul (.neg (.num 67040376938333812 18)) (.add (.mul (.rd (.var .jTemp)) (.neg (.num 73398949362949439 18))) (.mul (.num 19266010506370506 16) (.rd (.var .presModTemp)))))),
  .set (.arr .jac 421) (.add (.rd (.arr .jac 421)) (.mul (.num 5046260138179634 17) (.add (.mul (.rd (.var .jTemp)) (.neg (.num 42602775520927771 17))) (.mul (.neg (.num 79602775520927771 17)) (.rd (.var .presModTemp)))))),
  .set (.arr .jac 422) (.add (.rd (.arr .jac 422)) (.mul (.neg (.num 5046260138179634 17)) (.add (.mul (.rd (.var .jTemp)) (.neg (.num 42602775520927771 17))) (.mul (.neg (.num 79602775520927771 17)) (.rd (.var .presModTemp))))))]

/-- utilities/mechanisms/drm19/lib/src/jacobs/jacob_0.c:2110-2114 -/
def jacobT23 : List CStmt := [
  .set (.var .jTemp) (.mul (.mul (.div (.num 1 0) (.rd (.var .T))) (.sub (.add (.mul (.sub (.rd (.arr .fwd 23)) (.rd (.arr .rev 23))) (.neg (.num 59999999999999998 17))) (.mul (.rd (.arr .fwd 23)) (.neg (.num 2 0)))) (.mul (.rd (.arr .rev 23)) (.add (.neg (.num 1 0)) (.mul (.neg (.rd (.var .T))) (.sub (.rd (.arr .dBdT 0)) (.mul (.num 2 0) (.rd (.arr .dBdT 1))))))))) (.rd (.var .rhoInv))),
  .set (.arr .jac 1) (.add (.rd (.arr .jac 1)) (.mul (.rd (.var .jTemp)) (.num 20158800000000001 16))),
  .set (.arr .jac 2) (.add (.rd (.arr .jac 2)) (.mul (.mul (.rd (.var .jTemp)) (.neg (.num 2 0))) (.num 10079400000000001 16)))]

/-- utilities/mechanisms/drm19/lib/src/jacobs/jacob_0.c:2115-2166 -/
def jacobS23 : List CStmt := [
  .ite (.rd (.var .T)) (.num 1000 0) (.var .Kc) (.sub (.add (.add (.num 42320448239999999 16) (.mul (.neg (.num 16556688799999999 16)) (.rd (.var .logT)))) (.mul (.rd (.var .T)) (.add (.num 39902603742946671 19) (.mul (.rd (.var .T)) (.add (.neg (.num 32463584993346931 22)) (.mul (.rd (.var .T)) (.add (.num 16797674496165307 25) (.mul (.neg (.num 36880588040722682 29)) (.rd (.var .T)))))))))) (.div (.neg (.num 51865254972999996 12)) (.rd (.var .T)))) (.sub (.add (.add (.neg (.num 64893666199999966 17)) (.mul (.neg (.num 6627208200000001 16)) (.rd (.var .logT)))) (.mul (.rd (.var .T)) (.add (.neg (.num 24701213465702698 21)) (.mul (.rd (.var .T)) (.add (.num 83242790947935064 24) (.mul (.rd (.var .T)) (.add (.neg (.num 1496386537747461 26)) (.mul (.num 10012768301802643 31) (.rd (.var .T)))))))))) (.div (.neg (.num 51897478722 6)) (.rd (.var .T)))),
  .set (.var .Kc) (.mul (.num 82057360967184814 18) (.exp (.rd (.var .Kc)))),
  .set (.var .jTemp) (.mul (.mul (.neg (.rd (.var .mwAvg))) (.rd (.var .rhoInv))) (.sub (.mul (.num 3 0) (.rd (.arr .fwd 23))) (.mul (.num 2 0) (.rd (.arr .rev 23))))),
  .set (.var .kf) (.exp (.sub (.num 25223075507276675 15) (.mul (.num 6 1) (.rd (.var .logT))))),
  .set (.var .kr) (.div (.rd (.var .kf)) (.rd (.var .Kc))),
  .set (.arr .jac 22) (.add (.rd (.arr .jac 22)) (.sub (.add (.mul (.rd (.var .jTemp)) (.num 92803892982949643 17)) (.mul (.mul (.rd (.var .kf)) (.rd (.arr .C 1))) (.rd (.arr .C 1)))) (.mul (.mul (.rd (.var .kr)) (.num 2 0)) (.rd (.arr .C 0))))),
  .set (.arr .jac 23) (.add (.rd (.arr .jac 23)) (.neg (.sub (.add (.mul (.rd (.var .jTemp)) (.num 92803892982949643 17)) (.mul (.mul (.rd (.var .kf)) (.rd (.arr .C 1))) (.rd (.arr .C 1)))) (.mul (.mul (.rd (.var .kr)) (.num 2 0)) (.rd (.arr .C 0)))))),
  .set (.arr .jac 43) (.add (.rd (.arr .jac 43)) (.mul (.num 2 0) (.add (.mul (.rd (.var .jTemp)) (.num 96401946491474821 17)) (.mul (.mul (.mul (.rd (.var .kf)) (.num 2 0)) (.rd (.arr .C 1))) (.rd (.arr .C 0)))))),
  .set (.arr .jac 44) (.add (.rd (.arr .jac 44)) (.mul (.neg (.num 2 0)) (.add (.mul (.rd (.var .jTemp)) (.num 96401946491474821 17)) (.mul (.mul (.mul (.rd (.var .kf)) (.num 2 0)) (.rd (.arr .C 1))) (.rd (.arr .C 0)))))),
  .set (.arr .jac 64) (.add (.rd (.arr .jac 64)) (.mul (.num 1259972248959336 16) (.mul (.rd (.var .jTemp)) (.num 42886781649405936 17)))),
  .set (.arr .jac 65) (.add (.rd (.arr .jac 65)) (.mul (.neg (.num 1259972248959336 16)) (.mul (.rd (.var .jTemp)) (.num 42886781649405936 17)))),
  .set (.arr .jac 85) (.add (.rd (.arr .jac 85)) (.mul (.num 62998612447966798 18) (.mul (.rd (.var .jTemp)) (.neg (.num 14226436701188128 17))))),
  .set (.arr .jac 86) (.add (.rd (.arr .jac 86)) (.mul (.neg (.num 62998612447966798 18)) (.mul (.rd (.var .jTemp)) (.neg (.num 14226436701188128 17))))),
  .set (.arr .jac 106) (.add (.rd (.arr .jac 106)) (.mul (.num 11852999940025896 17) (.mul (.rd (.var .jTemp)) (.num 39288728140880758 17)))),
  .set (.arr .jac 107) (.add (.rd (.arr .jac 107)) (.mul (.neg (.num 11852999940025896 17)) (.mul (.rd (.var .jTemp)) (.num 39288728140880758 17)))),
  .set (.arr .jac 127) (.add (.rd (.arr .jac 127)) (.mul (.num 11189834407236524 17) (.mul (.rd (.var .jTemp)) (.num 35690674632355568 17)))),
  .set (.arr .jac 128) (.add (.rd (.arr .jac 128)) (.mul (.neg (.num 11189834407236524 17)) (.mul (.rd (.var .jTemp)) (.num 35690674632355568 17)))),
  .set (.arr .jac 148) (.add (.rd (.arr .jac 148)) (.mul (.num 61074798662333819 18) (.mul (.rd (.var .jTemp)) (.neg (.num 17824490209713328 17))))),
  .set (.arr .jac 149) (.add (.rd (.arr .jac 149)) (.mul (.neg (.num 61074798662333819 18)) (.mul (.rd (.var .jTemp)) (.neg (.num 17824490209713328 17))))),
  .set (.arr .jac 169) (.add (.rd (.arr .jac 169)) (.mul (.num 14371549482137155 17) (.mul (.rd (.var .jTemp)) (.num 49928106040377707 17)))),
  .set (.arr .jac 170) (.add (.rd (.arr .jac 170)) (.mul (.neg (.num 14371549482137155 17)) (.mul (.rd (.var .jTemp)) (.num 49928106040377707 17)))),
  .set (.arr .jac 190) (.add (.rd (.arr .jac 190)) (.mul (.num 14371549482137155 17) (.mul (.rd (.var .jTemp)) (.num 49928106040377707 17)))),
  .set (.arr .jac 191) (.add (.rd (.arr .jac 191)) (.mul (.neg (.num 14371549482137155 17)) (.mul (.rd (.var .jTemp)) (.num 49928106040377707 17)))),
  .set (.arr .jac 211) (.add (.rd (.arr .jac 211)) (.mul (.num 13408075387666762 17) (.mul (.rd (.var .jTemp)) (.num 46330052531852528 17)))),
  .set (.arr .jac 212) (.add (.rd (.arr .jac 212)) (.mul (.neg (.num 13408075387666762 17)) (.mul (.rd (.var .jTemp)) (.num 46330052531852528 17)))),
  .set (.arr .jac 232) (.add (.rd (.arr .jac 232)) (.mul (.num 12565668251597606 17) (.mul (.rd (.var .jTemp)) (.num 42731999023327338 17)))),
  .set (.arr .jac 233) (.add (.rd (.arr .jac 233)) (.mul (.neg (.num 12565668251597606 17)) (.mul (.rd (.var .jTemp)) (.num 42731999023327338 17)))),
  .set (.arr .jac 253) (.add (.rd (.arr .jac 253)) (.mul (.num 7196898294919031 17) (.mul (.rd (.var .jTemp)) (.num 10994706834011048 20)))),
  .set (.arr .jac 254) (.add (.rd (.arr .jac 254)) (.mul (.neg (.num 7196898294919031 17)) (.mul (.rd (.var .jTemp)) (.num 10994706834011048 20)))),
  .set (.arr .jac 274) (.add (.rd (.arr .jac 274)) (.mul (.num 45805252466496103 18) (.mul (.rd (.var .jTemp)) (.neg (.num 57102223643760053 17))))),
  .set (.arr .jac 275) (.add (.rd (.arr .jac 275)) (.mul (.neg (.num 45805252466496103 18)) (.mul (.rd (.var .jTemp)) (.neg (.num 57102223643760053 17))))),
  .set (.arr .jac 295) (.add (.rd (.arr .jac 295)) (.mul (.num 69469170186854251 18) (.mul (.rd (.var .jTemp)) (.neg (.num 35870588016911675 18))))),
  .set (.arr .jac 296) (.add (.rd (.arr .jac 296)) (.mul (.neg (.num 69469170186854251 18)) (.mul (.rd (.var .jTemp)) (.neg (.num 35870588016911675 18))))),
  .set (.arr .jac 316) (.add (.rd (.arr .jac 316)) (.mul (.num 67137187823466643 18) (.mul (.rd (.var .jTemp)) (.neg (.num 71851123102163683 18))))),
  .set (.arr .jac 317) (.add (.rd (.arr .jac 317)) (.mul (.neg (.num 67137187823466643 18)) (.mul (.rd (.var .jTemp)) (.neg (.num 71851123102163683 18))))),
  .set (.arr .jac 337) (.add (.rd (.arr .jac 337)) (.mul (.num 64956683299918619 18) (.mul (.rd (.var .jTemp)) (.neg (.num 10783165818741525 17))))),
  .set (.arr .jac 338) (.add (.rd (.arr .jac 338)) (.mul (.neg (.num 64956683299918619 18)) (.mul (.rd (.var .jTemp)) (.neg (.num 10783165818741525 17))))),
  .set (.arr .jac 358) (.add (.rd (.arr .jac 358)) (.mul (.num 71857747410685777 18) (.mul (.rd (.var .jTemp)) (.neg (.num 14378791924458678 19))))),
  .set (.arr .jac 359) (.add (.rd (.arr .jac 359)) (.mul (.neg (.num 71857747410685777 18)) (.mul (.rd (.var .jTemp)) (.neg (.num 14378791924458678 19))))),
  .set (.arr .jac 379) (.add (.rd (.arr .jac 379)) (.mul (.num 6936552231975418 17) (.mul (.rd (.var .jTemp)) (.neg (.num 37418414277697654 18))))),
  .set (.arr .jac 380) (.add (.rd (.arr .jac 380)) (.mul (.neg (.num 6936552231975418 17)) (.mul (.rd (.var .jTemp)) (.neg (.num 37418414277697654 18))))),
  .set (.arr .jac 400) (.add (.rd (.arr .jac 400)) (.mul (.num 67040376938333812 18) (.mul (.rd (.var .jTemp)) (.neg (.num 73398949362949439 18))))),
  .set (.arr .jac 401) (.add (.rd (.arr .jac 401)) (.mul (.neg (.num 67040376938333812 18)) (.mul (.rd (.var .jTemp)) (.neg (.num 73398949362949439 18))))),
  .set (.arr .jac 421) (.add (.rd (.arr .jac 421)) (.mul (.num 5046260138179634 17) (.mul (.rd (.var .jTemp)) (.neg (.num 42602775520927771 17))))),
  .set (.arr .jac 422) (.add (.rd (.arr .jac 422)) (.mul (.neg (.num 5046260138179634 17)) (.mul (.rd (.var .jTemp)) (.neg (.num 42602775520927771 17)))))]

/-- utilities/mechanisms/drm19/lib/src/jacobs/jacob_0.c:2167-2171 -/
def jacobT24 : List CStmt := [
  .set (.var .jTemp) (.mul (.mul (.div (.num 1 0) (.rd (.var .T))) (.sub (.add (.mul (.sub (.rd (.arr .fwd 24)) (.rd (.arr .rev 24))) (.neg (.num 125 2))) (.mul (.rd (.arr .fwd 24)) (.neg (.num 2 0)))) (.mul (.rd (.arr .rev 24)) (.add (.neg (.num 1 0)) (.mul (.neg (.rd (.var .T))) (.sub (.rd (.arr .dBdT 0)) (.mul (.num 2 0) (.rd (.arr .dBdT 1))))))))) (.rd (.var .rhoInv))),
  .set (.arr .jac 1) (.add (.rd (.arr .jac 1)) (.mul (.rd (.var .jTemp)) (.num 20158800000000001 16))),
  .set (.arr .jac 2) (.add (.rd (.arr .jac 2)) (.mul (.mul (.rd (.var .jTemp)) (.neg (.num 2 0))) (.num 10079400000000001 16)))]

/-- utilities/mechanisms/drm19/lib/src/jacobs/jacob_0.c:2172-2223 -/
def jacobS24 : List CStmt := [
  .ite (.rd (.var .T)) (.num 1000 0) (.var .Kc) (.sub (.add (.add (.num 42320448239999999 16) (.mul (.neg (.num 16556688799999999 16)) (.rd (.var .logT)))) (.mul (.rd (.var .T)) (.add (.num 39902603742946671 19) (.mul (.rd (.var .T)) (.add (.neg (.num 32463584993346931 22)) (.mul (.rd (.var .T)) (.add (.num 16797674496165307 25) (.mul (.neg (.num 36880588040722682 29)) (.rd (.var .T)))))))))) (.div (.neg (.num 51865254972999996 12)) (.rd (.var .T)))) (.sub (.add (.add (.neg (.num 64893666199999966 17)) (.mul (.neg (.num 6627208200000001 16)) (.rd (.var .logT)))) (.mul (.rd (.var .T)) (.add (.neg (.num 24701213465702698 21)) (.mul (.rd (.var .T)) (.add (.num 83242790947935064 24) (.mul (.rd (.var .T)) (.add (.neg (.num 1496386537747461 26)) (.mul (.num 10012768301802643 31) (.rd (.var .T)))))))))) (.div (.neg (.num 51897478722 6)) (.rd (.var .T)))),
  .set (.var .Kc) (.mul (.num 82057360967184814 18) (.exp (.rd (.var .Kc)))),
  .set (.var .jTemp) (.mul (.mul (.neg (.rd (.var .mwAvg))) (.rd (.var .rhoInv))) (.sub (.mul (.num 3 0) (.rd (.arr .fwd 24))) (.mul (.num 2 0) (.rd (.arr .rev 24))))),
  .set (.var .kf) (.exp (.sub (.num 31725365678150649 15) (.mul (.num 125 2) (.rd (.var .logT))))),
  .set (.var .kr) (.div (.rd (.var .kf)) (.rd (.var .Kc))),
  .set (.arr .jac 22) (.add (.rd (.arr .jac 22)) (.sub (.mul (.rd (.var .jTemp)) (.num 92803892982949643 17)) (.mul (.rd (.var .kr)) (.rd (.arr .C 5))))),
  .set (.arr .jac 23) (.add (.rd (.arr .jac 23)) (.neg (.sub (.mul (.rd (.var .jTemp)) (.num 92803892982949643 17)) (.mul (.rd (.var .kr)) (.rd (.arr .C 5)))))),
  .set (.arr .jac 43) (.add (.rd (.arr .jac 43)) (.mul (.num 2 0) (.add (.mul (.rd (.var .jTemp)) (.num 96401946491474821 17)) (.mul (.mul (.mul (.rd (.var .kf)) (.num 2 0)) (.rd (.arr .C 1))) (.rd (.arr .C 5)))))),
  .set (.arr .jac 44) (.add (.rd (.arr .jac 44)) (.mul (.neg (.num 2 0)) (.add (.mul (.rd (.var .jTemp)) (.num 96401946491474821 17)) (.mul (.mul (.mul (.rd (.var .kf)) (.num 2 0)) (.rd (.arr .C 1))) (.rd (.arr .C 5)))))),
  .set (.arr .jac 64) (.add (.rd (.arr .jac 64)) (.mul (.num 1259972248959336 16) (.mul (.rd (.var .jTemp)) (.num 42886781649405936 17)))),
  .set (.arr .jac 65) (.add (.rd (.arr .jac 65)) (.mul (.neg (.num 1259972248959336 16)) (.mul (.rd (.var .jTemp)) (.num 42886781649405936 17)))),
  .set (.arr .jac 85) (.add (.rd (.arr .jac 85)) (.mul (.num 62998612447966798 18) (.mul (.rd (.var .jTemp)) (.neg (.num 14226436701188128 17))))),
  .set (.arr .jac 86) (.add (.rd (.arr .jac 86)) (.mul (.neg (.num 62998612447966798 18)) (.mul (.rd (.var .jTemp)) (.neg (.num 14226436701188128 17))))),
  .set (.arr .jac 106) (.add (.rd (.arr .jac 106)) (.mul (.num 11852999940025896 17) (.mul (.rd (.var .jTemp)) (.num 39288728140880758 17)))),
  .set (.arr .jac 107) (.add (.rd (.arr .jac 107)) (.mul (.neg (.num 11852999940025896 17)) (.mul (.rd (.var .jTemp)) (.num 39288728140880758 17)))),
  .set (.arr .jac 127) (.add (.rd (.arr .jac 127)) (.mul (.num 11189834407236524 17) (.sub (.add (.mul (.rd (.var .jTemp)) (.num 35690674632355568 17)) (.mul (.mul (.rd (.var .kf)) (.rd (.arr .C 1))) (.rd (.arr .C 1)))) (.mul (.rd (.var .kr)) (.rd (.arr .C 0)))))),
  .set (.arr .jac 128) (.add (.rd (.arr .jac 128)) (.mul (.neg (.num 11189834407236524 17)) (.sub (.add (.mul (.rd (.var .jTemp)) (.num 35690674632355568 17)) (.mul (.mul (.rd (.var .kf)) (.rd (.arr .C 1))) (.rd (.arr .C 1)))) (.mul (.rd (.var .kr)) (.rd (.arr .C 0)))))),
  .set (.arr .jac 148) (.add (.rd (.arr .jac 148)) (.mul (.num 61074798662333819 18) (.mul (.rd (.var .jTemp)) (.neg (.num 17824490209713328 17))))),
  .set (.arr .jac 149) (.add (.rd (.arr .jac 149)) (.mul (.neg (.num 61074798662333819 18)) (.mul (.rd (.var .jTemp)) (.neg (.num 17824490209713328 17))))),
  .set (.arr .jac 169) (.add (.rd (.arr .jac 169)) (.mul (.num 14371549482137155 17) (.mul (.rd (.var .jTemp)) (.num 49928106040377707 17)))),
  .set (.arr .jac 170) (.add (.rd (.arr .jac 170)) (.mul (.neg (.num 14371549482137155 17)) (.mul (.rd (.var .jTemp)) (.num 49928106040377707 17)))),
  .set (.arr .jac 190) (.add (.rd (.arr .jac 190)) (.mul (.num 14371549482137155 17) (.mul (.rd (.var .jTemp)) (.num 49928106040377707 17)))),
  .set (.arr .jac 191) (.add (.rd (.arr .jac 191)) (.mul (.neg (.num 14371549482137155 17)) (.mul (.rd (.var .jTemp)) (.num 49928106040377707 17)))),
  .set (.arr .jac 211) (.add (.rd (.arr .jac 211)) (.mul (.num 13408075387666762 17) (.mul (.rd (.var .jTemp)) (.num 46330052531852528 17)))),
  .set (.arr .jac 212) (.add (.rd (.arr .jac 212)) (.mul (.neg (.num 13408075387666762 17)) (.mul (.rd (.var .jTemp)) (.num 46330052531852528 17)))),
  .set (.arr .jac 232) (.add (.rd (.arr .jac 232)) (.mul (.num 12565668251597606 17) (.mul (.rd (.var .jTemp)) (.num 42731999023327338 17)))),
  .set (.arr .jac 233) (.add (.rd (.arr .jac 233)) (.mul (.neg (.num 12565668251597606 17)) (.mul (.rd (.var .jTemp)) (.num 42731999023327338 17)))),
  .set (.arr .jac 253) (.add (.rd (.arr .jac 253)) (.mul (.num 7196898294919031 17) (.mul (.rd (.var .jTemp)) (.num 10994706834011048 20)))),
  .set (.arr .jac 254) (.add (.rd (.arr .jac 254)) (.mul (.neg (.num 7196898294919031 17)) (.mul (.rd (.var .jTemp)) (.num 10994706834011048 20)))),
  .set (.arr .jac 274) (.add (.rd (.arr .jac 274)) (.mul (.num 45805252466496103 18) (.mul (.rd (.var .jTemp)) (.neg (.num 57102223643760053 17))))),
  .set (.arr .jac 275) (.add (.rd (.arr .jac 275)) (.mul (.neg (.num 45805252466496103 18)) (.mul (.rd (.var .jTemp)) (.neg (.num 57102223643760053 17))))),
  .set (.arr .jac 295) (.add (.rd (.arr .jac 295)) (.mul (.num 69469170186854251 18) (.mul (.rd (.var .jTemp)) (.neg (.num 35870588016911675 18))))),
  .set (.arr .jac 296) (.add (.rd (.arr .jac 296)) (.mul (.neg (.num 69469170186854251 18)) (.mul (.rd (.var .jTemp)) (.neg (.num 35870588016911675 18))))),
  .set (.arr .jac 316) (.add (.rd (.arr .jac 316)) (.mul (.num 67137187823466643 18) (.mul (.rd (.var .jTemp)) (.neg (.num 71851123102163683 18))))),
  .set (.arr .jac 317) (.add (.rd (.arr .jac 317)) (.mul (.neg (.num 67137187823466643 18)) (.mul (.rd (.var .jTemp)) (.neg (.num 71851123102163683 18))))),
  .set (.arr .jac 337) (.add (.rd (.arr .jac 337)) (.mul (.num 64956683299918619 18) (.mul (.rd (.var .jTemp)) (.neg (.num 10783165818741525 17))))),
  .set (.arr .jac 338) (.add (.rd (.arr .jac 338)) (.mul (.neg (.num 64956683299918619 18)) (.mul (.rd (.var .jTemp)) (.neg (.num 10783165818741525 17))))),
  .set (.arr .jac 358) (.add (.rd (.arr .jac 358)) (.mul (.num 71857747410685777 18) (.mul (.rd (.var .jTemp)) (.neg (.num 14378791924458678 19))))),
  .set (.arr .jac 359) (.add (.rd (.arr .jac 359)) (.mul (.neg (.num 71857747410685777 18)) (.mul (.rd (.var .jTemp)) (.neg (.num 14378791924458678 19))))),
  .set (.arr .jac 379) (.add (.rd (.arr .jac 379)) (.mul (.num 6936552231975418 17) (.mul (.rd (.var .jTemp)) (.neg (.num 37418414277697654 18))))),
  .set (.arr .jac 380) (.add (.rd (.arr .jac 380)) (.mul (.neg (.num 6936552231975418 17)) (.mul (.rd (.var .jTemp)) (.neg (.num 37418414277697654 18))))),
  .set (.arr .jac 400) (.add (.rd (.arr .jac 400)) (.mul (.num 67040376938333812 18) (.mul (.rd (.var .jTemp)) (.neg (.num 73398949362949439 18))))),
  .set (.arr .jac 401) (.add (.rd (.arr .jac 401)) (.mul (.neg (.num 67040376938333812 18)) (.mul (.rd (.var .jTemp)) (.neg (.num 73398949362949439 18))))),
  .set (.arr .jac 421) (.add (.rd (.arr .jac 421)) (.mul (.num 5046260138179634 17) (.mul (.rd (.var .jTemp)) (.neg (.num 42602775520927771 17))))),
  .set (.arr .jac 422) (.add (.rd (.arr .jac 422)) (.mul (.neg (.num 5046260138179634 17)) (.mul (.rd (.var .jTemp)) (.neg (.num 42602775520927771 17)))))]

/-- utilities/mechanisms/drm19/lib/src/jacobs/jacob_0.c:2224-2228 -/
def jacobT25 : List CStmt := [
  .set (.var .jTemp) (.mul (.mul (.div (.num 1 0) (.rd (.var .T))) (.sub (.add (.mul (.sub (.rd (.arr .fwd 25)) (.rd (.arr .rev 25))) (.neg (.num 2 0))) (.mul (.rd (.arr .fwd 25)) (.neg (.num 2 0)))) (.mul (.rd (.arr .rev 25)) (.add (.neg (.num 1 0)) (.mul (.neg (.rd (.var .T))) (.sub (.rd (.arr .dBdT 0)) (.mul (.num 2 0) (.rd (.arr .dBdT 1))))))))) (.rd (.var .rhoInv))),
  .set (.arr .jac 1) (.add (.rd (.arr .jac 1)) (.mul (.rd (.var .jTemp)) (.num 20158800000000001 16))),
  .set (.arr .jac 2) (.add (.rd (.arr .jac 2)) (.mul (.mul (.rd (.var .jTemp)) (.neg (.num 2 0))) (.num 10079400000000001 16)))]

/-- utilities/mechanisms/drm19/lib/src/jacobs/jacob_0.c:2229-2280 -/
def jacobS25 : List CStmt := [
  .ite (.rd (.var .T)) (.num 1000 0) (.var .Kc) (.sub (.add (.add (.num 42320448239999999 16) (.mul (.neg (.num 16556688799999999 16)) (.rd (.var .logT)))) (.mul (.rd (.var .T)) (.add (.num 39902603742946671 19) (.mul (.rd (.var .T)) (.add (.neg (.num 32463584993346931 22)) (.mul (.rd (.var .T)) (.add (.num 16797674496165307 25) (.mul (.neg (.num 36880588040722682 29)) (.rd (.var .T)))))))))) (.div (.neg (.num 51865254972999996 12)) (.rd (.var .T)))) (.sub (.add (.add (.neg (.num 64893666199999966 17)) (.mul (.neg (.num 6627208200000001 16)) (.rd (.var .logT)))) (.mul (.rd (.var .T)) (.add (.neg (.num 24701213465702698 21)) (.mul (.rd (.var .T)) (.add (.num 83242790947935064 24) (.mul (.rd (.var .T)) (.add (.neg (.num 1496386537747461 26)) (.mul (.num 10012768301802643 31) (.rd (.var .T)))))))))) (.div (.neg (.num 51897478722 6)) (.rd (.var .T)))),
  .set (.var .Kc) (.mul (.num 82057360967184814 18) (.exp (.rd (.var .Kc)))),
  .set (.var .jTemp) (.mul (.mul (.neg (.rd (.var .mwAvg))) (.rd (.var .rhoInv))) (.sub (.mul (.num 3 0) (.rd (.arr .fwd 25))) (.mul (.num 2 0) (.rd (.arr .rev 25))))),
  .set (.var .kf) (.exp (.sub (.num 33940939394155066 15) (.mul (.num 2 0) (.rd (.var .logT))))),
  .set (.var .kr) (.div (.rd (.var .kf)) (.rd (.var .Kc))),
  .set (.arr .jac 22) (.add (.rd (.arr .jac 22)) (.sub (.mul (.rd (.var .jTemp)) (.num 92803892982949643 17)) (.mul (.rd (.var .kr)) (.rd (.arr .C 12))))),
  .set (.arr .jac 23) (.add (.rd (.arr .jac 23)) (.neg (.sub (.mul (.rd (.var .jTemp)) (.num 92803892982949643 17)) (.mul (.rd (.var .kr)) (.rd (.arr .C 12)))))),
  .set (.arr .jac 43) (.add (.rd (.arr .jac 43)) (.mul (.num 2 0) (.add (.mul (.rd (.var .jTemp)) (.num 96401946491474821 17)) (.mul (.mul (.mul (.rd (.var .kf)) (.num 2 0)) (.rd (.arr .C 1))) (.rd (.arr .C 12)))))),
  .set (.arr .jac 44) (.add (.rd (.arr .jac 44)) (.mul (.neg (.num 2 0)) (.add (.mul (.rd (.var .jTemp)) (.num 96401946491474821 17)) (.mul (.mul (.mul (.rd (.var .kf)) (.num 2 0)) (.rd (.arr .C 1))) (.rd (.arr .C 12)))))),
  .set (.arr .jac 64) (.add (.rd (.arr .jac 64)) (.mul (.num 1259972248959336 16) (.mul (.rd (.var .jTemp)) (.num 42886781649405936 17)))),
  .set (.arr .jac 65) (.add (.rd (.arr .jac 65)) (.mul (.neg (.num 1259972248959336 16)) (.mul (.rd (.var .jTemp)) (.num 42886781649405936 17)))),
  .set (.arr .jac 85) (.add (.rd (.arr .jac 85)) (.mul (.num 62998612447966798 18) (.mul (.rd (.var .jTemp)) (.neg (.num 14226436701188128 17))))),
  .set (.arr .jac 86) (.add (.rd (.arr .jac 86)) (.mul (.neg (.num 62998612447966798 18)) (.mul (.rd (.var .jTemp)) (.neg (.num 14226436701188128 17))))),
  .set (.arr .jac 106) (.add (.rd (.arr .jac 106)) (.mul (.num 11852999940025896 17) (.mul (.rd (.var .jTemp)) (.num 39288728140880758 17)))),
  .set (.arr .jac 107) (.add (.rd (.arr .jac 107)) (.mul (.neg (.num 11852999940025896 17)) (.mul (.rd (.var .jTemp)) (.num 39288728140880758 17)))),
  .set (.arr .jac 127) (.add (.rd (.arr .jac 127)) (.mul (.num 11189834407236524 17) (.mul (.rd (.var .jTemp)) (.num 35690674632355568 17)))),
  .set (.arr .jac 128) (.add (.rd (.arr .jac 128)) (.mul (.neg (.num 11189834407236524 17)) (.mul (.rd (.var .jTemp)) (.num 35690674632355568 17)))),
  .set (.arr .jac 148) (.add (.rd (.arr .jac 148)) (.mul (.num 61074798662333819 18) (.mul (.rd (.var .jTemp)) (.neg (.num 17824490209713328 17))))),
  .set (.arr .jac 149) (.add (.rd (.arr .jac 149)) (.mul (.neg (.num 61074798662333819 18)) (.mul (.rd (.var .jTemp)) (.neg (.num 17824490209713328 17))))),
  .set (.arr .jac 169) (.add (.rd (.arr .jac 169)) (.mul (.num 14371549482137155 17) (.mul (.rd (.var .jTemp)) (.num 49928106040377707 17)))),
  .set (.arr .jac 170) (.add (.rd (.arr .jac 170)) (.mul (.neg (.num 14371549482137155 17)) (.mul (.rd (.var .jTemp)) (.num 49928106040377707 17)))),
  .set (.arr .jac 190) (.add (.rd (.arr .jac 190)) (.mul (.num 14371549482137155 17) (.mul (.rd (.var .jTemp)) (.num 49928106040377707 17)))),
  .set (.arr .jac 191) (.add (.rd (.arr .jac 191)) (.mul (.neg (.num 14371549482137155 17)) (.mul (.rd (.var .jTemp)) (.num 49928106040377707 17)))),
  .set (.arr .jac 211) (.add (.rd (.arr .jac 211)) (.mul (.num 13408075387666762 17) (.mul (.rd (.var .jTemp)) (.num 46330052531852528 17)))),
  .set (.arr .jac 212) (.add (.rd (.arr .jac 212)) (.mul (.neg (.num 13408075387666762 17)) (.mul (.rd (.var .jTemp)) (.num 46330052531852528 17)))),
  .set (.arr .jac 232) (.add (.rd (.arr .jac 232)) (.mul (.num 12565668251597606 17) (.mul (.rd (.var .jTemp)) (.num 42731999023327338 17)))),
  .set (.arr .jac 233) (.add (.rd (.arr .jac 233)) (.mul (.neg (.num 12565668251597606 17)) (.mul (.rd (.var .jTemp)) (.num 42731999023327338 17)))),
  .set (.arr .jac 253) (.add (.rd (.arr .jac 253)) (.mul (.num 7196898294919031 17) (.mul (.rd (.var .jTemp)) (.num 10994706834011048 20)))),
  .set (.arr .jac 254) (.add (.rd (.arr .jac 254)) (.mul (.neg (.num 7196898294919031 17)) (.mul (.rd (.var .jTemp)) (.num 10994706834011048 20)))),
  .set (.arr .jac 274) (.add (.rd (.arr .jac 274)) (.mul (.num 45805252466496103 18) (.sub (.add (.mul (.rd (.var .jTemp)) (.neg (.num 57102223643760053 17))) (.mul (.mul (.rd (.var .kf)) (.rd (.arr .C 1))) (.rd (.arr .C 1)))) (.mul (.rd (.var .kr)) (.rd (.arr .C 0)))))),
  .set (.arr .jac 275) (.add (.rd (.arr .jac 275)) (.mul (.neg (.num 45805252466496103 18)) (.sub (.add (.mul (.rd (.var .jTemp)) (.neg (.num 57102223643760053 17))) (.mul (.mul (.rd (.var .kf)) (.rd (.arr .C 1))) (.rd (.arr .C 1)))) (.mul (.rd (.var .kr)) (.rd (.arr .C 0)))))),
  .set (.arr .jac 295) (.add (.rd (.arr .jac 295)) (.mul (.num 69469170186854251 18) (.mul (.rd (.var .jTemp)) (.neg (.num 35870588016911675 18))))),
  .set (.arr .jac 296) (.add (.rd (.arr .jac 296)) (.mul (.neg (.num 69469170186854251 18)) (.mul (.rd (.var .jTemp)) (.neg (.num 35870588016911675 18))))),
  .set (.arr .jac 316) (.add (.rd (.arr .jac 316)) (.mul (.num 67137187823466643 18) (.mul (.rd (.var .jTemp)) (.neg (.num 71851123102163683 18))))),
  .set (.arr .jac 317) (.add (.rd (.arr .jac 317)) (.mul (.neg (.num 67137187823466643 18)) (.mul (.rd (.var .jTemp)) (.neg (.num 71851123102163683 18))))),
  .set (.arr .jac 337) (.add (.rd (.arr .jac 337)) (.mul (.num 64956683299918619 18) (.mul (.rd (.var .jTemp)) (.neg (.num 10783165818741525 17))))),
  .set (.arr .jac 338) (.add (.rd (.arr .jac 338)) (.mul (.neg (.num 64956683299918619 18)) (.mul (.rd (.var .jTemp)) (.neg (.num 10783165818741525 17))))),
  .set (.arr .jac 358) (.add (.rd (.arr .jac 358)) (.mul (.num 71857747410685777 18) (.mul (.rd (.var .jTemp)) (.neg (.num 14378791924458678 19))))),
  .set (.arr .jac 359) (.add (.rd (.arr .jac 359)) (.mul (.neg (.num 71857747410685777 18)) (.mul (.rd (.var .jTemp)) (.neg (.num 14378791924458678 19))))),
  .set (.arr .jac 379) (.add (.rd (.arr .jac 379)) (.mul (.num 6936552231975418 17) (.mul (.rd (.var .jTemp)) (.neg (.num 37418414277697654 18))))),
  .set (.arr .jac 380) (.add (.rd (.arr .jac 380)) (.mul (.neg (.num 6936552231975418 17)) (.mul (.rd (.var .jTemp)) (.neg (.num 37418414277697654 18))))),
  .set (.arr .jac 400) (.add (.rd (.arr .jac 400)) (.mul (.num 67040376938333812 18) (.mul (.rd (.var .jTemp)) (.neg (.num 73398949362949439 18))))),
  .set (.arr .jac 401) (.add (.rd (.arr .jac 401)) (.mul (.neg (.num 67040376938333812 18)) (.mul (.rd (.var .jTemp)) (.neg (.num 73398949362949439 18))))),
  .set (.arr .jac 421) (.add (.rd (.arr .jac 421)) (.mul (.num 5046260138179634 17) (.mul (.rd (.var .jTemp)) (.neg (.num 42602775520927771 17))))),
  .set (.arr .jac 422) (.add (.rd (.arr .jac 422)) (.mul (.neg (.num 5046260138179634 17)) (.mul (.rd (.var .jTemp)) (.neg (.num 42602775520927771 17)))))]

/-- utilities/mechanisms/drm19/lib/src/jacobs/jacob_0.c:2281-2286 -/
def jacobT26 : List CStmt := [
  .set (.var .jTemp) (.mul (.add (.div (.mul (.neg (.rd (.arr .presMod 4))) (.sub (.rd (.arr .fwd 26)) (.rd (.arr .rev 26)))) (.rd (.var .T))) (.mul (.div (.rd (.arr .presMod 4)) (.rd (.var .T))) (.sub (.add (.mul (.sub (.rd (.arr .fwd 26)) (.rd (.arr .rev 26))) (.neg (.num 2 0))) (.mul (.rd (.arr .fwd 26)) (.neg (.num 1 0)))) (.mul (.rd (.arr .rev 26)) (.mul (.neg (.rd (.var .T))) (.sub (.sub (.rd (.arr .dBdT 5)) (.rd (.arr .dBdT 1))) (.rd (.arr .dBdT 4)))))))) (.rd (.var .rhoInv))),
  .set (.arr .jac 2) (.add (.rd (.arr .jac 2)) (.mul (.neg (.rd (.var .jTemp))) (.num 10079400000000001 16))),
  .set (.arr .jac 5) (.add (.rd (.arr .jac 5)) (.mul (.neg (.rd (.var .jTemp))) (.num 17007339999999999 15))),
  .set (.arr .jac 6) (.mul (.rd (.var .jTemp)) (.num 18015280000000001 15))]

/-- utilities/mechanisms/drm19/lib/src/jacobs/jacob_0.c:2287-2359 -/
def jacobS26 : List CStmt := [
  .ite (.rd (.var .T)) (.num 1000 0) (.var .Kc) (.sub (.add (.add (.num 19949509729999999 16) (.mul (.neg (.num 12933748700000001 16)) (.rd (.var .logT)))) (.mul (.rd (.var .T)) (.add (.num 1824417096473335 19) (.mul (.rd (.var .T)) (.add (.num 31707728366598661 23) (.mul (.rd (.var .T)) (.add (.neg (.num 13390310769173469 26)) (.mul (.num 20393173546386613 30) (.rd (.var .T)))))))))) (.div (.neg (.num 5938246716 5)) (.rd (.var .T)))) (.sub (.add (.add (.num 34956521039999999 16) (.mul (.neg (.num 15588951899999999 16)) (.rd (.var .logT)))) (.mul (.rd (.var .T)) (.add (.num 81424417354214874 20) (.mul (.rd (.var .T)) (.add (.neg (.num 4842962702603246 23)) (.mul (.rd (.var .T)) (.add (.neg (.num 75798555540397048 29)) (.mul (.num 25394305509013217 32) (.rd (.var .T)))))))))) (.div (.neg (.num 59336614000000001 12)) (.rd (.var .T)))),
  .set (.var .Kc) (.mul (.num 82057360967184814 18) (.exp (.rd (.var .Kc)))),
  .set (.var .presModTemp) (.sub (.rd (.arr .fwd 26)) (.rd (.arr .rev 26))),
  .set (.var .jTemp) (.mul (.mul (.mul (.neg (.rd (.var .mwAvg))) (.rd (.var .rhoInv))) (.rd (.arr .presMod 4))) (.sub (.mul (.num 3 0) (.rd (.arr .fwd 26))) (.mul (.num 2 0) (.rd (.arr .rev 26))))),
  .set (.var .kf) (.exp (.sub (.num 37629818848269004 15) (.mul (.num 2 0) (.rd (.var .logT))))),
  .set (.var .kr) (.div (.rd (.var .kf)) (.rd (.var .Kc))),
  .set (.arr .jac 23) (.add (.rd (.arr .jac 23)) (.mul (.neg (.num 5 1)) (.add (.mul (.rd (.var .jTemp)) (.num 92803892982949643 17)) (.mul (.num 65803892982949641 17) (.rd (.var .presModTemp)))))),
  .set (.arr .jac 26) (.add (.rd (.arr .jac 26)) (.mul (.neg (.num 84366827390519266 16)) (.add (.mul (.rd (.var .jTemp)) (.num 92803892982949643 17)) (.mul (.num 65803892982949641 17) (.rd (.var .presModTemp)))))),
  .set (.arr .jac 27) (.mul (.num 89366827390519283 16) (.add (.mul (.rd (.var .jTemp)) (.num 92803892982949643 17)) (.mul (.num 65803892982949641 17) (.rd (.var .presModTemp))))),
  .set (.arr .jac 44) (.add (.rd (.arr .jac 44)) (.neg (.add (.add (.mul (.rd (.var .jTemp)) (.num 96401946491474821 17)) (.mul (.num 96401946491474821 17) (.rd (.var .presModTemp)))) (.mul (.rd (.arr .presMod 4)) (.mul (.rd (.var .kf)) (.rd (.arr .C 4))))))),
  .set (.arr .jac 47) (.add (.rd (.arr .jac 47)) (.mul (.neg (.num 16873365478103853 15)) (.add (.add (.mul (.rd (.var .jTemp)) (.num 96401946491474821 17)) (.mul (.num 96401946491474821 17) (.rd (.var .presModTemp)))) (.mul (.rd (.arr .presMod 4)) (.mul (.rd (.var .kf)) (.rd (.arr .C 4))))))),
  .set (.arr .jac 48) (.mul (.num 17873365478103857 15) (.add (.add (.mul (.rd (.var .jTemp)) (.num 96401946491474821 17)) (.mul (.num 96401946491474821 17) (.rd (.var .presModTemp)))) (.mul (.rd (.arr .presMod 4)) (.mul (.rd (.var .kf)) (.rd (.arr .C 4)))))),
  .set (.arr .jac 65) (.add (.rd (.arr .jac 65)) (.mul (.neg (.num 62998612447966798 18)) (.add (.mul (.rd (.var .jTemp)) (.num 42886781649405936 17)) (.mul (.num 42886781649405936 17) (.rd (.var .presModTemp)))))),
  .set (.arr .jac 68) (.add (.rd (.arr .jac 68)) (.mul (.neg (.num 10629986124479667 16)) (.add (.mul (.rd (.var .jTemp)) (.num 42886781649405936 17)) (.mul (.num 42886781649405936 17) (.rd (.var .presModTemp)))))),
  .set (.arr .jac 69) (.mul (.num 11259972248959336 16) (.add (.mul (.rd (.var .jTemp)) (.num 42886781649405936 17)) (.mul (.num 42886781649405936 17) (.rd (.var .presModTemp))))),
  .set (.arr .jac 86) (.add (.rd (.arr .jac 86)) (.mul (.neg (.num 31499306223983399 18)) (.add (.mul (.rd (.var .jTemp)) (.neg (.num 14226436701188128 17))) (.mul (.neg (.num 14226436701188128 17)) (.rd (.var .presModTemp)))))),
  .set (.arr .jac 89) (.add (.rd (.arr .jac 89)) (.mul (.neg (.num 53149930622398334 17)) (.add (.mul (.rd (.var .jTemp)) (.neg (.num 14226436701188128 17))) (.mul (.neg (.num 14226436701188128 17)) (.rd (.var .presModTemp)))))),
  .set (.arr .jac 90) (.mul (.num 56299861244796678 17) (.add (.mul (.rd (.var .jTemp)) (.neg (.num 14226436701188128 17))) (.mul (.neg (.num 14226436701188128 17)) (.rd (.var .presModTemp))))),
  .set (.arr .jac 107) (.add (.rd (.arr .jac 107)) (.mul (.neg (.num 59264999700129481 18)) (.add (.add (.mul (.rd (.var .jTemp)) (.num 39288728140880758 17)) (.mul (.num 39288728140880758 17) (.rd (.var .presModTemp)))) (.mul (.rd (.arr .presMod 4)) (.mul (.rd (.var .kf)) (.rd (.arr .C 1))))))),
  .set (.arr .jac 110) (.add (.rd (.arr .jac 110)) (.neg (.add (.add (.mul (.rd (.var .jTemp)) (.num 39288728140880758 17)) (.mul (.num 39288728140880758 17) (.rd (.var .presModTemp)))) (.mul (.rd (.arr .presMod 4)) (.mul (.rd (.var .kf)) (.rd (.arr .C 1))))))),
  .set (.arr .jac 111) (.mul (.num 10592649997001296 16) (.add (.add (.mul (.rd (.var .jTemp)) (.num 39288728140880758 17)) (.mul (.num 39288728140880758 17) (.rd (.var .presModTemp)))) (.mul (.rd (.arr .presMod 4)) (.mul (.rd (.var .kf)) (.rd (.arr .C 1)))))),
  .set (.arr .jac 128) (.add (.rd (.arr .jac 128)) (.mul (.neg (.num 55949172036182618 18)) (.add (.add (.mul (.rd (.var .jTemp)) (.num 35690674632355568 17)) (.mul (.num 30069067463235557 16) (.rd (.var .presModTemp)))) (.mul (.rd (.arr .presMod 4)) (.neg (.rd (.var .kr))))))),
  .set (.arr .jac 131) (.add (.rd (.arr .jac 131)) (.mul (.neg (.num 94405082796381734 17)) (.add (.add (.mul (.rd (.var .jTemp)) (.num 35690674632355568 17)) (.mul (.num 30069067463235557 16) (.rd (.var .presModTemp)))) (.mul (.rd (.arr .presMod 4)) (.neg (.rd (.var .kr))))))),
  .set (.arr .jac 132) (.add (.add (.mul (.rd (.var .jTemp)) (.num 35690674632355568 17)) (.mul (.num 30069067463235557 16) (.rd (.var .presModTemp)))) (.mul (.rd (.arr .presMod 4)) (.neg (.rd (.var .kr))))),
  .set (.arr .jac 149) (.add (.rd (.arr .jac 149)) (.mul (.neg (.num 3053739933116691 17)) (.add (.mul (.rd (.var .jTemp)) (.neg (.num 17824490209713328 17))) (.mul (.neg (.num 17824490209713328 17)) (.rd (.var .presModTemp)))))),
  .set (.arr .jac 152) (.add (.rd (.arr .jac 152)) (.mul (.neg (.num 51526869966558342 17)) (.add (.mul (.rd (.var .jTemp)) (.neg (.num 17824490209713328 17))) (.mul (.neg (.num 17824490209713328 17)) (.rd (.var .presModTemp)))))),
  .set (.arr .jac 153) (.mul (.num 54580609899675037 17) (.add (.mul (.rd (.var .jTemp)) (.neg (.num 17824490209713328 17))) (.mul (.neg (.num 17824490209713328 17)) (.rd (.var .presModTemp))))),
  .set (.arr .jac 170) (.add (.rd (.arr .jac 170)) (.mul (.neg (.num 71857747410685777 18)) (.add (.mul (.rd (.var .jTemp)) (.num 49928106040377707 17)) (.mul (.num 49928106040377707 17) (.rd (.var .presModTemp)))))),
  .set (.arr .jac 173) (.add (.rd (.arr .jac 173)) (.mul (.neg (.num 12124820344937721 16)) (.add (.mul (.rd (.var .jTemp)) (.num 49928106040377707 17)) (.mul (.num 49928106040377707 17) (.rd (.var .presModTemp)))))),
  .set (.arr .jac 174) (.mul (.num 1284339781904458 15) (.add (.mul (.rd (.var .jTemp)) (.num 49928106040377707 17)) (.mul (.num 49928106040377707 17) (.rd (.var .presModTemp))))),
  .set (.arr .jac 191) (.add (.rd (.arr .jac 191)) (.mul (.neg (.num 71857747410685777 18)) (.add (.mul (.rd (.var .jTemp)) (.num 49928106040377707 17)) (.mul (.num 49928106040377707 17) (.rd (.var .presModTemp)))))),
  .set (.arr .jac 194) (.add (.rd (.arr .jac 194)) (.mul (.neg (.num 12124820344937721 16)) (.add (.mul (.rd (.var .jTemp)) (.num 49928106040377707 17)) (.mul (.num 49928106040377707 17) (.rd (.var .presModTemp)))))),
  .set (.arr .jac 195) (.mul (.num 1284339781904458 15) (.add (.mul (.rd (.var .jTemp)) (.num 49928106040377707 17)) (.mul (.num 49928106040377707 17) (.rd (.var .presModTemp))))),
  .set (.arr .jac 212) (.add (.rd (.arr .jac 212)) (.mul (.neg (.num 67040376938333812 18)) (.add (.mul (.rd (.var .jTemp)) (.num 46330052531852528 17)) (.mul (.num 46330052531852528 17) (.rd (.var .presModTemp)))))),
  .set (.arr .jac 215) (.add (.rd (.arr .jac 215)) (.mul (.neg (.num 11311967818703517 16)) (.add (.mul (.rd (.var .jTemp)) (.num 46330052531852528 17)) (.mul (.num 46330052531852528 17) (.rd (.var .presModTemp)))))),
  .set (.arr .jac 216) (.mul (.num 11982371588086855 16) (.add (.mul (.rd (.var .jTemp)) (.num 46330052531852528 17)) (.mul (.num 46330052531852528 17) (.rd (.var .presModTemp))))),
  .set (.arr .jac 233) (.add (.rd (.arr .jac 233)) (.mul (.neg (.num 6282834125798803 17)) (.add (.mul (.rd (.var .jTemp)) (.num 42731999023327338 17)) (.mul (.num 14273199902332734 16) (.rd (.var .presModTemp)))))),
  .set (.arr .jac 236) (.add (.rd (.arr .jac 236)) (.mul (.neg (.num 10601255644290632 16)) (.add (.mul (.rd (.var .jTemp)) (.num 42731999023327338 17)) (.mul (.num 14273199902332734 16) (.rd (.var .presModTemp)))))),
  .set (.arr .jac 237) (.mul (.num 11229539056870512 16) (.add (.mul (.rd (.var .jTemp)) (.num 42731999023327338 17)) (.mul (.num 14273199902332734 16) (.rd (.var .presModTemp))))),
  .set (.arr .jac 254) (.add (.rd (.arr .jac 254)) (.mul (.neg (.num 35984491474595155 18)) (.add (.mul (.rd (.var .jTemp)) (.num 10994706834011048 20)) (.mul (.num 10994706834011048 20) (.rd (.var .presModTemp)))))),
  .set (.arr .jac 257) (.add (.rd (.arr .jac 257)) (.mul (.neg (.num 60717947619455637 17)) (.add (.mul (.rd (.var .jTemp)) (.num 10994706834011048 20)) (.mul (.num 10994706834011048 20) (.rd (.var .presModTemp)))))),
  .set (.arr .jac 258) (.mul (.num 64316396766915152 17) (.add (.mul (.rd (.var .jTemp)) (.num 10994706834011048 20)) (.mul (.num 10994706834011048 20) (.rd (.var .presModTemp))))),
  .set (.arr .jac 275) (.add (.rd (.arr .jac 275)) (.mul (.neg (.num 22902626233248052 18)) (.add (.mul (.rd (.var .jTemp)) (.neg (.num 57102223643760053 17))) (.mul (.neg (.num 57102223643760053 17)) (.rd (.var .presModTemp)))))),
  .set (.arr .jac 278) (.add (.rd (.arr .jac 278)) (.mul (.neg (.num 38644438284200339 17)) (.add (.mul (.rd (.var .jTemp)) (.neg (.num 57102223643760053 17))) (.mul (.neg (.num 57102223643760053 17)) (.rd (.var .presModTemp)))))),
  .set (.arr .jac 279) (.mul (.num 40934700907525146 17) (.add (.mul (.rd (.var .jTemp)) (.neg (.num 57102223643760053 17))) (.mul (.neg (.num 57102223643760053 17)) (.rd (.var .presModTemp))))),
  .set (.arr .jac 296) (.add (.rd (.arr .jac 296)) (.mul (.neg (.num 34734585093427126 18)) (.add (.mul (.rd (.var .jTemp)) (.neg (.num 35870588016911675 18))) (.mul (.neg (.num 35870588016911675 18)) (.rd (.var .presModTemp)))))),
  .set (.arr .jac 299) (.add (.rd (.arr .jac 299)) (.mul (.neg (.num 58608934901169396 17)) (.add (.mul (.rd (.var .jTemp)) (.neg (.num 35870588016911675 18))) (.mul (.neg (.num 35870588016911675 18)) (.rd (.var .presModTemp)))))),
  .set (.arr .jac 300) (.mul (.num 62082393410512116 17) (.add (.mul (.rd (.var .jTemp)) (.neg (.num 35870588016911675 18))) (.mul (.neg (.num 35870588016911675 18)) (.rd (.var .presModTemp))))),
  .set (.arr .jac 317) (.add (.rd (.arr .jac 317)) (.mul (.neg (.num 33568593911733322 18)) (.add (.mul (.rd (.var .jTemp)) (.neg (.num 71851123102163683 18))) (.mul (.neg (.num 71851123102163683 18)) (.rd (.var .presModTemp)))))),
  .set (.arr .jac 320) (.add (.rd (.arr .jac 320)) (.mul (.neg (.num 5664151536587283 16)) (.add (.mul (.rd (.var .jTemp)) (.neg (.num 71851123102163683 18))) (.mul (.neg (.num 71851123102163683 18)) (.rd (.var .presModTemp)))))),
  .set (.arr .jac 321) (.mul (.num 59998374757046158 17) (.add (.mul (.rd (.var .jTemp)) (.neg (.num 71851123102163683 18))) (.mul (.neg (.num 71851123102163683 18)) (.rd (.var .presModTemp))))),
  .set (.arr .jac 338) (.add (.rd (.arr .jac 338)) (.mul (.neg (.num 32478341649959309 18)) (.add (.mul (.rd (.var .jTemp)) (.neg (.num 10783165818741525 17))) (.mul (.neg (.num 10783165818741525 17)) (.rd (.var .presModTemp)))))),
  .set (.arr .jac 341) (.add (.rd (.arr .jac 341)) (.mul (.neg (.num 54801892878248593 17)) (.add (.mul (.rd (.var .jTemp)) (.neg (.num 10783165818741525 17))) (.mul (.neg (.num 10783165818741525 17)) (.rd (.var .presModTemp)))))),
  .set (.arr .jac 342) (.mul (.num 58049727043244526 17) (.add (.mul (.rd (.var .jTemp)) (.neg (.num 10783165818741525 17))) (.mul (.neg (.num 10783165818741525 17)) (.rd (.var .presModTemp))))),
  .set (.arr .jac 359) (.add (.rd (.arr .jac 359)) (.mul (.neg (.num 35928873705342888 18)) (.add (.mul (.rd (.var .jTemp)) (.neg (.num 14378791924458678 19))) (.mul (.neg (.num 14378791924458678 19)) (.rd (.var .presModTemp)))))),
  .set (.arr .jac 362) (.add (.rd (.arr .jac 362)) (.mul (.neg (.num 60624101724688606 17)) (.add (.mul (.rd (.var .jTemp)) (.neg (.num 14378791924458678 19))) (.mul (.neg (.num 14378791924458678 19)) (.rd (.var .presModTemp)))))),
  .set (.arr .jac 363) (.mul (.num 64216989095222898 17) (.add (.mul (.rd (.var .jTemp)) (.neg (.num 14378791924458678 19))) (.mul (.neg (.num 14378791924458678 19)) (.rd (.var .presModTemp))))),
  .set (.arr .jac 380) (.add (.rd (.arr .jac 380)) (.mul (.neg (.num 3468276115987709 17)) (.add (.mul (.rd (.var .jTemp)) (.neg (.num 37418414277697654 18))) (.mul (.neg (.num 37418414277697654 18)) (.rd (.var .presModTemp)))))),
  .set (.arr .jac 383) (.add (.rd (.arr .jac 383)) (.mul (.neg (.num 58521490484039129 17)) (.add (.mul (.rd (.var .jTemp)) (.neg (.num 37418414277697654 18))) (.mul (.neg (.num 37418414277697654 18)) (.rd (.var .presModTemp)))))),
  .set (.arr .jac 384) (.mul (.num 61989766600026841 17) (.add (.mul (.rd (.var .jTemp)) (.neg (.num 37418414277697654 18))) (.mul (.neg (.num 37418414277697654 18)) (.rd (.var .presModTemp))))),
  .set (.arr .jac 401) (.add (.rd (.arr .jac 401)) (.mul (.neg (.num 33520188469166906 18)) (.add (.mul (.rd (.var .jTemp)) (.neg (.num 73398949362949439 18))) (.mul (.num 19266010506370506 16) (.rd (.var .presModTemp)))))),
  .set (.arr .jac 404) (.add (.rd (.arr .jac 404)) (.mul (.neg (.num 56559839093517583 17)) (.add (.mul (.rd (.var .jTemp)) (.neg (.num 73398949362949439 18))) (.mul (.num 19266010506370506 16) (.rd (.var .presModTemp)))))),
  .set (.arr .jac 405) (.mul (.num 59911857940434277 17) (.add (.mul (.rd (.var .jTemp)) (.neg (.num 73398949362949439 18))) (.mul (.num 19266010506370506 16) (.rd (.var .presModTemp))))),
  .set (.arr .jac 422) (.add (.rd (.arr .jac 422)) (.mul (.neg (.num 2523130069089817 17)) (.add (.mul (.rd (.var .jTemp)) (.neg (.num 42602775520927771 17))) (.mul (.neg (.num 10460277552092778 16)) (.rd (.var .presModTemp)))))),
  .set (.arr .jac 425) (.add (.rd (.arr .jac 425)) (.mul (.neg (.num 42573695804545908 17)) (.add (.mul (.rd (.var .jTemp)) (.neg (.num 42602775520927771 17))) (.mul (.neg (.num 10460277552092778 16)) (.rd (.var .presModTemp)))))),
  .set (.arr .jac 426) (.mul (.num 45096825873635726 17) (.add (.mul (.rd (.var .jTemp)) (.neg (.num 42602775520927771 17))) (.mul (.neg (.num 10460277552092778 16)) (.rd (.var .presModTemp)))))]

/-- utilities/mechanisms/drm19/lib/src/jacobs/jacob_0.c:2360-2366 -/
def jacobT27 : List CStmt := [
  .set (.var .jTemp) (.mul (.mul (.div (.num 1 0) (.rd (.var .T))) (.sub (.add (.mul (.sub (.rd (.arr .fwd 27)) (.rd (.arr .rev 27))) (.div (.num 5374384952695857 13) (.rd (.var .T)))) (.mul (.rd (.arr .fwd 27)) (.neg (.num 1 0)))) (.mul (.rd (.arr .rev 27)) (.add (.neg (.num 1 0)) (.mul (.neg (.rd (.var .T))) (.sub (.sub (.add (.rd (.arr .dBdT 0)) (.rd (.arr .dBdT 3))) (.rd (.arr .dBdT 1))) (.rd (.arr .dBdT 6)))))))) (.rd (.var .rhoInv))),
  .set (.arr .jac 1) (.add (.rd (.arr .jac 1)) (.mul (.rd (.var .jTemp)) (.num 20158800000000001 16))),
  .set (.arr .jac 2) (.add (.rd (.arr .jac 2)) (.mul (.neg (.rd (.var .jTemp))) (.num 10079400000000001 16))),
  .set (.arr .jac 4) (.add (.rd (.arr .jac 4)) (.mul (.rd (.var .jTemp)) (.num 31998799999999999 15))),
  .set (.arr .jac 7) (.add (.rd (.arr .jac 7)) (.mul (.neg (.rd (.var .jTemp))) (.num 33006740000000001 15)))]

/-- utilities/mechanisms/drm19/lib/src/jacobs/jacob_0.c:2367-2458 -/
def jacobS27 : List CStmt := [
  .ite (.rd (.var .T)) (.num 1000 0) (.var .Kc) (.sub (.add (.add (.num 17457169009999998 16) (.mul (.neg (.num 67501052999999978 17)) (.rd (.var .logT)))) (.mul (.rd (.var .T)) (.add (.num 48664535496473326 19) (.mul (.rd (.var .T)) (.add (.neg (.num 51315230146673465 22)) (.mul (.rd (.var .T)) (.add (.num 28960253089749321 25) (.mul (.neg (.num 67123202395361341 29)) (.rd (.var .T)))))))))) (.div (.neg (.num 27750346673 6)) (.rd (.var .T)))) (.sub (.add (.add (.neg (.num 11928173859999998 16)) (.mul (.num 10260612999999941 17) (.rd (.var .logT)))) (.mul (.rd (.var .T)) (.add (.neg (.num 40306752000785135 20)) (.mul (.rd (.var .T)) (.add (.num 62524707140634199 24) (.mul (.rd (.var .T)) (.add (.neg (.num 70285170220706416 28)) (.mul (.num 45723056009013213 32) (.rd (.var .T)))))))))) (.div (.neg (.num 27624133254999997 12)) (.rd (.var .T)))),
  .set (.var .Kc) (.exp (.rd (.var .Kc))),
  .set (.var .jTemp) (.mul (.mul (.neg (.rd (.var .mwAvg))) (.rd (.var .rhoInv))) (.sub (.mul (.num 2 0) (.rd (.arr .fwd 27))) (.mul (.num 2 0) (.rd (.arr .rev 27))))),
  .set (.var .kf) (.exp (.sub (.num 24055470347121616 15) (.div (.num 5374384952695857 13) (.rd (.var .T))))),
  .set (.var .kr) (.div (.rd (.var .kf)) (.rd (.var .Kc))),
  .set (.arr .jac 22) (.add (.rd (.arr .jac 22)) (.sub (.mul (.rd (.var .jTemp)) (.num 92803892982949643 17)) (.mul (.rd (.var .kr)) (.rd (.arr .C 3))))),
  .set (.arr .jac 23) (.add (.rd (.arr .jac 23)) (.mul (.neg (.num 5 1)) (.sub (.mul (.rd (.var .jTemp)) (.num 92803892982949643 17)) (.mul (.rd (.var .kr)) (.rd (.arr .C 3)))))),
  .set (.arr .jac 25) (.add (.rd (.arr .jac 25)) (.mul (.num 15873365478103855 15) (.sub (.mul (.rd (.var .jTemp)) (.num 92803892982949643 17)) (.mul (.rd (.var .kr)) (.rd (.arr .C 3)))))),
  .set (.arr .jac 28) (.add (.rd (.arr .jac 28)) (.mul (.neg (.num 16373365478103853 15)) (.sub (.mul (.rd (.var .jTemp)) (.num 92803892982949643 17)) (.mul (.rd (.var .kr)) (.rd (.arr .C 3)))))),
  .set (.arr .jac 43) (.add (.rd (.arr .jac 43)) (.mul (.num 2 0) (.add (.mul (.rd (.var .jTemp)) (.num 96401946491474821 17)) (.mul (.rd (.var .kf)) (.rd (.arr .C 6)))))),
  .set (.arr .jac 44) (.add (.rd (.arr .jac 44)) (.neg (.add (.mul (.rd (.var .jTemp)) (.num 96401946491474821 17)) (.mul (.rd (.var .kf)) (.rd (.arr .C 6)))))),
  .set (.arr .jac 46) (.add (.rd (.arr .jac 46)) (.mul (.num 3174673095620771 14) (.add (.mul (.rd (.var .jTemp)) (.num 96401946491474821 17)) (.mul (.rd (.var .kf)) (.rd (.arr .C 6)))))),
  .set (.arr .jac 49) (.add (.rd (.arr .jac 49)) (.mul (.neg (.num 32746730956207706 15)) (.add (.mul (.rd (.var .jTemp)) (.num 96401946491474821 17)) (.mul (.rd (.var .kf)) (.rd (.arr .C 6)))))),
  .set (.arr .jac 64) (.add (.rd (.arr .jac 64)) (.mul (.num 1259972248959336 16) (.mul (.rd (.var .jTemp)) (.num 42886781649405936 17)))),
  .set (.arr .jac 65) (.add (.rd (.arr .jac 65)) (.mul (.neg (.num 62998612447966798 18)) (.mul (.rd (.var .jTemp)) (.num 42886781649405936 17)))),
  .set (.arr .jac 67) (.add (.rd (.arr .jac 67)) (.mul (.num 2 0) (.mul (.rd (.var .jTemp)) (.num 42886781649405936 17)))),
  .set (.arr .jac 70) (.add (.rd (.arr .jac 70)) (.mul (.neg (.num 20629986124479669 16)) (.mul (.rd (.var .jTemp)) (.num 42886781649405936 17)))),
  .set (.arr .jac 85) (.add (.rd (.arr .jac 85)) (.mul (.num 62998612447966798 18) (.sub (.mul (.rd (.var .jTemp)) (.neg (.num 14226436701188128 17))) (.mul (.rd (.var .kr)) (.rd (.arr .C 0)))))),
  .set (.arr .jac 86) (.add (.rd (.arr .jac 86)) (.mul (.neg (.num 31499306223983399 18)) (.sub (.mul (.rd (.var .jTemp)) (.neg (.num 14226436701188128 17))) (.mul (.rd (.var .kr)) (.rd (.arr .C 0)))))),
  .set (.arr .jac 88) (.add (.rd (.arr .jac 88)) (.sub (.mul (.rd (.var .jTemp)) (.neg (.num 14226436701188128 17))) (.mul (.rd (.var .kr)) (.rd (.arr .C 0))))),
  .set (.arr .jac 91) (.add (.rd (.arr .jac 91)) (.mul (.neg (.num 10314993062239834 16)) (.sub (.mul (.rd (.var .jTemp)) (.neg (.num 14226436701188128 17))) (.mul (.rd (.var .kr)) (.rd (.arr .C 0)))))),
  .set (.arr .jac 106) (.add (.rd (.arr .jac 106)) (.mul (.num 11852999940025896 17) (.mul (.rd (.var .jTemp)) (.num 39288728140880758 17)))),
  .set (.arr .jac 107) (.add (.rd (.arr .jac 107)) (.mul (.neg (.num 59264999700129481 18)) (.mul (.rd (.var .jTemp)) (.num 39288728140880758 17)))),
  .set (.arr .jac 109) (.add (.rd (.arr .jac 109)) (.mul (.num 18814700005997411 16) (.mul (.rd (.var .jTemp)) (.num 39288728140880758 17)))),
  .set (.arr .jac 112) (.add (.rd (.arr .jac 112)) (.mul (.neg (.num 19407350002998707 16)) (.mul (.rd (.var .jTemp)) (.num 39288728140880758 17)))),
  .set (.arr .jac 127) (.add (.rd (.arr .jac 127)) (.mul (.num 11189834407236524 17) (.mul (.rd (.var .jTemp)) (.num 35690674632355568 17)))),
  .set (.arr .jac 128) (.add (.rd (.arr .jac 128)) (.mul (.neg (.num 55949172036182618 18)) (.mul (.rd (.var .jTemp)) (.num 35690674632355568 17)))),
  .set (.arr .jac 130) (.add (.rd (.arr .jac 130)) (.mul (.num 17762033118552694 16) (.mul (.rd (.var .jTemp)) (.num 35690674632355568 17)))),
  .set (.arr .jac 133) (.add (.rd (.arr .jac 133)) (.mul (.neg (.num 1832152483891452 15)) (.mul (.rd (.var .jTemp)) (.num 35690674632355568 17)))),
  .set (.arr .jac 148) (.add (.rd (.arr .jac 148)) (.mul (.num 61074798662333819 18) (.add (.mul (.rd (.var .jTemp)) (.neg (.num 17824490209713328 17))) (.mul (.rd (.var .kf)) (.rd (.arr .C 1)))))),
  .set (.arr .jac 149) (.add (.rd (.arr .jac 149)) (.mul (.neg (.num 3053739933116691 17)) (.add (.mul (.rd (.var .jTemp)) (.neg (.num 17824490209713328 17))) (.mul (.rd (.var .kf)) (.rd (.arr .C 1)))))),
  .set (.arr .jac 151) (.add (.rd (.arr .jac 151)) (.mul (.num 96946260066883305 17) (.add (.mul (.rd (.var .jTemp)) (.neg (.num 17824490209713328 17))) (.mul (.rd (.var .kf)) (.rd (.arr .C 1)))))),
  .set (.arr .jac 154) (.add (.rd (.arr .jac 154)) (.neg (.add (.mul (.rd (.var .jTemp)) (.neg (.num 17824490209713328 17))) (.mul (.rd (.var .kf)) (.rd (.arr .C 1)))))),
  .set (.arr .jac 169) (.add (.rd (.arr .jac 169)) (.mul (.num 14371549482137155 17) (.mul (.rd (.var .jTemp)) (.num 49928106040377707 17)))),
  .set (.arr .jac 170) (.add (.rd (.arr .jac 170)) (.mul (.neg (.num 71857747410685777 18)) (.mul (.rd (.var .jTemp)) (.num 49928106040377707 17)))),
  .set (.arr .jac 172) (.add (.rd (.arr .jac 172)) (.mul (.num 22812485741661725 16) (.mul (.rd (.var .jTemp)) (.num 49928106040377707 17)))),
  .set (.arr .jac 175) (.add (.rd (.arr .jac 175)) (.mul (.neg (.num 23531063215768584 16)) (.mul (.rd (.var .jTemp)) (.num 49928106040377707 17)))),
  .set (.arr .jac 190) (.add (.rd (.arr .jac 190)) (.mul (.num 14371549482137155 17) (.mul (.rd (.var .jTemp)) (.num 49928106040377707 17)))),
  .set (.arr .jac 191) (.add (.rd (.arr .jac 191)) (.mul (.neg (.num 71857747410685777 18)) (.mul (.rd (.var .jTemp)) (.num 49928106040377707 17)))),
  .set (.arr .jac 193) (.add (.rd (.arr .jac 193)) (.mul (.num 22812485741661725 16) (.mul (.rd (.var .jTemp)) (.num 49928106040377707 17)))),
  .set (.arr .jac 196) (.add (.rd (.arr .jac 196)) (.mul (.neg (.num 23531063215768584 16)) (.mul (.rd (.var .jTemp)) (.num 49928106040377707 17)))),
  .set (.arr .jac 211) (.add (.rd (.arr .jac 211)) (.mul (.num 13408075387666762 17) (.mul (.rd (.var .jTemp)) (.num 46330052531852528 17)))),
  .set (.arr .jac 212) (.add (.rd (.arr .jac 212)) (.mul (.neg (.num 67040376938333812 18)) (.mul (.rd (.var .jTemp)) (.num 46330052531852528 17)))),
  .set (.arr .jac 214) (.add (.rd (.arr .jac 214)) (.mul (.num 21283128098640356 16) (.mul (.rd (.var .jTemp)) (.num 46330052531852528 17)))),
  .set (.arr .jac 217) (.add (.rd (.arr .jac 217)) (.mul (.neg (.num 21953531868023695 16)) (.mul (.rd (.var .jTemp)) (.num 46330052531852528 17)))),
  .set (.arr .jac 232) (.add (.rd (.arr .jac 232)) (.mul (.num 12565668251597606 17) (.mul (.rd (.var .jTemp)) (.num 42731999023327338 17)))),
  .set (.arr .jac 233) (.add (.rd (.arr .jac 233)) (.mul (.neg (.num 6282834125798803 17)) (.mul (.rd (.var .jTemp)) (.num 42731999023327338 17)))),
  .set (.arr .jac 235) (.add (.rd (.arr .jac 235)) (.mul (.num 19945944463421503 16) (.mul (.rd (.var .jTemp)) (.num 42731999023327338 17)))),
  .set (.arr .jac 238) (.add (.rd (.arr .jac 238)) (.mul (.neg (.num 20574227876001383 16)) (.mul (.rd (.var .jTemp)) (.num 42731999023327338 17)))),
  .set (.arr .jac 253) (.add (.rd (.arr .jac 253)) (.mul (.num 7196898294919031 17) (.mul (.rd (.var .jTemp)) (.num 10994706834011048 20)))),
  .set (.arr .jac 254) (.add (.rd (.arr .jac 254)) (.mul (.neg (.num 35984491474595155 18)) (.mul (.rd (.var .jTemp)) (.num 10994706834011048 20)))),
  .set (.arr .jac 256) (.add (.rd (.arr .jac 256)) (.mul (.num 11423899694399224 16) (.mul (.rd (.var .jTemp)) (.num 10994706834011048 20)))),
  .set (.arr .jac 259) (.add (.rd (.arr .jac 259)) (.mul (.neg (.num 11783744609145177 16)) (.mul (.rd (.var .jTemp)) (.num 10994706834011048 20)))),
  .set (.arr .jac 274) (.add (.rd (.arr .jac 274)) (.mul (.num 45805252466496103 18) (.mul (.rd (.var .jTemp)) (.neg (.num 57102223643760053 17))))),
  .set (.arr .jac 275) (.add (.rd (.arr .jac 275)) (.mul (.neg (.num 22902626233248052 18)) (.mul (.rd (.var .jTemp)) (.neg (.num 57102223643760053 17))))),
  .set (.arr .jac 277) (.add (.rd (.arr .jac 277)) (.mul (.num 72708351321751064 17) (.mul (.rd (.var .jTemp)) (.neg (.num 57102223643760053 17))))),
  .set (.arr .jac 280) (.add (.rd (.arr .jac 280)) (.mul (.neg (.num 74998613945075876 17)) (.mul (.rd (.var .jTemp)) (.neg (.num 57102223643760053 17))))),
  .set (.arr .jac 295) (.add (.rd (.arr .jac 295)) (.mul (.num 69469170186854251 18) (.mul (.rd (.var .jTemp)) (.neg (.num 35870588016911675 18))))),
  .set (.arr .jac 296) (.add (.rd (.arr .jac 296)) (.mul (.neg (.num 34734585093427126 18)) (.mul (.rd (.var .jTemp)) (.neg (.num 35870588016911675 18))))),
  .set (.arr .jac 298) (.add (.rd (.arr .jac 298)) (.mul (.num 11027095278365338 16) (.mul (.rd (.var .jTemp)) (.neg (.num 35870588016911675 18))))),
  .set (.arr .jac 301) (.add (.rd (.arr .jac 301)) (.mul (.neg (.num 11374441129299608 16)) (.mul (.rd (.var .jTemp)) (.neg (.num 35870588016911675 18))))),
  .set (.arr .jac 316) (.add (.rd (.arr .jac 316)) (.mul (.num 67137187823466643 18) (.mul (.rd (.var .jTemp)) (.neg (.num 71851123102163683 18))))),
  .set (.arr .jac 317) (.add (.rd (.arr .jac 317)) (.mul (.neg (.num 33568593911733322 18)) (.mul (.rd (.var .jTemp)) (.neg (.num 71851123102163683 18))))),
  .set (.arr .jac 319) (.add (.rd (.arr .jac 319)) (.mul (.num 10656931194939898 16) (.mul (.rd (.var .jTemp)) (.neg (.num 71851123102163683 18))))),
  .set (.arr .jac 322) (.add (.rd (.arr .jac 322)) (.mul (.neg (.num 10992617134057232 16)) (.mul (.rd (.var .jTemp)) (.neg (.num 71851123102163683 18))))),
  .set (.arr .jac 337) (.add (.rd (.arr .jac 337)) (.mul (.num 64956683299918619 18) (.mul (.rd (.var .jTemp)) (.neg (.num 10783165818741525 17))))),
  .set (.arr .jac 338) (.add (.rd (.arr .jac 338)) (.mul (.neg (.num 32478341649959309 18)) (.mul (.rd (.var .jTemp)) (.neg (.num 10783165818741525 17))))),
  .set (.arr .jac 340) (.add (.rd (.arr .jac 340)) (.mul (.num 10310811742650532 16) (.mul (.rd (.var .jTemp)) (.neg (.num 10783165818741525 17))))),
  .set (.arr .jac 343) (.add (.rd (.arr .jac 343)) (.mul (.neg (.num 10635595159150126 16)) (.mul (.rd (.var .jTemp)) (.neg (.num 10783165818741525 17))))),
  .set (.arr .jac 358) (.add (.rd (.arr .jac 358)) (.mul (.num 71857747410685777 18) (.mul (.rd (.var .jTemp)) (.neg (.num 14378791924458678 19))))),
  .set (.arr .jac 359) (.add (.rd (.arr .jac 359)) (.mul (.neg (.num 35928873705342888 18)) (.mul (.rd (.var .jTemp)) (.neg (.num 14378791924458678 19))))),
  .set (.arr .jac 361) (.add (.rd (.arr .jac 361)) (.mul (.num 11406242870830863 16) (.mul (.rd (.var .jTemp)) (.neg (.num 14378791924458678 19))))),
  .set (.arr .jac 364) (.add (.rd (.arr .jac 364)) (.mul (.neg (.num 11765531607884292 16)) (.mul (.rd (.var .jTemp)) (.neg (.num 14378791924458678 19))))),
  .set (.arr .jac 379) (.add (.rd (.arr .jac 379)) (.mul (.num 6936552231975418 17) (.mul (.rd (.var .jTemp)) (.neg (.num 37418414277697654 18))))),
  .set (.arr .jac 380) (.add (.rd (.arr .jac 380)) (.mul (.neg (.num 3468276115987709 17)) (.mul (.rd (.var .jTemp)) (.neg (.num 37418414277697654 18))))),
  .set (.arr .jac 382) (.add (.rd (.arr .jac 382)) (.mul (.num 11010642873610286 16) (.mul (.rd (.var .jTemp)) (.neg (.num 37418414277697654 18))))),
  .set (.arr .jac 385) (.add (.rd (.arr .jac 385)) (.mul (.neg (.num 11357470485209056 16)) (.mul (.rd (.var .jTemp)) (.neg (.num 37418414277697654 18))))),
  .set (.arr .jac 400) (.add (.rd (.arr .jac 400)) (.mul (.num 67040376938333812 18) (.mul (.rd (.var .jTemp)) (.neg (.num 73398949362949439 18))))),
  .set (.arr .jac 401) (.add (.rd (.arr .jac 401)) (.mul (.neg (.num 33520188469166906 18)) (.mul (.rd (.var .jTemp)) (.neg (.num 73398949362949439 18))))),
  .set (.arr .jac 403) (.add (.rd (.arr .jac 403)) (.mul (.num 10641564049320178 16) (.mul (.rd (.var .jTemp)) (.neg (.num 73398949362949439 18))))),
  .set (.arr .jac 406) (.add (.rd (.arr .jac 406)) (.mul (.neg (.num 10976765934011847 16)) (.mul (.rd (.var .jTemp)) (.neg (.num 73398949362949439 18))))),
  .set (.arr .jac 421) (.add (.rd (.arr .jac 421)) (.mul (.num 5046260138179634 17) (.mul (.rd (.var .jTemp)) (.neg (.num 42602775520927771 17))))),
  .set (.arr .jac 422) (.add (.rd (.arr .jac 422)) (.mul (.neg (.num 2523130069089817 17)) (.mul (.rd (.var .jTemp)) (.neg (.num 42602775520927771 17))))),
  .set (.arr .jac 424) (.add (.rd (.arr .jac 424)) (.mul (.num 80101131470912179 17) (.mul (.rd (.var .jTemp)) (.neg (.num 42602775520927771 17))))),
  .set (.arr .jac 427) (.add (.rd (.arr .jac 427)) (.mul (.neg (.num 82624261540002009 17)) (.mul (.rd (.var .jTemp)) (.neg (.num 42602775520927771 17)))))]

/-- utilities/mechanisms/drm19/lib/src/jacobs/jacob_0.c:2459-2464 -/
def jacobT28 : List CStmt := [
  .set (.var .jTemp) (.mul (.mul (.div (.num 1 0) (.rd (.var .T))) (.sub (.add (.mul (.sub (.rd (.arr .fwd 28)) (.rd (.arr .rev 28))) (.div (.num 31954442368556829 14) (.rd (.var .T)))) (.mul (.rd (.arr .fwd 28)) (.neg (.num 1 0)))) (.mul (.rd (.arr .rev 28)) (.add (.neg (.num 1 0)) (.mul (.neg (.rd (.var .T))) (.sub (.sub (.mul (.num 2 0) (.rd (.arr .dBdT 4))) (.rd (.arr .dBdT 1))) (.rd (.arr .dBdT 6)))))))) (.rd (.var .rhoInv))),
  .set (.arr .jac 2) (.add (.rd (.arr .jac 2)) (.mul (.neg (.rd (.var .jTemp))) (.num 10079400000000001 16))),
  .set (.arr .jac 5) (.add (.rd (.arr .jac 5)) (.mul (.mul (.rd (.var .jTemp)) (.num 2 0)) (.num 17007339999999999 15))),
  .set (.arr .jac 7) (.add (.rd (.arr .jac 7)) (.mul (.neg (.rd (.var .jTemp))) (.num 33006740000000001 15)))]

/-- utilities/mechanisms/drm19/lib/src/jacobs/jacob_0.c:2465-2536 -/
def jacobS28 : List CStmt := [
  .ite (.rd (.var .T)) (.num 1000 0) (.var .Kc) (.sub (.add (.add (.neg (.num 46600633630000008 16)) (.mul (.num 11822328500000001 16) (.rd (.var .logT)))) (.mul (.rd (.var .T)) (.add (.neg (.num 26757265352666572 21)) (.mul (.rd (.var .T)) (.add (.neg (.num 19870687130006796 22)) (.mul (.rd (.var .T)) (.add (.num 13761768948082653 25) (.mul (.neg (.num 32820109195361345 29)) (.rd (.var .T)))))))))) (.div (.neg (.num 18538306819999998 12)) (.rd (.var .T)))) (.sub (.add (.add (.num 59464085339999997 16) (.mul (.neg (.num 33143557000000001 17)) (.rd (.var .logT)))) (.mul (.rd (.var .T)) (.add (.neg (.num 57148033745785135 20)) (.mul (.rd (.var .T)) (.add (.num 14777809830730085 23) (.mul (.rd (.var .T)) (.add (.neg (.num 24178223038737304 27)) (.mul (.num 1713666410090132 30) (.rd (.var .T)))))))))) (.div (.neg (.num 17868202613000001 12)) (.rd (.var .T)))),
  .set (.var .Kc) (.exp (.rd (.var .Kc))),
  .set (.var .jTemp) (.mul (.mul (.neg (.rd (.var .mwAvg))) (.rd (.var .rhoInv))) (.sub (.mul (.num 2 0) (.rd (.arr .fwd 28))) (.mul (.num 2 0) (.rd (.arr .rev 28))))),
  .set (.var .kf) (.exp (.sub (.num 25621105636897322 15) (.div (.num 31954442368556829 14) (.rd (.var .T))))),
  .set (.var .kr) (.div (.rd (.var .kf)) (.rd (.var .Kc))),
  .set (.arr .jac 23) (.add (.rd (.arr .jac 23)) (.mul (.neg (.num 5 1)) (.mul (.rd (.var .jTemp)) (.num 92803892982949643 17)))),
  .set (.arr .jac 26) (.add (.rd (.arr .jac 26)) (.mul (.num 16873365478103853 15) (.mul (.rd (.var .jTemp)) (.num 92803892982949643 17)))),
  .set (.arr .jac 28) (.add (.rd (.arr .jac 28)) (.mul (.neg (.num 16373365478103853 15)) (.mul (.rd (.var .jTemp)) (.num 92803892982949643 17)))),
  .set (.arr .jac 44) (.add (.rd (.arr .jac 44)) (.neg (.add (.mul (.rd (.var .jTemp)) (.num 96401946491474821 17)) (.mul (.rd (.var .kf)) (.rd (.arr .C 6)))))),
  .set (.arr .jac 47) (.add (.rd (.arr .jac 47)) (.mul (.num 33746730956207706 15) (.add (.mul (.rd (.var .jTemp)) (.num 96401946491474821 17)) (.mul (.rd (.var .kf)) (.rd (.arr .C 6)))))),
  .set (.arr .jac 49) (.add (.rd (.arr .jac 49)) (.mul (.neg (.num 32746730956207706 15)) (.add (.mul (.rd (.var .jTemp)) (.num 96401946491474821 17)) (.mul (.rd (.var .kf)) (.rd (.arr .C 6)))))),
  .set (.arr .jac 65) (.add (.rd (.arr .jac 65)) (.mul (.neg (.num 62998612447966798 18)) (.mul (.rd (.var .jTemp)) (.num 42886781649405936 17)))),
  .set (.arr .jac 68) (.add (.rd (.arr .jac 68)) (.mul (.num 21259972248959333 16) (.mul (.rd (.var .jTemp)) (.num 42886781649405936 17)))),
  .set (.arr .jac 70) (.add (.rd (.arr .jac 70)) (.mul (.neg (.num 20629986124479669 16)) (.mul (.rd (.var .jTemp)) (.num 42886781649405936 17)))),
  .set (.arr .jac 86) (.add (.rd (.arr .jac 86)) (.mul (.neg (.num 31499306223983399 18)) (.mul (.rd (.var .jTemp)) (.neg (.num 14226436701188128 17))))),
  .set (.arr .jac 89) (.add (.rd (.arr .jac 89)) (.mul (.num 10629986124479667 16) (.mul (.rd (.var .jTemp)) (.neg (.num 14226436701188128 17))))),
  .set (.arr .jac 91) (.add (.rd (.arr .jac 91)) (.mul (.neg (.num 10314993062239834 16)) (.mul (.rd (.var .jTemp)) (.neg (.num 14226436701188128 17))))),
  .set (.arr .jac 107) (.add (.rd (.arr .jac 107)) (.mul (.neg (.num 59264999700129481 18)) (.sub (.mul (.rd (.var .jTemp)) (.num 39288728140880758 17)) (.mul (.mul (.rd (.var .kr)) (.num 2 0)) (.rd (.arr .C 4)))))),
  .set (.arr .jac 110) (.add (.rd (.arr .jac 110)) (.mul (.num 2 0) (.sub (.mul (.rd (.var .jTemp)) (.num 39288728140880758 17)) (.mul (.mul (.rd (.var .kr)) (.num 2 0)) (.rd (.arr .C 4)))))),
  .set (.arr .jac 112) (.add (.rd (.arr .jac 112)) (.mul (.neg (.num 19407350002998707 16)) (.sub (.mul (.rd (.var .jTemp)) (.num 39288728140880758 17)) (.mul (.mul (.rd (.var .kr)) (.num 2 0)) (.rd (.arr .C 4)))))),
  .set (.arr .jac 128) (.add (.rd (.arr .jac 128)) (.mul (.neg (.num 55949172036182618 18)) (.mul (.rd (.var .jTemp)) (.num 35690674632355568 17)))),
  .set (.arr .jac 131) (.add (.rd (.arr .jac 131)) (.mul (.num 18881016559276347 16) (.mul (.rd (.var .jTemp)) (.num 35690674632355568 17)))),
  .set (.arr .jac 133) (.add (.rd (.arr .jac 133)) (.mul (.neg (.num 1832152483891452 15)) (.mul (.rd (.var .jTemp)) (.num 35690674632355568 17)))),
  .set (.arr .jac 149) (.add (.rd (.arr .jac 149)) (.mul (.neg (.num 3053739933116691 17)) (.add (.mul (.rd (.var .jTemp)) (.neg (.num 17824490209713328 17))) (.mul (.rd (.var .kf)) (.rd (.arr .C 1)))))),
  .set (.arr .jac 152) (.add (.rd (.arr .jac 152)) (.mul (.num 10305373993311668 16) (.add (.mul (.rd (.var .jTemp)) (.neg (.num 17824490209713328 17))) (.mul (.rd (.var .kf)) (.rd (.arr .C 1)))))),
  .set (.arr .jac 154) (.add (.rd (.arr .jac 154)) (.neg (.add (.mul (.rd (.var .jTemp)) (.neg (.num 17824490209713328 17))) (.mul (.rd (.var .kf)) (.rd (.arr .C 1)))))),
  .set (.arr .jac 170) (.add (.rd (.arr .jac 170)) (.mul (.neg (.num 71857747410685777 18)) (.mul (.rd (.var .jTemp)) (.num 49928106040377707 17)))),
  .set (.arr .jac 173) (.add (.rd (.arr .jac 173)) (.mul (.num 24249640689875442 16) (.mul (.rd (.var .jTemp)) (.num 49928106040377707 17)))),
  .set (.arr .jac 175) (.add (.rd (.arr .jac 175)) (.mul (.neg (.num 23531063215768584 16)) (.mul (.rd (.var .jTemp)) (.num 49928106040377707 17)))),
  .set (.arr .jac 191) (.add (.rd (.arr .jac 191)) (.mul (.neg (.num 71857747410685777 18)) (.mul (.rd (.var .jTemp)) (.num 49928106040377707 17)))),
  .set (.arr .jac 194) (.add (.rd (.arr .jac 194)) (.mul (.num 24249640689875442 16) (.mul (.rd (.var .jTemp)) (.num 49928106040377707 17)))),
  .set (.arr .jac 196) (.add (.rd (.arr .jac 196)) (.mul (.neg (.num 23531063215768584 16)) (.mul (.rd (.var .jTemp)) (.num 49928106040377707 17)))),
  .set (.arr .jac 212) (.add (.rd (.arr .jac 212)) (.mul (.neg (.num 67040376938333812 18)) (.mul (.rd (.var .jTemp)) (.num 46330052531852528 17)))),
  .set (.arr .jac 215) (.add (.rd (.arr .jac 215)) (.mul (.num 22623935637407033 16) (.mul (.rd (.var .jTemp)) (.num 46330052531852528 17)))),
  .set (.arr .jac 217) (.add (.rd (.arr .jac 217)) (.mul (.neg (.num 21953531868023695 16)) (.mul (.rd (.var .jTemp)) (.num 46330052531852528 17)))),
  .set (.arr .jac 233) (.add (.rd (.arr .jac 233)) (.mul (.neg (.num 6282834125798803 17)) (.mul (.rd (.var .jTemp)) (.num 42731999023327338 17)))),
  .set (.arr .jac 236) (.add (.rd (.arr .jac 236)) (.mul (.num 21202511288581265 16) (.mul (.rd (.var .jTemp)) (.num 42731999023327338 17)))),
  .set (.arr .jac 238) (.add (.rd (.arr .jac 238)) (.mul (.neg (.num 20574227876001383 16)) (.mul (.rd (.var .jTemp)) (.num 42731999023327338 17)))),
  .set (.arr .jac 254) (.add (.rd (.arr .jac 254)) (.mul (.neg (.num 35984491474595155 18)) (.mul (.rd (.var .jTemp)) (.num 10994706834011048 20)))),
  .set (.arr .jac 257) (.add (.rd (.arr .jac 257)) (.mul (.num 12143589523891127 16) (.mul (.rd (.var .jTemp)) (.num 10994706834011048 20)))),
  .set (.arr .jac 259) (.add (.rd (.arr .jac 259)) (.mul (.neg (.num 11783744609145177 16)) (.mul (.rd (.var .jTemp)) (.num 10994706834011048 20)))),
  .set (.arr .jac 275) (.add (.rd (.arr .jac 275)) (.mul (.neg (.num 22902626233248052 18)) (.mul (.rd (.var .jTemp)) (.neg (.num 57102223643760053 17))))),
  .set (.arr .jac 278) (.add (.rd (.arr .jac 278)) (.mul (.num 77288876568400677 17) (.mul (.rd (.var .jTemp)) (.neg (.num 57102223643760053 17))))),
  .set (.arr .jac 280) (.add (.rd (.arr .jac 280)) (.mul (.neg (.num 74998613945075876 17)) (.mul (.rd (.var .jTemp)) (.neg (.num 57102223643760053 17))))),
  .set (.arr .jac 296) (.add (.rd (.arr .jac 296)) (.mul (.neg (.num 34734585093427126 18)) (.mul (.rd (.var .jTemp)) (.neg (.num 35870588016911675 18))))),
  .set (.arr .jac 299) (.add (.rd (.arr .jac 299)) (.mul (.num 11721786980233879 16) (.mul (.rd (.var .jTemp)) (.neg (.num 35870588016911675 18))))),
  .set (.arr .jac 301) (.add (.rd (.arr .jac 301)) (.mul (.neg (.num 11374441129299608 16)) (.mul (.rd (.var .jTemp)) (.neg (.num 35870588016911675 18))))),
  .set (.arr .jac 317) (.add (.rd (.arr .jac 317)) (.mul (.neg (.num 33568593911733322 18)) (.mul (.rd (.var .jTemp)) (.neg (.num 71851123102163683 18))))),
  .set (.arr .jac 320) (.add (.rd (.arr .jac 320)) (.mul (.num 11328303073174566 16) (.mul (.rd (.var .jTemp)) (.neg (.num 71851123102163683 18))))),
  .set (.arr .jac 322) (.add (.rd (.arr .jac 322)) (.mul (.neg (.num 10992617134057232 16)) (.mul (.rd (.var .jTemp)) (.neg (.num 71851123102163683 18))))),
  .set (.arr .jac 338) (.add (.rd (.arr .jac 338)) (.mul (.neg (.num 32478341649959309 18)) (.mul (.rd (.var .jTemp)) (.neg (.num 10783165818741525 17))))),
  .set (.arr .jac 341) (.add (.rd (.arr .jac 341)) (.mul (.num 10960378575649719 16) (.mul (.rd (.var .jTemp)) (.neg (.num 10783165818741525 17))))),
  .set (.arr .jac 343) (.add (.rd (.arr .jac 343)) (.mul (.neg (.num 10635595159150126 16)) (.mul (.rd (.var .jTemp)) (.neg (.num 10783165818741525 17))))),
  .set (.arr .jac 359) (.add (.rd (.arr .jac 359)) (.mul (.neg (.num 35928873705342888 18)) (.mul (.rd (.var .jTemp)) (.neg (.num 14378791924458678 19))))),
  .set (.arr .jac 362) (.add (.rd (.arr .jac 362)) (.mul (.num 12124820344937721 16) (.mul (.rd (.var .jTemp)) (.neg (.num 14378791924458678 19))))),
  .set (.arr .jac 364) (.add (.rd (.arr .jac 364)) (.mul (.neg (.num 11765531607884292 16)) (.mul (.rd (.var .jTemp)) (.neg (.num 14378791924458678 19))))),
  .set (.arr .jac 380) (.add (.rd (.arr .jac 380)) (.mul (.neg (.num 3468276115987709 17)) (.mul (.rd (.var .jTemp)) (.neg (.num 37418414277697654 18))))),
  .set (.arr .jac 383) (.add (.rd (.arr .jac 383)) (.mul (.num 11704298096807826 16) (.mul (.rd (.var .jTemp)) (.neg (.num 37418414277697654 18))))),
  .set (.arr .jac 385) (.add (.rd (.arr .jac 385)) (.mul (.neg (.num 11357470485209056 16)) (.mul (.rd (.var .jTemp)) (.neg (.num 37418414277697654 18))))),
  .set (.arr .jac 401) (.add (.rd (.arr .jac 401)) (.mul (.neg (.num 33520188469166906 18)) (.mul (.rd (.var .jTemp)) (.neg (.num 73398949362949439 18))))),
  .set (.arr .jac 404) (.add (.rd (.arr .jac 404)) (.mul (.num 11311967818703517 16) (.mul (.rd (.var .jTemp)) (.neg (.num 73398949362949439 18))))),
  .set (.arr .jac 406) (.add (.rd (.arr .jac 406)) (.mul (.neg (.num 10976765934011847 16)) (.mul (.rd (.var .jTemp)) (.neg (.num 73398949362949439 18))))),
  .set (.arr .jac 422) (.add (.rd (.arr .jac 422)) (.mul (.neg (.num 2523130069089817 17)) (.mul (.rd (.var .jTemp)) (.neg (.num 42602775520927771 17))))),
  .set (.arr .jac 425) (.add (.rd (.arr .jac 425)) (.mul (.num 85147391609091816 17) (.mul (.rd (.var .jTemp)) (.neg (.num 42602775520927771 17))))),
  .set (.arr .jac 427) (.add (.rd (.arr .jac 427)) (.mul (.neg (.num 82624261540002009 17)) (.mul (.rd (.var .jTemp)) (.neg (.num 42602775520927771 17)))))]

/-- utilities/mechanisms/drm19/lib/src/jacobs/jacob_0.c:2537-2548 -/
def jacobT29 : List CStmt := [
  .set (.var .concTemp) (.sub (.add (.add (.add (.add (.add (.add (.rd (.var .m)) (.mul (.num 1 0) (.rd (.arr .C 0)))) (.mul (.num 5 0) (.rd (.arr .C 5)))) (.mul (.num 1 0) (.rd (.arr .C 10)))) (.mul (.num 5 1) (.rd (.arr .C 11)))) (.mul (.num 1 0) (.rd (.arr .C 12)))) (.mul (.num 2 0) (.rd (.arr .C 18)))) (.mul (.num 3 1) (.rd (.arr .C 19)))),
  .set (.var .Pr) (.mul (.rd (.var .concTemp)) (.exp (.sub (.sub (.num 1866754082188389 14) (.mul (.num 234 2) (.rd (.var .logT)))) (.div (.num 61896006477677008 14) (.rd (.var .T)))))),
  .set (.var .Fcent) (.add (.add (.mul (.num 31999999999999995 17) (.exp (.div (.rd (.var .T)) (.neg (.num 78 0))))) (.mul (.num 68000000000000005 17) (.exp (.div (.rd (.var .T)) (.neg (.num 1995 0)))))) (.exp (.div (.neg (.num 5590 0)) (.rd (.var .T))))),
  .set (.var .A) (.sub (.sub (.log10 (.fmax (.rd (.var .Pr)) (.num 1 300))) (.mul (.num 67 2) (.log10 (.fmax (.rd (.var .Fcent)) (.num 1 300))))) (.num 4 1)),
  .set (.var .B) (.sub (.sub (.num 806 3) (.mul (.num 11762 4) (.log10 (.fmax (.rd (.var .Fcent)) (.num 1 300))))) (.mul (.num 14 2) (.log10 (.fmax (.rd (.var .Pr)) (.num 1 300))))),
  .set (.var .lnFAB) (.div (.mul (.mul (.num 2 0) (.log (.fmax (.rd (.var .Fcent)) (.num 1 300)))) (.rd (.var .A))) (.mul (.mul (.mul (.mul (.rd (.var .B)) (.rd (.var .B))) (.rd (.var .B))) (.add (.num 1 0) (.div (.mul (.rd (.var .A)) (.rd (.var .A))) (.mul (.rd (.var .B)) (.rd (.var .B)))))) (.add (.num 1 0) (.div (.mul (.rd (.var .A)) (.rd (.var .A))) (.mul (.rd (.var .B)) (.rd (.var .B))))))),
  .set (.var .jTemp) (.mul (.add (.mul (.mul (.rd (.arr .presMod 5)) (.sub (.add (.div (.sub (.add (.neg (.num 234 2)) (.div (.num 61896006477677008 14) (.rd (.var .T)))) (.num 1 0)) (.mul (.rd (.var .T)) (.add (.num 1 0) (.rd (.var .Pr))))) (.mul (.sub (.div (.num 1 0) (.mul (.rd (.var .Fcent)) (.add (.num 1 0) (.div (.mul (.rd (.var .A)) (.rd (.var .A))) (.mul (.rd (.var .B)) (.rd (.var .B))))))) (.div (.mul (.rd (.var .lnFAB)) (.add (.mul (.neg (.num 2909773028751787 16)) (.rd (.var .B))) (.mul (.num 51081716961460466 17) (.rd (.var .A))))) (.rd (.var .Fcent)))) (.add (.sub (.mul (.neg (.num 41025641025641017 19)) (.exp (.div (.rd (.var .T)) (.neg (.num 78 0))))) (.mul (.num 34085213032581453 20) (.exp (.div (.rd (.var .T)) (.neg (.num 1995 0)))))) (.mul (.div (.num 5590 0) (.mul (.rd (.var .T)) (.rd (.var .T)))) (.exp (.div (.neg (.num 5590 0)) (.rd (.var .T)))))))) (.div (.mul (.mul (.rd (.var .lnFAB)) (.add (.mul (.num 43429448190325176 17) (.rd (.var .B))) (.mul (.num 60801227466455256 18) (.rd (.var .A))))) (.sub (.add (.neg (.num 23399999999999999 16)) (.div (.num 61896006477677008 14) (.rd (.var .T)))) (.num 1 0))) (.rd (.var .T))))) (.sub (.rd (.arr .fwd 29)) (.rd (.arr .rev 29)))) (.mul (.div (.rd (.arr .presMod 5)) (.rd (.var .T))) (.sub (.add (.mul (.sub (.rd (.arr .fwd 29)) (.rd (.arr .rev 29))) (.neg (.num 80000000000000004 17))) (.mul (.rd (.arr .fwd 29)) (.neg (.num 1 0)))) (.mul (.rd (.arr .rev 29)) (.mul (.neg (.rd (.var .T))) (.sub (.sub (.rd (.arr .dBdT 9)) (.rd (.arr .dBdT 1))) (.rd (.arr .dBdT 7)))))))) (.rd (.var .rhoInv))),
  .set (.arr .jac 2) (.add (.rd (.arr .jac 2)) (.mul (.neg (.rd (.var .jTemp))) (.num 10079400000000001 16))),
  .set (.arr .jac 10) (.add (.rd (.arr .jac 10)) (.mul (.rd (.var .jTemp)) (.num 1503482 5))),
  .set (.arr .jac 8) (.add (.rd (.arr .jac 8)) (.mul (.neg (.rd (.var .jTemp))) (.num 14026879999999998 15)))]

/-- utilities/mechanisms/drm19/lib/src/jacobs/jacob_0.c:2549-2622 -/
def jacobS29 : List CStmt := [
  .ite (.rd (.var .T)) (.num 1000 0) (.var .Kc) (.sub (.add (.add (.num 3077803603 9) (.mul (.neg (.num 158908827 8)) (.rd (.var .logT)))) (.mul (.rd (.var .T)) (.add (.num 52103980314733352 20) (.mul (.rd (.var .T)) (.add (.num 48922002533265336 23) (.mul (.rd (.var .T)) (.add (.neg (.num 25168856019173461 26)) (.mul (.num 4282200754638662 29) (.rd (.var .T)))))))))) (.div (.neg (.num 55032701199999996 12)) (.rd (.var .T)))) (.sub (.add (.add (.num 58439448840000008 16) (.mul (.neg (.num 208838342 8)) (.rd (.var .logT)))) (.mul (.rd (.var .T)) (.add (.num 17917537365421488 19) (.mul (.rd (.var .T)) (.add (.neg (.num 26303292102603245 23)) (.mul (.rd (.var .T)) (.add (.num 27958758311262697 27) (.mul (.neg (.num 1397134159909868 30)) (.rd (.var .T)))))))))) (.div (.neg (.num 54961679600000003 12)) (.rd (.var .T)))),
  .set (.var .Kc) (.mul (.num 82057360967184814 18) (.exp (.rd (.var .Kc)))),
  .set (.var .presModTemp) (.mul (.sub (.div (.num 1 0) (.add (.num 1 0) (.rd (.var .Pr)))) (.div (.mul (.mul (.mul (.log (.fmax (.rd (.var .Fcent)) (.num 1 300))) (.num 2 0)) (.rd (.var .A))) (.add (.mul (.rd (.var .B)) (.num 4342944819032518 16)) (.mul (.rd (.var .A)) (.num 6080122746645526 17)))) (.mul (.mul (.mul (.mul (.rd (.var .B)) (.rd (.var .B))) (.rd (.var .B))) (.add (.num 1 0) (.div (.mul (.rd (.var .A)) (.rd (.var .A))) (.mul (.rd (.var .B)) (.rd (.var .B)))))) (.add (.num 1 0) (.div (.mul (.rd (.var .A)) (.rd (.var .A))) (.mul (.rd (.var .B)) (.rd (.var .B)))))))) (.sub (.rd (.arr .fwd 29)) (.rd (.arr .rev 29)))),
  .set (.var .jTemp) (.mul (.mul (.mul (.neg (.rd (.var .mwAvg))) (.rd (.var .rhoInv))) (.rd (.arr .presMod 5))) (.add (.sub (.mul (.num 2 0) (.rd (.arr .fwd 29))) (.rd (.arr .rev 29))) (.rd (.var .presModTemp)))),
  .set (.var .presModTemp) (.mul (.rd (.var .presModTemp)) (.div (.mul (.exp (.sub (.sub (.num 1866754082188389 14) (.mul (.num 234 2) (.rd (.var .logT)))) (.div (.num 61896006477677008 14) (.rd (.var .T))))) (.pow (.rd (.var .Fcent)) (.div (.num 1 0) (.add (.num 1 0) (.div (.mul (.rd (.var .A)) (.rd (.var .A))) (.mul (.rd (.var .B)) (.rd (.var .B)))))))) (.add (.num 1 0) (.rd (.var .Pr))))),
  .set (.var .kf) (.exp (.sub (.num 3084989694079675 14) (.mul (.num 8 1) (.rd (.var .logT))))),
  .set (.var .kr) (.div (.rd (.var .kf)) (.rd (.var .Kc))),
  .set (.arr .jac 23) (.add (.rd (.arr .jac 23)) (.mul (.neg (.num 5 1)) (.add (.mul (.rd (.var .jTemp)) (.num 92803892982949643 17)) (.mul (.num 19280389298294964 16) (.rd (.var .presModTemp)))))),
  .set (.arr .jac 31) (.add (.rd (.arr .jac 31)) (.mul (.num 74581919558703884 16) (.add (.mul (.rd (.var .jTemp)) (.num 92803892982949643 17)) (.mul (.num 19280389298294964 16) (.rd (.var .presModTemp)))))),
  .set (.arr .jac 29) (.add (.rd (.arr .jac 29)) (.mul (.neg (.num 69581919558703875 16)) (.add (.mul (.rd (.var .jTemp)) (.num 92803892982949643 17)) (.mul (.num 19280389298294964 16) (.rd (.var .presModTemp)))))),
  .set (.arr .jac 44) (.add (.rd (.arr .jac 44)) (.neg (.add (.add (.mul (.rd (.var .jTemp)) (.num 96401946491474821 17)) (.mul (.num 96401946491474821 17) (.rd (.var .presModTemp)))) (.mul (.rd (.arr .presMod 5)) (.mul (.rd (.var .kf)) (.rd (.arr .C 7))))))),
  .set (.arr .jac 52) (.add (.rd (.arr .jac 52)) (.mul (.num 14916383911740777 15) (.add (.add (.mul (.rd (.var .jTemp)) (.num 96401946491474821 17)) (.mul (.num 96401946491474821 17) (.rd (.var .presModTemp)))) (.mul (.rd (.arr .presMod 5)) (.mul (.rd (.var .kf)) (.rd (.arr .C 7))))))),
  .set (.arr .jac 50) (.add (.rd (.arr .jac 50)) (.mul (.neg (.num 13916383911740775 15)) (.add (.add (.mul (.rd (.var .jTemp)) (.num 96401946491474821 17)) (.mul (.num 96401946491474821 17) (.rd (.var .presModTemp)))) (.mul (.rd (.arr .presMod 5)) (.mul (.rd (.var .kf)) (.rd (.arr .C 7))))))),
  .set (.arr .jac 65) (.add (.rd (.arr .jac 65)) (.mul (.neg (.num 62998612447966798 18)) (.add (.mul (.rd (.var .jTemp)) (.num 42886781649405936 17)) (.mul (.num 42886781649405936 17) (.rd (.var .presModTemp)))))),
  .set (.arr .jac 73) (.add (.rd (.arr .jac 73)) (.mul (.num 93971148918084424 17) (.add (.mul (.rd (.var .jTemp)) (.num 42886781649405936 17)) (.mul (.num 42886781649405936 17) (.rd (.var .presModTemp)))))),
  .set (.arr .jac 71) (.add (.rd (.arr .jac 71)) (.mul (.neg (.num 87671287673287746 17)) (.add (.mul (.rd (.var .jTemp)) (.num 42886781649405936 17)) (.mul (.num 42886781649405936 17) (.rd (.var .presModTemp)))))),
  .set (.arr .jac 86) (.add (.rd (.arr .jac 86)) (.mul (.neg (.num 31499306223983399 18)) (.add (.mul (.rd (.var .jTemp)) (.neg (.num 14226436701188128 17))) (.mul (.neg (.num 14226436701188128 17)) (.rd (.var .presModTemp)))))),
  .set (.arr .jac 94) (.add (.rd (.arr .jac 94)) (.mul (.num 46985574459042212 17) (.add (.mul (.rd (.var .jTemp)) (.neg (.num 14226436701188128 17))) (.mul (.neg (.num 14226436701188128 17)) (.rd (.var .presModTemp)))))),
  .set (.arr .jac 92) (.add (.rd (.arr .jac 92)) (.mul (.neg (.num 43835643836643873 17)) (.add (.mul (.rd (.var .jTemp)) (.neg (.num 14226436701188128 17))) (.mul (.neg (.num 14226436701188128 17)) (.rd (.var .presModTemp)))))),
  .set (.arr .jac 107) (.add (.rd (.arr .jac 107)) (.mul (.neg (.num 59264999700129481 18)) (.add (.mul (.rd (.var .jTemp)) (.num 39288728140880758 17)) (.mul (.num 39288728140880758 17) (.rd (.var .presModTemp)))))),
  .set (.arr .jac 115) (.add (.rd (.arr .jac 115)) (.mul (.num 88401948805633335 17) (.add (.mul (.rd (.var .jTemp)) (.num 39288728140880758 17)) (.mul (.num 39288728140880758 17) (.rd (.var .presModTemp)))))),
  .set (.arr .jac 113) (.add (.rd (.arr .jac 113)) (.mul (.neg (.num 8247544883562038 16)) (.add (.mul (.rd (.var .jTemp)) (.num 39288728140880758 17)) (.mul (.num 39288728140880758 17) (.rd (.var .presModTemp)))))),
  .set (.arr .jac 128) (.add (.rd (.arr .jac 128)) (.mul (.neg (.num 55949172036182618 18)) (.add (.mul (.rd (.var .jTemp)) (.num 35690674632355568 17)) (.mul (.num 53569067463235553 16) (.rd (.var .presModTemp)))))),
  .set (.arr .jac 136) (.add (.rd (.arr .jac 136)) (.mul (.num 83455932963573143 17) (.add (.mul (.rd (.var .jTemp)) (.num 35690674632355568 17)) (.mul (.num 53569067463235553 16) (.rd (.var .presModTemp)))))),
  .set (.arr .jac 134) (.add (.rd (.arr .jac 134)) (.mul (.neg (.num 77861015759954877 17)) (.add (.mul (.rd (.var .jTemp)) (.num 35690674632355568 17)) (.mul (.num 53569067463235553 16) (.rd (.var .presModTemp)))))),
  .set (.arr .jac 149) (.add (.rd (.arr .jac 149)) (.mul (.neg (.num 3053739933116691 17)) (.add (.mul (.rd (.var .jTemp)) (.neg (.num 17824490209713328 17))) (.mul (.neg (.num 17824490209713328 17)) (.rd (.var .presModTemp)))))),
  .set (.arr .jac 157) (.add (.rd (.arr .jac 157)) (.mul (.num 45550757208982162 17) (.add (.mul (.rd (.var .jTemp)) (.neg (.num 17824490209713328 17))) (.mul (.neg (.num 17824490209713328 17)) (.rd (.var .presModTemp)))))),
  .set (.arr .jac 155) (.add (.rd (.arr .jac 155)) (.mul (.neg (.num 42497017275865467 17)) (.add (.mul (.rd (.var .jTemp)) (.neg (.num 17824490209713328 17))) (.mul (.neg (.num 17824490209713328 17)) (.rd (.var .presModTemp)))))),
  .set (.arr .jac 170) (.add (.rd (.arr .jac 170)) (.mul (.neg (.num 71857747410685777 18)) (.add (.add (.mul (.rd (.var .jTemp)) (.num 49928106040377707 17)) (.mul (.num 49928106040377707 17) (.rd (.var .presModTemp)))) (.mul (.rd (.arr .presMod 5)) (.mul (.rd (.var .kf)) (.rd (.arr .C 1))))))),
  .set (.arr .jac 178) (.add (.rd (.arr .jac 178)) (.mul (.num 10718577474106858 16) (.add (.add (.mul (.rd (.var .jTemp)) (.num 49928106040377707 17)) (.mul (.num 49928106040377707 17) (.rd (.var .presModTemp)))) (.mul (.rd (.arr .presMod 5)) (.mul (.rd (.var .kf)) (.rd (.arr .C 1))))))),
  .set (.arr .jac 176) (.add (.rd (.arr .jac 176)) (.neg (.add (.add (.mul (.rd (.var .jTemp)) (.num 49928106040377707 17)) (.mul (.num 49928106040377707 17) (.rd (.var .presModTemp)))) (.mul (.rd (.arr .presMod 5)) (.mul (.rd (.var .kf)) (.rd (.arr .C 1))))))),
  .set (.arr .jac 191) (.add (.rd (.arr .jac 191)) (.mul (.neg (.num 71857747410685777 18)) (.add (.mul (.rd (.var .jTemp)) (.num 49928106040377707 17)) (.mul (.num 49928106040377707 17) (.rd (.var .presModTemp)))))),
  .set (.arr .jac 199) (.add (.rd (.arr .jac 199)) (.mul (.num 10718577474106858 16) (.add (.mul (.rd (.var .jTemp)) (.num 49928106040377707 17)) (.mul (.num 49928106040377707 17) (.rd (.var .presModTemp)))))),
  .set (.arr .jac 197) (.add (.rd (.arr .jac 197)) (.neg (.add (.mul (.rd (.var .jTemp)) (.num 49928106040377707 17)) (.mul (.num 49928106040377707 17) (.rd (.var .presModTemp)))))),
  .set (.arr .jac 212) (.add (.rd (.arr .jac 212)) (.mul (.neg (.num 67040376938333812 18)) (.add (.add (.mul (.rd (.var .jTemp)) (.num 46330052531852528 17)) (.mul (.num 46330052531852528 17) (.rd (.var .presModTemp)))) (.mul (.rd (.arr .presMod 5)) (.neg (.rd (.var .kr))))))),
  .set (.arr .jac 220) (.add (.rd (.arr .jac 220)) (.add (.add (.mul (.rd (.var .jTemp)) (.num 46330052531852528 17)) (.mul (.num 46330052531852528 17) (.rd (.var .presModTemp)))) (.mul (.rd (.arr .presMod 5)) (.neg (.rd (.var .kr)))))),
  .set (.arr .jac 218) (.add (.rd (.arr .jac 218)) (.mul (.neg (.num 93295962306166613 17)) (.add (.add (.mul (.rd (.var .jTemp)) (.num 46330052531852528 17)) (.mul (.num 46330052531852528 17) (.rd (.var .presModTemp)))) (.mul (.rd (.arr .presMod 5)) (.neg (.rd (.var .kr))))))),
  .set (.arr .jac 233) (.add (.rd (.arr .jac 233)) (.mul (.neg (.num 6282834125798803 17)) (.add (.mul (.rd (.var .jTemp)) (.num 42731999023327338 17)) (.mul (.num 14273199902332734 16) (.rd (.var .presModTemp)))))),
  .set (.arr .jac 241) (.add (.rd (.arr .jac 241)) (.mul (.num 93717165874201191 17) (.add (.mul (.rd (.var .jTemp)) (.num 42731999023327338 17)) (.mul (.num 14273199902332734 16) (.rd (.var .presModTemp)))))),
  .set (.arr .jac 239) (.add (.rd (.arr .jac 239)) (.mul (.neg (.num 87434331748402383 17)) (.add (.mul (.rd (.var .jTemp)) (.num 42731999023327338 17)) (.mul (.num 14273199902332734 16) (.rd (.var .presModTemp)))))),
  .set (.arr .jac 254) (.add (.rd (.arr .jac 254)) (.mul (.neg (.num 35984491474595155 18)) (.add (.mul (.rd (.var .jTemp)) (.num 10994706834011048 20)) (.mul (.num 50010994706834011 17) (.rd (.var .presModTemp)))))),
  .set (.arr .jac 262) (.add (.rd (.arr .jac 262)) (.mul (.num 53675848970382434 17) (.add (.mul (.rd (.var .jTemp)) (.num 10994706834011048 20)) (.mul (.num 50010994706834011 17) (.rd (.var .presModTemp)))))),
  .set (.arr .jac 260) (.add (.rd (.arr .jac 260)) (.mul (.neg (.num 50077399822922919 17)) (.add (.mul (.rd (.var .jTemp)) (.num 10994706834011048 20)) (.mul (.num 50010994706834011 17) (.rd (.var .presModTemp)))))),
  .set (.arr .jac 275) (.add (.rd (.arr .jac 275)) (.mul (.neg (.num 22902626233248052 18)) (.add (.mul (.rd (.var .jTemp)) (.neg (.num 57102223643760053 17))) (.mul (.num 42897776356239947 17) (.rd (.var .presModTemp)))))),
  .set (.arr .jac 283) (.add (.rd (.arr .jac 283)) (.mul (.num 34162436548223352 17) (.add (.mul (.rd (.var .jTemp)) (.neg (.num 57102223643760053 17))) (.mul (.num 42897776356239947 17) (.rd (.var .presModTemp)))))),
  .set (.arr .jac 281) (.add (.rd (.arr .jac 281)) (.mul (.neg (.num 31872173924898545 17)) (.add (.mul (.rd (.var .jTemp)) (.neg (.num 57102223643760053 17))) (.mul (.num 42897776356239947 17) (.rd (.var .presModTemp)))))),
  .set (.arr .jac 296) (.add (.rd (.arr .jac 296)) (.mul (.neg (.num 34734585093427126 18)) (.add (.mul (.rd (.var .jTemp)) (.neg (.num 35870588016911675 18))) (.mul (.neg (.num 35870588016911675 18)) (.rd (.var .presModTemp)))))),
  .set (.arr .jac 304) (.add (.rd (.arr .jac 304)) (.mul (.num 5181144062685874 16) (.add (.mul (.rd (.var .jTemp)) (.neg (.num 35870588016911675 18))) (.mul (.neg (.num 35870588016911675 18)) (.rd (.var .presModTemp)))))),
  .set (.arr .jac 302) (.add (.rd (.arr .jac 302)) (.mul (.neg (.num 48337982117516021 17)) (.add (.mul (.rd (.var .jTemp)) (.neg (.num 35870588016911675 18))) (.mul (.neg (.num 35870588016911675 18)) (.rd (.var .presModTemp)))))),
  .set (.arr .jac 317) (.add (.rd (.arr .jac 317)) (.mul (.neg (.num 33568593911733322 18)) (.add (.mul (.rd (.var .jTemp)) (.neg (.num 71851123102163683 18))) (.mul (.neg (.num 71851123102163683 18)) (.rd (.var .presModTemp)))))),
  .set (.arr .jac 325) (.add (.rd (.arr .jac 325)) (.mul (.num 50072203416473837 17) (.add (.mul (.rd (.var .jTemp)) (.neg (.num 71851123102163683 18))) (.mul (.neg (.num 71851123102163683 18)) (.rd (.var .presModTemp)))))),
  .set (.arr .jac 323) (.add (.rd (.arr .jac 323)) (.mul (.neg (.num 46715344025300498 17)) (.add (.mul (.rd (.var .jTemp)) (.neg (.num 71851123102163683 18))) (.mul (.neg (.num 71851123102163683 18)) (.rd (.var .presModTemp)))))),
  .set (.arr .jac 338) (.add (.rd (.arr .jac 338)) (.mul (.neg (.num 32478341649959309 18)) (.add (.mul (.rd (.var .jTemp)) (.neg (.num 10783165818741525 17))) (.mul (.neg (.num 10783165818741525 17)) (.rd (.var .presModTemp)))))),
  .set (.arr .jac 346) (.add (.rd (.arr .jac 346)) (.mul (.num 4844594128674734 16) (.add (.mul (.rd (.var .jTemp)) (.neg (.num 10783165818741525 17))) (.mul (.neg (.num 10783165818741525 17)) (.rd (.var .presModTemp)))))),
  .set (.arr .jac 344) (.add (.rd (.arr .jac 344)) (.mul (.neg (.num 45198107121751407 17)) (.add (.mul (.rd (.var .jTemp)) (.neg (.num 10783165818741525 17))) (.mul (.neg (.num 10783165818741525 17)) (.rd (.var .presModTemp)))))),
  .set (.arr .jac 359) (.add (.rd (.arr .jac 359)) (.mul (.neg (.num 35928873705342888 18)) (.add (.mul (.rd (.var .jTemp)) (.neg (.num 14378791924458678 19))) (.mul (.neg (.num 14378791924458678 19)) (.rd (.var .presModTemp)))))),
  .set (.arr .jac 367) (.add (.rd (.arr .jac 367)) (.mul (.num 53592887370534292 17) (.add (.mul (.rd (.var .jTemp)) (.neg (.num 14378791924458678 19))) (.mul (.neg (.num 14378791924458678 19)) (.rd (.var .presModTemp)))))),
  .set (.arr .jac 365) (.add (.rd (.arr .jac 365)) (.mul (.neg (.num 5 1)) (.add (.mul (.rd (.var .jTemp)) (.neg (.num 14378791924458678 19))) (.mul (.neg (.num 14378791924458678 19)) (.rd (.var .presModTemp)))))),
  .set (.arr .jac 380) (.add (.rd (.arr .jac 380)) (.mul (.neg (.num 3468276115987709 17)) (.add (.mul (.rd (.var .jTemp)) (.neg (.num 37418414277697654 18))) (.mul (.neg (.num 37418414277697654 18)) (.rd (.var .presModTemp)))))),
  .set (.arr .jac 388) (.add (.rd (.arr .jac 388)) (.mul (.num 51734138057993861 17) (.add (.mul (.rd (.var .jTemp)) (.neg (.num 37418414277697654 18))) (.mul (.neg (.num 37418414277697654 18)) (.rd (.var .presModTemp)))))),
  .set (.arr .jac 386) (.add (.rd (.arr .jac 386)) (.mul (.neg (.num 48265861942006144 17)) (.add (.mul (.rd (.var .jTemp)) (.neg (.num 37418414277697654 18))) (.mul (.neg (.num 37418414277697654 18)) (.rd (.var .presModTemp)))))),
  .set (.arr .jac 401) (.add (.rd (.arr .jac 401)) (.mul (.neg (.num 33520188469166906 18)) (.add (.mul (.rd (.var .jTemp)) (.neg (.num 73398949362949439 18))) (.mul (.num 19266010506370506 16) (.rd (.var .presModTemp)))))),
  .set (.arr .jac 409) (.add (.rd (.arr .jac 409)) (.mul (.num 5 1) (.add (.mul (.rd (.var .jTemp)) (.neg (.num 73398949362949439 18))) (.mul (.num 19266010506370506 16) (.rd (.var .presModTemp)))))),
  .set (.arr .jac 407) (.add (.rd (.arr .jac 407)) (.mul (.neg (.num 46647981153083307 17)) (.add (.mul (.rd (.var .jTemp)) (.neg (.num 73398949362949439 18))) (.mul (.num 19266010506370506 16) (.rd (.var .presModTemp)))))),
  .set (.arr .jac 422) (.add (.rd (.arr .jac 422)) (.mul (.neg (.num 2523130069089817 17)) (.add (.mul (.rd (.var .jTemp)) (.neg (.num 42602775520927771 17))) (.mul (.neg (.num 72602775520927776 17)) (.rd (.var .presModTemp)))))),
  .set (.arr .jac 430) (.add (.rd (.arr .jac 430)) (.mul (.num 37635976769800739 17) (.add (.mul (.rd (.var .jTemp)) (.neg (.num 42602775520927771 17))) (.mul (.neg (.num 72602775520927776 17)) (.rd (.var .presModTemp)))))),
  .set (.arr .jac 428) (.add (.rd (.arr .jac 428)) (.mul (.neg (.num 3511284670071092 16)) (.add (.mul (.rd (.var .jTemp)) (.neg (.num 42602775520927771 17))) (.mul (.neg (.num 72602775520927776 17)) (.rd (.var .presModTemp))))))]

/-- utilities/mechanisms/drm19/lib/src/jacobs/jacob_0.c:2623-2633 -/
def jacobT30 : List CStmt := [
  .set (.var .Pr) (.mul (.rd (.var .concTemp)) (.exp (.sub (.sub (.num 3290422255195336 14) (.mul (.num 413 2) (.rd (.var .logT)))) (.div (.num 10351226449152975 13) (.rd (.var .T)))))),
  .set (.var .Fcent) (.add (.add (.mul (.num 21699999999999997 17) (.exp (.div (.rd (.var .T)) (.neg (.num 74 0))))) (.mul (.num 78300000000000003 17) (.exp (.div (.rd (.var .T)) (.neg (.num 2941 0)))))) (.exp (.div (.neg (.num 6964 0)) (.rd (.var .T))))),
  .set (.var .A) (.sub (.sub (.log10 (.fmax (.rd (.var .Pr)) (.num 1 300))) (.mul (.num 67 2) (.log10 (.fmax (.rd (.var .Fcent)) (.num 1 300))))) (.num 4 1)),
  .set (.var .B) (.sub (.sub (.num 806 3) (.mul (.num 11762 4) (.log10 (.fmax (.rd (.var .Fcent)) (.num 1 300))))) (.mul (.num 14 2) (.log10 (.fmax (.rd (.var .Pr)) (.num 1 300))))),
  .set (.var .lnFAB) (.div (.mul (.mul (.num 2 0) (.log (.fmax (.rd (.var .Fcent)) (.num 1 300)))) (.rd (.var .A))) (.mul (.mul (.mul (.mul (.rd (.var .B)) (.rd (.var .B))) (.rd (.var .B))) (.add (.num 1 0) (.div (.mul (.rd (.var .A)) (.rd (.var .A))) (.mul (.rd (.var .B)) (.rd (.var .B)))))) (.add (.num 1 0) (.div (.mul (.rd (.var .A)) (.rd (.var .A))) (.mul (.rd (.var .B)) (.rd (.var .B))))))),
  .set (.var .jTemp) (.mul (.add (.mul (.mul (.rd (.arr .presMod 6)) (.sub (.add (.div (.sub (.add (.neg (.num 413 2)) (.div (.num 10351226449152975 13) (.rd (.var .T)))) (.num 1 0)) (.mul (.rd (.var .T)) (.add (.num 1 0) (.rd (.var .Pr))))) (.mul (.sub (.div (.num 1 0) (.mul (.rd (.var .Fcent)) (.add (.num 1 0) (.div (.mul (.rd (.var .A)) (.rd (.var .A))) (.mul (.rd (.var .B)) (.rd (.var .B))))))) (.div (.mul (.rd (.var .lnFAB)) (.add (.mul (.neg (.num 2909773028751787 16)) (.rd (.var .B))) (.mul (.num 51081716961460466 17) (.rd (.var .A))))) (.rd (.var .Fcent)))) (.add (.sub (.mul (.neg (.num 29324324324324319 19)) (.exp (.div (.rd (.var .T)) (.neg (.num 74 0))))) (.mul (.num 26623597415844952 20) (.exp (.div (.rd (.var .T)) (.neg (.num 2941 0)))))) (.mul (.div (.num 6964 0) (.mul (.rd (.var .T)) (.rd (.var .T)))) (.exp (.div (.neg (.num 6964 0)) (.rd (.var .T)))))))) (.div (.mul (.mul (.rd (.var .lnFAB)) (.add (.mul (.num 43429448190325176 17) (.rd (.var .B))) (.mul (.num 60801227466455256 18) (.rd (.var .A))))) (.sub (.add (.neg (.num 41299999999999999 16)) (.div (.num 10351226449152975 13) (.rd (.var .T)))) (.num 1 0))) (.rd (.var .T))))) (.sub (.rd (.arr .fwd 30)) (.rd (.arr .rev 30)))) (.mul (.div (.rd (.arr .presMod 6)) (.rd (.var .T))) (.sub (.add (.mul (.sub (.rd (.arr .fwd 30)) (.rd (.arr .rev 30))) (.add (.neg (.num 63 2)) (.div (.num 19273309334105929 14) (.rd (.var .T))))) (.mul (.rd (.arr .fwd 30)) (.neg (.num 1 0)))) (.mul (.rd (.arr .rev 30)) (.mul (.neg (.rd (.var .T))) (.sub (.sub (.rd (.arr .dBdT 10)) (.rd (.arr .dBdT 1))) (.rd (.arr .dBdT 9)))))))) (.rd (.var .rhoInv))),
  .set (.arr .jac 2) (.add (.rd (.arr .jac 2)) (.mul (.neg (.rd (.var .jTemp))) (.num 10079400000000001 16))),
  .set (.arr .jac 11) (.add (.rd (.arr .jac 11)) (.mul (.rd (.var .jTemp)) (.num 16042760000000001 15))),
  .set (.arr .jac 10) (.add (.rd (.arr .jac 10)) (.mul (.neg (.rd (.var .jTemp))) (.num 1503482 5)))]

/-- utilities/mechanisms/drm19/lib/src/jacobs/jacob_0.c:2634-2707 -/
def jacobS30 : List CStmt := [
  .ite (.rd (.var .T)) (.num 1000 0) (.var .Kc) (.sub (.add (.add (.neg (.num 47754709669999986 16)) (.mul (.neg (.num 23714270000000148 18)) (.rd (.var .logT)))) (.mul (.rd (.var .T)) (.add (.neg (.num 78409652753526661 19)) (.mul (.rd (.var .T)) (.add (.num 72416402236659874 22) (.mul (.rd (.var .T)) (.add (.neg (.num 3466927362691735 24)) (.mul (.num 70627691304638665 29) (.rd (.var .T)))))))))) (.div (.neg (.num 52165306299999997 12)) (.rd (.var .T)))) (.sub (.add (.add (.num 15114795359000002 15) (.mul (.neg (.num 37108662350000001 16)) (.rd (.var .logT)))) (.mul (.rd (.var .T)) (.add (.num 30755231765421482 19) (.mul (.rd (.var .T)) (.add (.neg (.num 45761910435936572 23)) (.mul (.rd (.var .T)) (.add (.num 52270059227929359 27) (.mul (.neg (.num 27549895549098682 31)) (.rd (.var .T)))))))))) (.div (.neg (.num 51717588789999994 12)) (.rd (.var .T)))),
  .set (.var .Kc) (.mul (.num 82057360967184814 18) (.exp (.rd (.var .Kc)))),
  .set (.var .presModTemp) (.mul (.sub (.div (.num 1 0) (.add (.num 1 0) (.rd (.var .Pr)))) (.div (.mul (.mul (.mul (.log (.fmax (.rd (.var .Fcent)) (.num 1 300))) (.num 2 0)) (.rd (.var .A))) (.add (.mul (.rd (.var .B)) (.num 4342944819032518 16)) (.mul (.rd (.var .A)) (.num 6080122746645526 17)))) (.mul (.mul (.mul (.mul (.rd (.var .B)) (.rd (.var .B))) (.rd (.var .B))) (.add (.num 1 0) (.div (.mul (.rd (.var .A)) (.rd (.var .A))) (.mul (.rd (.var .B)) (.rd (.var .B)))))) (.add (.num 1 0) (.div (.mul (.rd (.var .A)) (.rd (.var .A))) (.mul (.rd (.var .B)) (.rd (.var .B)))))))) (.sub (.rd (.arr .fwd 30)) (.rd (.arr .rev 30)))),
  .set (.var .jTemp) (.mul (.mul (.mul (.neg (.rd (.var .mwAvg))) (.rd (.var .rhoInv))) (.rd (.arr .presMod 6))) (.add (.sub (.mul (.num 2 0) (.rd (.arr .fwd 30))) (.rd (.arr .rev 30))) (.rd (.var .presModTemp)))),
  .set (.var .presModTemp) (.mul (.rd (.var .presModTemp)) (.div (.mul (.exp (.sub (.sub (.num 3290422255195336 14) (.mul (.num 413 2) (.rd (.var .logT)))) (.div (.num 10351226449152975 13) (.rd (.var .T))))) (.pow (.rd (.var .Fcent)) (.div (.num 1 0) (.add (.num 1 0) (.div (.mul (.rd (.var .A)) (.rd (.var .A))) (.mul (.rd (.var .B)) (.rd (.var .B)))))))) (.add (.num 1 0) (.rd (.var .Pr))))),
  .set (.var .kf) (.exp (.sub (.sub (.num 30172623109393093 15) (.mul (.num 63 2) (.rd (.var .logT)))) (.div (.num 19273309334105929 14) (.rd (.var .T))))),
  .set (.var .kr) (.div (.rd (.var .kf)) (.rd (.var .Kc))),
  .set (.arr .jac 23) (.add (.rd (.arr .jac 23)) (.mul (.neg (.num 5 1)) (.add (.mul (.rd (.var .jTemp)) (.num 92803892982949643 17)) (.mul (.num 19280389298294964 16) (.rd (.var .presModTemp)))))),
  .set (.arr .jac 32) (.add (.rd (.arr .jac 32)) (.mul (.num 79581919558703893 16) (.add (.mul (.rd (.var .jTemp)) (.num 92803892982949643 17)) (.mul (.num 19280389298294964 16) (.rd (.var .presModTemp)))))),
  .set (.arr .jac 31) (.add (.rd (.arr .jac 31)) (.mul (.neg (.num 74581919558703884 16)) (.add (.mul (.rd (.var .jTemp)) (.num 92803892982949643 17)) (.mul (.num 19280389298294964 16) (.rd (.var .presModTemp)))))),
  .set (.arr .jac 44) (.add (.rd (.arr .jac 44)) (.neg (.add (.add (.mul (.rd (.var .jTemp)) (.num 96401946491474821 17)) (.mul (.num 96401946491474821 17) (.rd (.var .presModTemp)))) (.mul (.rd (.arr .presMod 6)) (.mul (.rd (.var .kf)) (.rd (.arr .C 9))))))),
  .set (.arr .jac 53) (.add (.rd (.arr .jac 53)) (.mul (.num 15916383911740779 15) (.add (.add (.mul (.rd (.var .jTemp)) (.num 96401946491474821 17)) (.mul (.num 96401946491474821 17) (.rd (.var .presModTemp)))) (.mul (.rd (.arr .presMod 6)) (.mul (.rd (.var .kf)) (.rd (.arr .C 9))))))),
  .set (.arr .jac 52) (.add (.rd (.arr .jac 52)) (.mul (.neg (.num 14916383911740777 15)) (.add (.add (.mul (.rd (.var .jTemp)) (.num 96401946491474821 17)) (.mul (.num 96401946491474821 17) (.rd (.var .presModTemp)))) (.mul (.rd (.arr .presMod 6)) (.mul (.rd (.var .kf)) (.rd (.arr .C 9))))))),
  .set (.arr .jac 65) (.add (.rd (.arr .jac 65)) (.mul (.neg (.num 62998612447966798 18)) (.add (.mul (.rd (.var .jTemp)) (.num 42886781649405936 17)) (.mul (.num 42886781649405936 17) (.rd (.var .presModTemp)))))),
  .set (.arr .jac 74) (.add (.rd (.arr .jac 74)) (.mul (.num 10027101016288111 16) (.add (.mul (.rd (.var .jTemp)) (.num 42886781649405936 17)) (.mul (.num 42886781649405936 17) (.rd (.var .presModTemp)))))),
  .set (.arr .jac 73) (.add (.rd (.arr .jac 73)) (.mul (.neg (.num 93971148918084424 17)) (.add (.mul (.rd (.var .jTemp)) (.num 42886781649405936 17)) (.mul (.num 42886781649405936 17) (.rd (.var .presModTemp)))))),
  .set (.arr .jac 86) (.add (.rd (.arr .jac 86)) (.mul (.neg (.num 31499306223983399 18)) (.add (.mul (.rd (.var .jTemp)) (.neg (.num 14226436701188128 17))) (.mul (.neg (.num 14226436701188128 17)) (.rd (.var .presModTemp)))))),
  .set (.arr .jac 95) (.add (.rd (.arr .jac 95)) (.mul (.num 50135505081440557 17) (.add (.mul (.rd (.var .jTemp)) (.neg (.num 14226436701188128 17))) (.mul (.neg (.num 14226436701188128 17)) (.rd (.var .presModTemp)))))),
  .set (.arr .jac 94) (.add (.rd (.arr .jac 94)) (.mul (.neg (.num 46985574459042212 17)) (.add (.mul (.rd (.var .jTemp)) (.neg (.num 14226436701188128 17))) (.mul (.neg (.num 14226436701188128 17)) (.rd (.var .presModTemp)))))),
  .set (.arr .jac 107) (.add (.rd (.arr .jac 107)) (.mul (.neg (.num 59264999700129481 18)) (.add (.mul (.rd (.var .jTemp)) (.num 39288728140880758 17)) (.mul (.num 39288728140880758 17) (.rd (.var .presModTemp)))))),
  .set (.arr .jac 116) (.add (.rd (.arr .jac 116)) (.mul (.num 9432844877564629 16) (.add (.mul (.rd (.var .jTemp)) (.num 39288728140880758 17)) (.mul (.num 39288728140880758 17) (.rd (.var .presModTemp)))))),
  .set (.arr .jac 115) (.add (.rd (.arr .jac 115)) (.mul (.neg (.num 88401948805633335 17)) (.add (.mul (.rd (.var .jTemp)) (.num 39288728140880758 17)) (.mul (.num 39288728140880758 17) (.rd (.var .presModTemp)))))),
  .set (.arr .jac 128) (.add (.rd (.arr .jac 128)) (.mul (.neg (.num 55949172036182618 18)) (.add (.mul (.rd (.var .jTemp)) (.num 35690674632355568 17)) (.mul (.num 53569067463235553 16) (.rd (.var .presModTemp)))))),
  .set (.arr .jac 137) (.add (.rd (.arr .jac 137)) (.mul (.num 89050850167191409 17) (.add (.mul (.rd (.var .jTemp)) (.num 35690674632355568 17)) (.mul (.num 53569067463235553 16) (.rd (.var .presModTemp)))))),
  .set (.arr .jac 136) (.add (.rd (.arr .jac 136)) (.mul (.neg (.num 83455932963573143 17)) (.add (.mul (.rd (.var .jTemp)) (.num 35690674632355568 17)) (.mul (.num 53569067463235553 16) (.rd (.var .presModTemp)))))),
  .set (.arr .jac 149) (.add (.rd (.arr .jac 149)) (.mul (.neg (.num 3053739933116691 17)) (.add (.mul (.rd (.var .jTemp)) (.neg (.num 17824490209713328 17))) (.mul (.neg (.num 17824490209713328 17)) (.rd (.var .presModTemp)))))),
  .set (.arr .jac 158) (.add (.rd (.arr .jac 158)) (.mul (.num 48604497142098857 17) (.add (.mul (.rd (.var .jTemp)) (.neg (.num 17824490209713328 17))) (.mul (.neg (.num 17824490209713328 17)) (.rd (.var .presModTemp)))))),
  .set (.arr .jac 157) (.add (.rd (.arr .jac 157)) (.mul (.neg (.num 45550757208982162 17)) (.add (.mul (.rd (.var .jTemp)) (.neg (.num 17824490209713328 17))) (.mul (.neg (.num 17824490209713328 17)) (.rd (.var .presModTemp)))))),
  .set (.arr .jac 170) (.add (.rd (.arr .jac 170)) (.mul (.neg (.num 71857747410685777 18)) (.add (.mul (.rd (.var .jTemp)) (.num 49928106040377707 17)) (.mul (.num 49928106040377707 17) (.rd (.var .presModTemp)))))),
  .set (.arr .jac 179) (.add (.rd (.arr .jac 179)) (.mul (.num 11437154948213717 16) (.add (.mul (.rd (.var .jTemp)) (.num 49928106040377707 17)) (.mul (.num 49928106040377707 17) (.rd (.var .presModTemp)))))),
  .set (.arr .jac 178) (.add (.rd (.arr .jac 178)) (.mul (.neg (.num 10718577474106858 16)) (.add (.mul (.rd (.var .jTemp)) (.num 49928106040377707 17)) (.mul (.num 49928106040377707 17) (.rd (.var .presModTemp)))))),
  .set (.arr .jac 191) (.add (.rd (.arr .jac 191)) (.mul (.neg (.num 71857747410685777 18)) (.add (.mul (.rd (.var .jTemp)) (.num 49928106040377707 17)) (.mul (.num 49928106040377707 17) (.rd (.var .presModTemp)))))),
  .set (.arr .jac 200) (.add (.rd (.arr .jac 200)) (.mul (.num 11437154948213717 16) (.add (.mul (.rd (.var .jTemp)) (.num 49928106040377707 17)) (.mul (.num 49928106040377707 17) (.rd (.var .presModTemp)))))),
  .set (.arr .jac 199) (.add (.rd (.arr .jac 199)) (.mul (.neg (.num 10718577474106858 16)) (.add (.mul (.rd (.var .jTemp)) (.num 49928106040377707 17)) (.mul (.num 49928106040377707 17) (.rd (.var .presModTemp)))))),
  .set (.arr .jac 212) (.add (.rd (.arr .jac 212)) (.mul (.neg (.num 67040376938333812 18)) (.add (.add (.mul (.rd (.var .jTemp)) (.num 46330052531852528 17)) (.mul (.num 46330052531852528 17) (.rd (.var .presModTemp)))) (.mul (.rd (.arr .presMod 6)) (.mul (.rd (.var .kf)) (.rd (.arr .C 1))))))),
  .set (.arr .jac 221) (.add (.rd (.arr .jac 221)) (.mul (.num 10670403769383339 16) (.add (.add (.mul (.rd (.var .jTemp)) (.num 46330052531852528 17)) (.mul (.num 46330052531852528 17) (.rd (.var .presModTemp)))) (.mul (.rd (.arr .presMod 6)) (.mul (.rd (.var .kf)) (.rd (.arr .C 1))))))),
  .set (.arr .jac 220) (.add (.rd (.arr .jac 220)) (.neg (.add (.add (.mul (.rd (.var .jTemp)) (.num 46330052531852528 17)) (.mul (.num 46330052531852528 17) (.rd (.var .presModTemp)))) (.mul (.rd (.arr .presMod 6)) (.mul (.rd (.var .kf)) (.rd (.arr .C 1))))))),
  .set (.arr .jac 233) (.add (.rd (.arr .jac 233)) (.mul (.neg (.num 6282834125798803 17)) (.add (.add (.mul (.rd (.var .jTemp)) (.num 42731999023327338 17)) (.mul (.num 14273199902332734 16) (.rd (.var .presModTemp)))) (.mul (.rd (.arr .presMod 6)) (.neg (.rd (.var .kr))))))),
  .set (.arr .jac 242) (.add (.rd (.arr .jac 242)) (.add (.add (.mul (.rd (.var .jTemp)) (.num 42731999023327338 17)) (.mul (.num 14273199902332734 16) (.rd (.var .presModTemp)))) (.mul (.rd (.arr .presMod 6)) (.neg (.rd (.var .kr)))))),
  .set (.arr .jac 241) (.add (.rd (.arr .jac 241)) (.mul (.neg (.num 93717165874201191 17)) (.add (.add (.mul (.rd (.var .jTemp)) (.num 42731999023327338 17)) (.mul (.num 14273199902332734 16) (.rd (.var .presModTemp)))) (.mul (.rd (.arr .presMod 6)) (.neg (.rd (.var .kr))))))),
  .set (.arr .jac 254) (.add (.rd (.arr .jac 254)) (.mul (.neg (.num 35984491474595155 18)) (.add (.mul (.rd (.var .jTemp)) (.num 10994706834011048 20)) (.mul (.num 50010994706834011 17) (.rd (.var .presModTemp)))))),
  .set (.arr .jac 263) (.add (.rd (.arr .jac 263)) (.mul (.num 5727429811784196 16) (.add (.mul (.rd (.var .jTemp)) (.num 10994706834011048 20)) (.mul (.num 50010994706834011 17) (.rd (.var .presModTemp)))))),
  .set (.arr .jac 262) (.add (.rd (.arr .jac 262)) (.mul (.neg (.num 53675848970382434 17)) (.add (.mul (.rd (.var .jTemp)) (.num 10994706834011048 20)) (.mul (.num 50010994706834011 17) (.rd (.var .presModTemp)))))),
  .set (.arr .jac 275) (.add (.rd (.arr .jac 275)) (.mul (.neg (.num 22902626233248052 18)) (.add (.mul (.rd (.var .jTemp)) (.neg (.num 57102223643760053 17))) (.mul (.num 42897776356239947 17) (.rd (.var .presModTemp)))))),
  .set (.arr .jac 284) (.add (.rd (.arr .jac 284)) (.mul (.num 36452699171548159 17) (.add (.mul (.rd (.var .jTemp)) (.neg (.num 57102223643760053 17))) (.mul (.num 42897776356239947 17) (.rd (.var .presModTemp)))))),
  .set (.arr .jac 283) (.add (.rd (.arr .jac 283)) (.mul (.neg (.num 34162436548223352 17)) (.add (.mul (.rd (.var .jTemp)) (.neg (.num 57102223643760053 17))) (.mul (.num 42897776356239947 17) (.rd (.var .presModTemp)))))),
  .set (.arr .jac 296) (.add (.rd (.arr .jac 296)) (.mul (.neg (.num 34734585093427126 18)) (.add (.mul (.rd (.var .jTemp)) (.neg (.num 35870588016911675 18))) (.mul (.neg (.num 35870588016911675 18)) (.rd (.var .presModTemp)))))),
  .set (.arr .jac 305) (.add (.rd (.arr .jac 305)) (.mul (.num 5528489913620146 16) (.add (.mul (.rd (.var .jTemp)) (.neg (.num 35870588016911675 18))) (.mul (.neg (.num 35870588016911675 18)) (.rd (.var .presModTemp)))))),
  .set (.arr .jac 304) (.add (.rd (.arr .jac 304)) (.mul (.neg (.num 5181144062685874 16)) (.add (.mul (.rd (.var .jTemp)) (.neg (.num 35870588016911675 18))) (.mul (.neg (.num 35870588016911675 18)) (.rd (.var .presModTemp)))))),
  .set (.arr .jac 317) (.add (.rd (.arr .jac 317)) (.mul (.neg (.num 33568593911733322 18)) (.add (.mul (.rd (.var .jTemp)) (.neg (.num 71851123102163683 18))) (.mul (.neg (.num 71851123102163683 18)) (.rd (.var .presModTemp)))))),
  .set (.arr .jac 326) (.add (.rd (.arr .jac 326)) (.mul (.num 53429062807647176 17) (.add (.mul (.rd (.var .jTemp)) (.neg (.num 71851123102163683 18))) (.mul (.neg (.num 71851123102163683 18)) (.rd (.var .presModTemp)))))),
  .set (.arr .jac 325) (.add (.rd (.arr .jac 325)) (.mul (.neg (.num 50072203416473837 17)) (.add (.mul (.rd (.var .jTemp)) (.neg (.num 71851123102163683 18))) (.mul (.neg (.num 71851123102163683 18)) (.rd (.var .presModTemp)))))),
  .set (.arr .jac 338) (.add (.rd (.arr .jac 338)) (.mul (.neg (.num 32478341649959309 18)) (.add (.mul (.rd (.var .jTemp)) (.neg (.num 10783165818741525 17))) (.mul (.neg (.num 10783165818741525 17)) (.rd (.var .presModTemp)))))),
  .set (.arr .jac 347) (.add (.rd (.arr .jac 347)) (.mul (.num 51693775451743273 17) (.add (.mul (.rd (.var .jTemp)) (.neg (.num 10783165818741525 17))) (.mul (.neg (.num 10783165818741525 17)) (.rd (.var .presModTemp)))))),
  .set (.arr .jac 346) (.add (.rd (.arr .jac 346)) (.mul (.neg (.num 4844594128674734 16)) (.add (.mul (.rd (.var .jTemp)) (.neg (.num 10783165818741525 17))) (.mul (.neg (.num 10783165818741525 17)) (.rd (.var .presModTemp)))))),
  .set (.arr .jac 359) (.add (.rd (.arr .jac 359)) (.mul (.neg (.num 35928873705342888 18)) (.add (.mul (.rd (.var .jTemp)) (.neg (.num 14378791924458678 19))) (.mul (.neg (.num 14378791924458678 19)) (.rd (.var .presModTemp)))))),
  .set (.arr .jac 368) (.add (.rd (.arr .jac 368)) (.mul (.num 57185774741068585 17) (.add (.mul (.rd (.var .jTemp)) (.neg (.num 14378791924458678 19))) (.mul (.neg (.num 14378791924458678 19)) (.rd (.var .presModTemp)))))),
  .set (.arr .jac 367) (.add (.rd (.arr .jac 367)) (.mul (.neg (.num 53592887370534292 17)) (.add (.mul (.rd (.var .jTemp)) (.neg (.num 14378791924458678 19))) (.mul (.neg (.num 14378791924458678 19)) (.rd (.var .presModTemp)))))),
  .set (.arr .jac 380) (.add (.rd (.arr .jac 380)) (.mul (.neg (.num 3468276115987709 17)) (.add (.mul (.rd (.var .jTemp)) (.neg (.num 37418414277697654 18))) (.mul (.neg (.num 37418414277697654 18)) (.rd (.var .presModTemp)))))),
  .set (.arr .jac 389) (.add (.rd (.arr .jac 389)) (.mul (.num 55202414173981573 17) (.add (.mul (.rd (.var .jTemp)) (.neg (.num 37418414277697654 18))) (.mul (.neg (.num 37418414277697654 18)) (.rd (.var .presModTemp)))))),
  .set (.arr .jac 388) (.add (.rd (.arr .jac 388)) (.mul (.neg (.num 51734138057993861 17)) (.add (.mul (.rd (.var .jTemp)) (.neg (.num 37418414277697654 18))) (.mul (.neg (.num 37418414277697654 18)) (.rd (.var .presModTemp)))))),
  .set (.arr .jac 401) (.add (.rd (.arr .jac 401)) (.mul (.neg (.num 33520188469166906 18)) (.add (.mul (.rd (.var .jTemp)) (.neg (.num 73398949362949439 18))) (.mul (.num 19266010506370506 16) (.rd (.var .presModTemp)))))),
  .set (.arr .jac 410) (.add (.rd (.arr .jac 410)) (.mul (.num 53352018846916693 17) (.add (.mul (.rd (.var .jTemp)) (.neg (.num 73398949362949439 18))) (.mul (.num 19266010506370506 16) (.rd (.var .presModTemp)))))),
  .set (.arr .jac 409) (.add (.rd (.arr .jac 409)) (.mul (.neg (.num 5 1)) (.add (.mul (.rd (.var .jTemp)) (.neg (.num 73398949362949439 18))) (.mul (.num 19266010506370506 16) (.rd (.var .presModTemp)))))),
  .set (.arr .jac 422) (.add (.rd (.arr .jac 422)) (.mul (.neg (.num 2523130069089817 17)) (.add (.mul (.rd (.var .jTemp)) (.neg (.num 42602775520927771 17))) (.mul (.neg (.num 72602775520927776 17)) (.rd (.var .presModTemp)))))),
  .set (.arr .jac 431) (.add (.rd (.arr .jac 431)) (.mul (.num 40159106838890563 17) (.add (.mul (.rd (.var .jTemp)) (.neg (.num 42602775520927771 17))) (.mul (.neg (.num 72602775520927776 17)) (.rd (.var .presModTemp)))))),
  .set (.arr .jac 430) (.add (.rd (.arr .jac 430)) (.mul (.neg (.num 37635976769800739 17)) (.add (.mul (.rd (.var .jTemp)) (.neg (.num 42602775520927771 17))) (.mul (.neg (.num 72602775520927776 17)) (.rd (.var .presModTemp))))))]

/-- utilities/mechanisms/drm19/lib/src/jacobs/jacob_0.c:2708-2714 -/
def jacobT31 : List CStmt := [
  .set (.var .jTemp) (.mul (.mul (.div (.num 1 0) (.rd (.var .T))) (.sub (.add (.mul (.sub (.rd (.arr .fwd 31)) (.rd (.arr .rev 31))) (.add (.num 16200000000000001 16) (.div (.num 5454900083073323 12) (.rd (.var .T))))) (.mul (.rd (.arr .fwd 31)) (.neg (.num 1 0)))) (.mul (.rd (.arr .rev 31)) (.add (.neg (.num 1 0)) (.mul (.neg (.rd (.var .T))) (.sub (.sub (.add (.rd (.arr .dBdT 0)) (.rd (.arr .dBdT 9))) (.rd (.arr .dBdT 1))) (.rd (.arr .dBdT 10)))))))) (.rd (.var .rhoInv))),
  .set (.arr .jac 1) (.add (.rd (.arr .jac 1)) (.mul (.rd (.var .jTemp)) (.num 20158800000000001 16))),
  .set (.arr .jac 2) (.add (.rd (.arr .jac 2)) (.mul (.neg (.rd (.var .jTemp))) (.num 10079400000000001 16))),
  .set (.arr .jac 11) (.add (.rd (.arr .jac 11)) (.mul (.neg (.rd (.var .jTemp))) (.num 16042760000000001 15))),
  .set (.arr .jac 10) (.add (.rd (.arr .jac 10)) (.mul (.rd (.var .jTemp)) (.num 1503482 5)))]

/-- utilities/mechanisms/drm19/lib/src/jacobs/jacob_0.c:2715-2806 -/
def jacobS31 : List CStmt := [
  .ite (.rd (.var .T)) (.num 1000 0) (.var .Kc) (.sub (.add (.add (.num 90075157909999994 16) (.mul (.neg (.num 16319546099999993 16)) (.rd (.var .logT)))) (.mul (.rd (.var .T)) (.add (.num 11831225649647333 18) (.mul (.rd (.var .T)) (.add (.neg (.num 10487998723000679 21)) (.mul (.rd (.var .T)) (.add (.num 51466948123082664 25) (.mul (.neg (.num 10750827934536134 28)) (.rd (.var .T)))))))))) (.div (.num 30005132700000104 14) (.rd (.var .T)))) (.sub (.add (.add (.neg (.num 15763732020999999 15)) (.mul (.num 3048145415 9) (.rd (.var .logT)))) (.mul (.rd (.var .T)) (.add (.neg (.num 3100224390007851 18)) (.mul (.rd (.var .T)) (.add (.num 54086189530730073 23) (.mul (.rd (.var .T)) (.add (.neg (.num 67233924605403978 27)) (.mul (.num 37562663850901325 31) (.rd (.var .T)))))))))) (.div (.neg (.num 17988993199999823 14)) (.rd (.var .T)))),
  .set (.var .Kc) (.exp (.rd (.var .Kc))),
  .set (.var .jTemp) (.mul (.mul (.neg (.rd (.var .mwAvg))) (.rd (.var .rhoInv))) (.sub (.mul (.num 2 0) (.rd (.arr .fwd 31))) (.mul (.num 2 0) (.rd (.arr .rev 31))))),
  .set (.var .kf) (.exp (.sub (.add (.num 13399995114002609 15) (.mul (.num 162 2) (.rd (.var .logT)))) (.div (.num 5454900083073323 12) (.rd (.var .T))))),
  .set (.var .kr) (.div (.rd (.var .kf)) (.rd (.var .Kc))),
  .set (.arr .jac 22) (.add (.rd (.arr .jac 22)) (.sub (.mul (.rd (.var .jTemp)) (.num 92803892982949643 17)) (.mul (.rd (.var .kr)) (.rd (.arr .C 9))))),
  .set (.arr .jac 23) (.add (.rd (.arr .jac 23)) (.mul (.neg (.num 5 1)) (.sub (.mul (.rd (.var .jTemp)) (.num 92803892982949643 17)) (.mul (.rd (.var .kr)) (.rd (.arr .C 9)))))),
  .set (.arr .jac 32) (.add (.rd (.arr .jac 32)) (.mul (.neg (.num 79581919558703893 16)) (.sub (.mul (.rd (.var .jTemp)) (.num 92803892982949643 17)) (.mul (.rd (.var .kr)) (.rd (.arr .C 9)))))),
  .set (.arr .jac 31) (.add (.rd (.arr .jac 31)) (.mul (.num 74581919558703884 16) (.sub (.mul (.rd (.var .jTemp)) (.num 92803892982949643 17)) (.mul (.rd (.var .kr)) (.rd (.arr .C 9)))))),
  .set (.arr .jac 43) (.add (.rd (.arr .jac 43)) (.mul (.num 2 0) (.add (.mul (.rd (.var .jTemp)) (.num 96401946491474821 17)) (.mul (.rd (.var .kf)) (.rd (.arr .C 10)))))),
  .set (.arr .jac 44) (.add (.rd (.arr .jac 44)) (.neg (.add (.mul (.rd (.var .jTemp)) (.num 96401946491474821 17)) (.mul (.rd (.var .kf)) (.rd (.arr .C 10)))))),
  .set (.arr .jac 53) (.add (.rd (.arr .jac 53)) (.mul (.neg (.num 15916383911740779 15)) (.add (.mul (.rd (.var .jTemp)) (.num 96401946491474821 17)) (.mul (.rd (.var .kf)) (.rd (.arr .C 10)))))),
  .set (.arr .jac 52) (.add (.rd (.arr .jac 52)) (.mul (.num 14916383911740777 15) (.add (.mul (.rd (.var .jTemp)) (.num 96401946491474821 17)) (.mul (.rd (.var .kf)) (.rd (.arr .C 10)))))),
  .set (.arr .jac 64) (.add (.rd (.arr .jac 64)) (.mul (.num 1259972248959336 16) (.mul (.rd (.var .jTemp)) (.num 42886781649405936 17)))),
  .set (.arr .jac 65) (.add (.rd (.arr .jac 65)) (.mul (.neg (.num 62998612447966798 18)) (.mul (.rd (.var .jTemp)) (.num 42886781649405936 17)))),
  .set (.arr .jac 74) (.add (.rd (.arr .jac 74)) (.mul (.neg (.num 10027101016288111 16)) (.mul (.rd (.var .jTemp)) (.num 42886781649405936 17)))),
  .set (.arr .jac 73) (.add (.rd (.arr .jac 73)) (.mul (.num 93971148918084424 17) (.mul (.rd (.var .jTemp)) (.num 42886781649405936 17)))),
  .set (.arr .jac 85) (.add (.rd (.arr .jac 85)) (.mul (.num 62998612447966798 18) (.mul (.rd (.var .jTemp)) (.neg (.num 14226436701188128 17))))),
  .set (.arr .jac 86) (.add (.rd (.arr .jac 86)) (.mul (.neg (.num 31499306223983399 18)) (.mul (.rd (.var .jTemp)) (.neg (.num 14226436701188128 17))))),
  .set (.arr .jac 95) (.add (.rd (.arr .jac 95)) (.mul (.neg (.num 50135505081440557 17)) (.mul (.rd (.var .jTemp)) (.neg (.num 14226436701188128 17))))),
  .set (.arr .jac 94) (.add (.rd (.arr .jac 94)) (.mul (.num 46985574459042212 17) (.mul (.rd (.var .jTemp)) (.neg (.num 14226436701188128 17))))),
  .set (.arr .jac 106) (.add (.rd (.arr .jac 106)) (.mul (.num 11852999940025896 17) (.mul (.rd (.var .jTemp)) (.num 39288728140880758 17)))),
  .set (.arr .jac 107) (.add (.rd (.arr .jac 107)) (.mul (.neg (.num 59264999700129481 18)) (.mul (.rd (.var .jTemp)) (.num 39288728140880758 17)))),
  .set (.arr .jac 116) (.add (.rd (.arr .jac 116)) (.mul (.neg (.num 9432844877564629 16)) (.mul (.rd (.var .jTemp)) (.num 39288728140880758 17)))),
  .set (.arr .jac 115) (.add (.rd (.arr .jac 115)) (.mul (.num 88401948805633335 17) (.mul (.rd (.var .jTemp)) (.num 39288728140880758 17)))),
  .set (.arr .jac 127) (.add (.rd (.arr .jac 127)) (.mul (.num 11189834407236524 17) (.mul (.rd (.var .jTemp)) (.num 35690674632355568 17)))),
  .set (.arr .jac 128) (.add (.rd (.arr .jac 128)) (.mul (.neg (.num 55949172036182618 18)) (.mul (.rd (.var .jTemp)) (.num 35690674632355568 17)))),
  .set (.arr .jac 137) (.add (.rd (.arr .jac 137)) (.mul (.neg (.num 89050850167191409 17)) (.mul (.rd (.var .jTemp)) (.num 35690674632355568 17)))),
  .set (.arr .jac 136) (.add (.rd (.arr .jac 136)) (.mul (.num 83455932963573143 17) (.mul (.rd (.var .jTemp)) (.num 35690674632355568 17)))),
  .set (.arr .jac 148) (.add (.rd (.arr .jac 148)) (.mul (.num 61074798662333819 18) (.mul (.rd (.var .jTemp)) (.neg (.num 17824490209713328 17))))),
  .set (.arr .jac 149) (.add (.rd (.arr .jac 149)) (.mul (.neg (.num 3053739933116691 17)) (.mul (.rd (.var .jTemp)) (.neg (.num 17824490209713328 17))))),
  .set (.arr .jac 158) (.add (.rd (.arr .jac 158)) (.mul (.neg (.num 48604497142098857 17)) (.mul (.rd (.var .jTemp)) (.neg (.num 17824490209713328 17))))),
  .set (.arr .jac 157) (.add (.rd (.arr .jac 157)) (.mul (.num 45550757208982162 17) (.mul (.rd (.var .jTemp)) (.neg (.num 17824490209713328 17))))),
  .set (.arr .jac 169) (.add (.rd (.arr .jac 169)) (.mul (.num 14371549482137155 17) (.mul (.rd (.var .jTemp)) (.num 49928106040377707 17)))),
  .set (.arr .jac 170) (.add (.rd (.arr .jac 170)) (.mul (.neg (.num 71857747410685777 18)) (.mul (.rd (.var .jTemp)) (.num 49928106040377707 17)))),
  .set (.arr .jac 179) (.add (.rd (.arr .jac 179)) (.mul (.neg (.num 11437154948213717 16)) (.mul (.rd (.var .jTemp)) (.num 49928106040377707 17)))),
  .set (.arr .jac 178) (.add (.rd (.arr .jac 178)) (.mul (.num 10718577474106858 16) (.mul (.rd (.var .jTemp)) (.num 49928106040377707 17)))),
  .set (.arr .jac 190) (.add (.rd (.arr .jac 190)) (.mul (.num 14371549482137155 17) (.mul (.rd (.var .jTemp)) (.num 49928106040377707 17)))),
  .set (.arr .jac 191) (.add (.rd (.arr .jac 191)) (.mul (.neg (.num 71857747410685777 18)) (.mul (.rd (.var .jTemp)) (.num 49928106040377707 17)))),
  .set (.arr .jac 200) (.add (.rd (.arr .jac 200)) (.mul (.neg (.num 11437154948213717 16)) (.mul (.rd (.var .jTemp)) (.num 49928106040377707 17)))),
  .set (.arr .jac 199) (.add (.rd (.arr .jac 199)) (.mul (.num 10718577474106858 16) (.mul (.rd (.var .jTemp)) (.num 49928106040377707 17)))),
  .set (.arr .jac 211) (.add (.rd (.arr .jac 211)) (.mul (.num 13408075387666762 17) (.sub (.mul (.rd (.var .jTemp)) (.num 46330052531852528 17)) (.mul (.rd (.var .kr)) (.rd (.arr .C 0)))))),
  .set (.arr .jac 212) (.add (.rd (.arr .jac 212)) (.mul (.neg (.num 67040376938333812 18)) (.sub (.mul (.rd (.var .jTemp)) (.num 46330052531852528 17)) (.mul (.rd (.var .kr)) (.rd (.arr .C 0)))))),
  .set (.arr .jac 221) (.add (.rd (.arr .jac 221)) (.mul (.neg (.num 10670403769383339 16)) (.sub (.mul (.rd (.var .jTemp)) (.num 46330052531852528 17)) (.mul (.rd (.var .kr)) (.rd (.arr .C 0)))))),
  .set (.arr .jac 220) (.add (.rd (.arr .jac 220)) (.sub (.mul (.rd (.var .jTemp)) (.num 46330052531852528 17)) (.mul (.rd (.var .kr)) (.rd (.arr .C 0))))),
  .set (.arr .jac 232) (.add (.rd (.arr .jac 232)) (.mul (.num 12565668251597606 17) (.add (.mul (.rd (.var .jTemp)) (.num 42731999023327338 17)) (.mul (.rd (.var .kf)) (.rd (.arr .C 1)))))),
  .set (.arr .jac 233) (.add (.rd (.arr .jac 233)) (.mul (.neg (.num 6282834125798803 17)) (.add (.mul (.rd (.var .jTemp)) (.num 42731999023327338 17)) (.mul (.rd (.var .kf)) (.rd (.arr .C 1)))))),
  .set (.arr .jac 242) (.add (.rd (.arr .jac 242)) (.neg (.add (.mul (.rd (.var .jTemp)) (.num 42731999023327338 17)) (.mul (.rd (.var .kf)) (.rd (.arr .C 1)))))),
  .set (.arr .jac 241) (.add (.rd (.arr .jac 241)) (.mul (.num 93717165874201191 17) (.add (.mul (.rd (.var .jTemp)) (.num 42731999023327338 17)) (.mul (.rd (.var .kf)) (.rd (.arr .C 1)))))),
  .set (.arr .jac 253) (.add (.rd (.arr .jac 253)) (.mul (.num 7196898294919031 17) (.mul (.rd (.var .jTemp)) (.num 10994706834011048 20)))),
  .set (.arr .jac 254) (.add (.rd (.arr .jac 254)) (.mul (.neg (.num 35984491474595155 18)) (.mul (.rd (.var .jTemp)) (.num 10994706834011048 20)))),
  .set (.arr .jac 263) (.add (.rd (.arr .jac 263)) (.mul (.neg (.num 5727429811784196 16)) (.mul (.rd (.var .jTemp)) (.num 10994706834011048 20)))),
  .set (.arr .jac 262) (.add (.rd (.arr .jac 262)) (.mul (.num 53675848970382434 17) (.mul (.rd (.var .jTemp)) (.num 10994706834011048 20)))),
  .set (.arr .jac 274) (.add (.rd (.arr .jac 274)) (.mul (.num 45805252466496103 18) (.mul (.rd (.var .jTemp)) (.neg (.num 57102223643760053 17))))),
  .set (.arr .jac 275) (.add (.rd (.arr .jac 275)) (.mul (.neg (.num 22902626233248052 18)) (.mul (.rd (.var .jTemp)) (.neg (.num 57102223643760053 17))))),
  .set (.arr .jac 284) (.add (.rd (.arr .jac 284)) (.mul (.neg (.num 36452699171548159 17)) (.mul (.rd (.var .jTemp)) (.neg (.num 57102223643760053 17))))),
  .set (.arr .jac 283) (.add (.rd (.arr .jac 283)) (.mul (.num 34162436548223352 17) (.mul (.rd (.var .jTemp)) (.neg (.num 57102223643760053 17))))),
  .set (.arr .jac 295) (.add (.rd (.arr .jac 295)) (.mul (.num 69469170186854251 18) (.mul (.rd (.var .jTemp)) (.neg (.num 35870588016911675 18))))),
  .set (.arr .jac 296) (.add (.rd (.arr .jac 296)) (.mul (.neg (.num 34734585093427126 18)) (.mul (.rd (.var .jTemp)) (.neg (.num 35870588016911675 18))))),
  .set (.arr .jac 305) (.add (.rd (.arr .jac 305)) (.mul (.neg (.num 5528489913620146 16)) (.mul (.rd (.var .jTemp)) (.neg (.num 35870588016911675 18))))),
  .set (.arr .jac 304) (.add (.rd (.arr .jac 304)) (.mul (.num 5181144062685874 16) (.mul (.rd (.var .jTemp)) (.neg (.num 35870588016911675 18))))),
  .set (.arr .jac 316) (.add (.rd (.arr .jac 316)) (.mul (.num 67137187823466643 18) (.mul (.rd (.var .jTemp)) (.neg (.num 71851123102163683 18))))),
  .set (.arr .jac 317) (.add (.rd (.arr .jac 317)) (.mul (.neg (.num 33568593911733322 18)) (.mul (.rd (.var .jTemp)) (.neg (.num 71851123102163683 18))))),
  .set (.arr .jac 326) (.add (.rd (.arr .jac 326)) (.mul (.neg (.num 53429062807647176 17)) (.mul (.rd (.var .jTemp)) (.neg (.num 71851123102163683 18))))),
  .set (.arr .jac 325) (.add (.rd (.arr .jac 325)) (.mul (.num 50072203416473837 17) (.mul (.rd (.var .jTemp)) (.neg (.num 71851123102163683 18))))),
  .set (.arr .jac 337) (.add (.rd (.arr .jac 337)) (.mul (.num 64956683299918619 18) (.mul (.rd (.var .jTemp)) (.neg (.num 10783165818741525 17))))),
  .set (.arr .jac 338) (.add (.rd (.arr .jac 338)) (.mul (.neg (.num 32478341649959309 18)) (.mul (.rd (.var .jTemp)) (.neg (.num 10783165818741525 17))))),
  .set (.arr .jac 347) (.add (.rd (.arr .jac 347)) (.mul (.neg (.num 51693775451743273 17)) (.mul (.rd (.var .jTemp)) (.neg (.num 10783165818741525 17))))),
  .set (.arr .jac 346) (.add (.rd (.arr .jac 346)) (.mul (.num 4844594128674734 16) (.mul (.rd (.var .jTemp)) (.neg (.num 10783165818741525 17))))),
  .set (.arr .jac 358) (.add (.rd (.arr .jac 358)) (.mul (.num 71857747410685777 18) (.mul (.rd (.var .jTemp)) (.neg (.num 14378791924458678 19))))),
  .set (.arr .jac 359) (.add (.rd (.arr .jac 359)) (.mul (.neg (.num 35928873705342888 18)) (.mul (.rd (.var .jTemp)) (.neg (.num 14378791924458678 19))))),
  .set (.arr .jac 368) (.add (.rd (.arr .jac 368)) (.mul (.neg (.num 57185774741068585 17)) (.mul (.rd (.var .jTemp)) (.neg (.num 14378791924458678 19))))),
  .set (.arr .jac 367) (.add (.rd (.arr .jac 367)) (.mul (.num 53592887370534292 17) (.mul (.rd (.var .jTemp)) (.neg (.num 14378791924458678 19))))),
  .set (.arr .jac 379) (.add (.rd (.arr .jac 379)) (.mul (.num 6936552231975418 17) (.mul (.rd (.var .jTemp)) (.neg (.num 37418414277697654 18))))),
  .set (.arr .jac 380) (.add (.rd (.arr .jac 380)) (.mul (.neg (.num 3468276115987709 17)) (.mul (.rd (.var .jTemp)) (.neg (.num 37418414277697654 18))))),
  .set (.arr .jac 389) (.add (.rd (.arr .jac 389)) (.mul (.neg (.num 55202414173981573 17)) (.mul (.rd (.var .jTemp)) (.neg (.num 37418414277697654 18))))),
  .set (.arr .jac 388) (.add (.rd (.arr .jac 388)) (.mul (.num 51734138057993861 17) (.mul (.rd (.var .jTemp)) (.neg (.num 37418414277697654 18))))),
  .set (.arr .jac 400) (.add (.rd (.arr .jac 400)) (.mul (.num 67040376938333812 18) (.mul (.rd (.var .jTemp)) (.neg (.num 73398949362949439 18))))),
  .set (.arr .jac 401) (.add (.rd (.arr .jac 401)) (.mul (.neg (.num 33520188469166906 18)) (.mul (.rd (.var .jTemp)) (.neg (.num 73398949362949439 18))))),
  .set (.arr .jac 410) (.add (.rd (.arr .jac 410)) (.mul (.neg (.num 53352018846916693 17)) (.mul (.rd (.var .jTemp)) (.neg (.num 73398949362949439 18))))),
  .set (.arr .jac 409) (.add (.rd (.arr .jac 409)) (.mul (.num 5 1) (.mul (.rd (.var .jTemp)) (.neg (.num 73398949362949439 18))))),
  .set (.arr .jac 421) (.add (.rd (.arr .jac 421)) (.mul (.num 5046260138179634 17) (.mul (.rd (.var .jTemp)) (.neg (.num 42602775520927771 17))))),
  .set (.arr .jac 422) (.add (.rd (.arr .jac 422)) (.mul (.neg (.num 2523130069089817 17)) (.mul (.rd (.var .jTemp)) (.neg (.num 42602775520927771 17))))),
  .set (.arr .jac 431) (.add (.rd (.arr .jac 431)) (.mul (.neg (.num 40159106838890563 17)) (.mul (.rd (.var .jTemp)) (.neg (.num 42602775520927771 17))))),
  .set (.arr .jac 430) (.add (.rd (.arr .jac 430)) (.mul (.num 37635976769800739 17) (.mul (.rd (.var .jTemp)) (.neg (.num 42602775520927771 17)))))]

/-- utilities/mechanisms/drm19/lib/src/jacobs/jacob_0.c:2807-2817 -/
def jacobT32 : List CStmt := [
  .set (.var .Pr) (.mul (.rd (.var .concTemp)) (.exp (.sub (.sub (.num 20937192733155698 15) (.mul (.num 305 2) (.rd (.var .logT)))) (.div (.num 84792496678768907 14) (.rd (.var .T)))))),
  .set (.var .Fcent) (.add (.add (.mul (.num 21760000000000002 17) (.exp (.div (.rd (.var .T)) (.neg (.num 271 0))))) (.mul (.num 78239999999999998 17) (.exp (.div (.rd (.var .T)) (.neg (.num 2755 0)))))) (.exp (.div (.neg (.num 6570 0)) (.rd (.var .T))))),
  .set (.var .A) (.sub (.sub (.log10 (.fmax (.rd (.var .Pr)) (.num 1 300))) (.mul (.num 67 2) (.log10 (.fmax (.rd (.var .Fcent)) (.num 1 300))))) (.num 4 1)),
  .set (.var .B) (.sub (.sub (.num 806 3) (.mul (.num 11762 4) (.log10 (.fmax (.rd (.var .Fcent)) (.num 1 300))))) (.mul (.num 14 2) (.log10 (.fmax (.rd (.var .Pr)) (.num 1 300))))),
  .set (.var .lnFAB) (.div (.mul (.mul (.num 2 0) (.log (.fmax (.rd (.var .Fcent)) (.num 1 300)))) (.rd (.var .A))) (.mul (.mul (.mul (.mul (.rd (.var .B)) (.rd (.var .B))) (.rd (.var .B))) (.add (.num 1 0) (.div (.mul (.rd (.var .A)) (.rd (.var .A))) (.mul (.rd (.var .B)) (.rd (.var .B)))))) (.add (.num 1 0) (.div (.mul (.rd (.var .A)) (.rd (.var .A))) (.mul (.rd (.var .B)) (.rd (.var .B))))))),
  .set (.var .jTemp) (.mul (.add (.mul (.mul (.rd (.arr .presMod 7)) (.sub (.add (.div (.sub (.add (.neg (.num 305 2)) (.div (.num 84792496678768907 14) (.rd (.var .T)))) (.num 1 0)) (.mul (.rd (.var .T)) (.add (.num 1 0) (.rd (.var .Pr))))) (.mul (.sub (.div (.num 1 0) (.mul (.rd (.var .Fcent)) (.add (.num 1 0) (.div (.mul (.rd (.var .A)) (.rd (.var .A))) (.mul (.rd (.var .B)) (.rd (.var .B))))))) (.div (.mul (.rd (.var .lnFAB)) (.add (.mul (.neg (.num 2909773028751787 16)) (.rd (.var .B))) (.mul (.num 51081716961460466 17) (.rd (.var .A))))) (.rd (.var .Fcent)))) (.add (.sub (.mul (.neg (.num 80295202952029529 20)) (.exp (.div (.rd (.var .T)) (.neg (.num 271 0))))) (.mul (.num 28399274047186931 20) (.exp (.div (.rd (.var .T)) (.neg (.num 2755 0)))))) (.mul (.div (.num 6570 0) (.mul (.rd (.var .T)) (.rd (.var .T)))) (.exp (.div (.neg (.num 6570 0)) (.rd (.var .T)))))))) (.div (.mul (.mul (.rd (.var .lnFAB)) (.add (.mul (.num 43429448190325176 17) (.rd (.var .B))) (.mul (.num 60801227466455256 18) (.rd (.var .A))))) (.sub (.add (.neg (.num 30499999999999998 16)) (.div (.num 84792496678768907 14) (.rd (.var .T)))) (.num 1 0))) (.rd (.var .T))))) (.sub (.rd (.arr .fwd 32)) (.rd (.arr .rev 32)))) (.mul (.div (.rd (.arr .presMod 7)) (.rd (.var .T))) (.sub (.add (.mul (.sub (.rd (.arr .fwd 32)) (.rd (.arr .rev 32))) (.add (.num 47999999999999998 17) (.div (.neg (.num 1308370868633823 13)) (.rd (.var .T))))) (.mul (.rd (.arr .fwd 32)) (.neg (.num 1 0)))) (.mul (.rd (.arr .rev 32)) (.mul (.neg (.rd (.var .T))) (.sub (.sub (.rd (.arr .dBdT 14)) (.rd (.arr .dBdT 1))) (.rd (.arr .dBdT 13)))))))) (.rd (.var .rhoInv))),
  .set (.arr .jac 2) (.add (.rd (.arr .jac 2)) (.mul (.neg (.rd (.var .jTemp))) (.num 10079400000000001 16))),
  .set (.arr .jac 14) (.add (.rd (.arr .jac 14)) (.mul (.neg (.rd (.var .jTemp))) (.num 29018339999999998 15))),
  .set (.arr .jac 15) (.add (.rd (.arr .jac 15)) (.mul (.rd (.var .jTemp)) (.num 3002628 5)))]

/-- utilities/mechanisms/drm19/lib/src/jacobs/jacob_0.c:2818-2891 -/
def jacobS32 : List CStmt := [
  .ite (.rd (.var .T)) (.num 1000 0) (.var .Kc) (.sub (.add (.add (.neg (.num 41741398699999976 17)) (.mul (.neg (.num 92746269000000048 17)) (.rd (.var .logT)))) (.mul (.rd (.var .T)) (.add (.neg (.num 33322041853526664 19)) (.mul (.rd (.var .T)) (.add (.num 39236760336659856 22) (.mul (.rd (.var .T)) (.add (.neg (.num 20511764001917343 25)) (.mul (.num 44197882754638664 29) (.rd (.var .T)))))))))) (.div (.neg (.num 43622181559999997 12)) (.rd (.var .T)))) (.sub (.add (.add (.num 78161453040000008 16) (.mul (.neg (.num 25114843100000002 16)) (.rd (.var .logT)))) (.mul (.rd (.var .T)) (.add (.num 21215227915421489 19) (.mul (.rd (.var .T)) (.add (.neg (.num 3230220026926991 22)) (.mul (.rd (.var .T)) (.add (.num 34770862227929353 27) (.mul (.neg (.num 17517346699098684 31)) (.rd (.var .T)))))))))) (.div (.neg (.num 43481410349999998 12)) (.rd (.var .T)))),
  .set (.var .Kc) (.mul (.num 82057360967184814 18) (.exp (.rd (.var .Kc)))),
  .set (.var .presModTemp) (.mul (.sub (.div (.num 1 0) (.add (.num 1 0) (.rd (.var .Pr)))) (.div (.mul (.mul (.mul (.log (.fmax (.rd (.var .Fcent)) (.num 1 300))) (.num 2 0)) (.rd (.var .A))) (.add (.mul (.rd (.var .B)) (.num 4342944819032518 16)) (.mul (.rd (.var .A)) (.num 6080122746645526 17)))) (.mul (.mul (.mul (.mul (.rd (.var .B)) (.rd (.var .B))) (.rd (.var .B))) (.add (.num 1 0) (.div (.mul (.rd (.var .A)) (.rd (.var .A))) (.mul (.rd (.var .B)) (.rd (.var .B)))))) (.add (.num 1 0) (.div (.mul (.rd (.var .A)) (.rd (.var .A))) (.mul (.rd (.var .B)) (.rd (.var .B)))))))) (.sub (.rd (.arr .fwd 32)) (.rd (.arr .rev 32)))),
  .set (.var .jTemp) (.mul (.mul (.mul (.neg (.rd (.var .mwAvg))) (.rd (.var .rhoInv))) (.rd (.arr .presMod 7))) (.add (.sub (.mul (.num 2 0) (.rd (.arr .fwd 32))) (.rd (.arr .rev 32))) (.rd (.var .presModTemp)))),
  .set (.var .presModTemp) (.mul (.rd (.var .presModTemp)) (.div (.mul (.exp (.sub (.sub (.num 20937192733155698 15) (.mul (.num 305 2) (.rd (.var .logT)))) (.div (.num 84792496678768907 14) (.rd (.var .T))))) (.pow (.rd (.var .Fcent)) (.div (.num 1 0) (.add (.num 1 0) (.div (.mul (.rd (.var .A)) (.rd (.var .A))) (.mul (.rd (.var .B)) (.rd (.var .B)))))))) (.add (.num 1 0) (.rd (.var .Pr))))),
  .set (.var .kf) (.exp (.sub (.add (.num 20809443533187462 15) (.mul (.num 48 2) (.rd (.var .logT)))) (.div (.neg (.num 1308370868633823 13)) (.rd (.var .T))))),
  .set (.var .kr) (.div (.rd (.var .kf)) (.rd (.var .Kc))),
  .set (.arr .jac 23) (.add (.rd (.arr .jac 23)) (.mul (.neg (.num 5 1)) (.add (.mul (.rd (.var .jTemp)) (.num 92803892982949643 17)) (.mul (.num 19280389298294964 16) (.rd (.var .presModTemp)))))),
  .set (.arr .jac 35) (.add (.rd (.arr .jac 35)) (.mul (.neg (.num 14394874694922315 15)) (.add (.mul (.rd (.var .jTemp)) (.num 92803892982949643 17)) (.mul (.num 19280389298294964 16) (.rd (.var .presModTemp)))))),
  .set (.arr .jac 36) (.add (.rd (.arr .jac 36)) (.mul (.num 14894874694922317 15) (.add (.mul (.rd (.var .jTemp)) (.num 92803892982949643 17)) (.mul (.num 19280389298294964 16) (.rd (.var .presModTemp)))))),
  .set (.arr .jac 44) (.add (.rd (.arr .jac 44)) (.neg (.add (.add (.mul (.rd (.var .jTemp)) (.num 96401946491474821 17)) (.mul (.num 96401946491474821 17) (.rd (.var .presModTemp)))) (.mul (.rd (.arr .presMod 7)) (.mul (.rd (.var .kf)) (.rd (.arr .C 13))))))),
  .set (.arr .jac 56) (.add (.rd (.arr .jac 56)) (.mul (.neg (.num 2878974938984463 14)) (.add (.add (.mul (.rd (.var .jTemp)) (.num 96401946491474821 17)) (.mul (.num 96401946491474821 17) (.rd (.var .presModTemp)))) (.mul (.rd (.arr .presMod 7)) (.mul (.rd (.var .kf)) (.rd (.arr .C 13))))))),
  .set (.arr .jac 57) (.add (.rd (.arr .jac 57)) (.mul (.num 29789749389844633 15) (.add (.add (.mul (.rd (.var .jTemp)) (.num 96401946491474821 17)) (.mul (.num 96401946491474821 17) (.rd (.var .presModTemp)))) (.mul (.rd (.arr .presMod 7)) (.mul (.rd (.var .kf)) (.rd (.arr .C 13))))))),
  .set (.arr .jac 65) (.add (.rd (.arr .jac 65)) (.mul (.neg (.num 62998612447966798 18)) (.add (.mul (.rd (.var .jTemp)) (.num 42886781649405936 17)) (.mul (.num 42886781649405936 17) (.rd (.var .presModTemp)))))),
  .set (.arr .jac 77) (.add (.rd (.arr .jac 77)) (.mul (.neg (.num 18137142642849107 16)) (.add (.mul (.rd (.var .jTemp)) (.num 42886781649405936 17)) (.mul (.num 42886781649405936 17) (.rd (.var .presModTemp)))))),
  .set (.arr .jac 78) (.add (.rd (.arr .jac 78)) (.mul (.num 18767128767328776 16) (.add (.mul (.rd (.var .jTemp)) (.num 42886781649405936 17)) (.mul (.num 42886781649405936 17) (.rd (.var .presModTemp)))))),
  .set (.arr .jac 86) (.add (.rd (.arr .jac 86)) (.mul (.neg (.num 31499306223983399 18)) (.add (.mul (.rd (.var .jTemp)) (.neg (.num 14226436701188128 17))) (.mul (.neg (.num 14226436701188128 17)) (.rd (.var .presModTemp)))))),
  .set (.arr .jac 98) (.add (.rd (.arr .jac 98)) (.mul (.neg (.num 90685713214245534 17)) (.add (.mul (.rd (.var .jTemp)) (.neg (.num 14226436701188128 17))) (.mul (.neg (.num 14226436701188128 17)) (.rd (.var .presModTemp)))))),
  .set (.arr .jac 99) (.add (.rd (.arr .jac 99)) (.mul (.num 93835643836643878 17) (.add (.mul (.rd (.var .jTemp)) (.neg (.num 14226436701188128 17))) (.mul (.neg (.num 14226436701188128 17)) (.rd (.var .presModTemp)))))),
  .set (.arr .jac 107) (.add (.rd (.arr .jac 107)) (.mul (.neg (.num 59264999700129481 18)) (.add (.mul (.rd (.var .jTemp)) (.num 39288728140880758 17)) (.mul (.num 39288728140880758 17) (.rd (.var .presModTemp)))))),
  .set (.arr .jac 119) (.add (.rd (.arr .jac 119)) (.mul (.neg (.num 17062244889559448 16)) (.add (.mul (.rd (.var .jTemp)) (.num 39288728140880758 17)) (.mul (.num 39288728140880758 17) (.rd (.var .presModTemp)))))),
  .set (.arr .jac 120) (.add (.rd (.arr .jac 120)) (.mul (.num 17654894886560744 16) (.add (.mul (.rd (.var .jTemp)) (.num 39288728140880758 17)) (.mul (.num 39288728140880758 17) (.rd (.var .presModTemp)))))),
  .set (.arr .jac 128) (.add (.rd (.arr .jac 128)) (.mul (.neg (.num 55949172036182618 18)) (.add (.mul (.rd (.var .jTemp)) (.num 35690674632355568 17)) (.mul (.num 53569067463235553 16) (.rd (.var .presModTemp)))))),
  .set (.arr .jac 140) (.add (.rd (.arr .jac 140)) (.mul (.neg (.num 16107626414910008 16)) (.add (.mul (.rd (.var .jTemp)) (.num 35690674632355568 17)) (.mul (.num 53569067463235553 16) (.rd (.var .presModTemp)))))),
  .set (.arr .jac 141) (.add (.rd (.arr .jac 141)) (.mul (.num 16667118135271835 16) (.add (.mul (.rd (.var .jTemp)) (.num 35690674632355568 17)) (.mul (.num 53569067463235553 16) (.rd (.var .presModTemp)))))),
  .set (.arr .jac 149) (.add (.rd (.arr .jac 149)) (.mul (.neg (.num 3053739933116691 17)) (.add (.mul (.rd (.var .jTemp)) (.neg (.num 17824490209713328 17))) (.mul (.neg (.num 17824490209713328 17)) (.rd (.var .presModTemp)))))),
  .set (.arr .jac 161) (.add (.rd (.arr .jac 161)) (.mul (.neg (.num 87916407376190431 17)) (.add (.mul (.rd (.var .jTemp)) (.neg (.num 17824490209713328 17))) (.mul (.neg (.num 17824490209713328 17)) (.rd (.var .presModTemp)))))),
  .set (.arr .jac 162) (.add (.rd (.arr .jac 162)) (.mul (.num 90970147309307126 17) (.add (.mul (.rd (.var .jTemp)) (.neg (.num 17824490209713328 17))) (.mul (.neg (.num 17824490209713328 17)) (.rd (.var .presModTemp)))))),
  .set (.arr .jac 170) (.add (.rd (.arr .jac 170)) (.mul (.neg (.num 71857747410685777 18)) (.add (.mul (.rd (.var .jTemp)) (.num 49928106040377707 17)) (.mul (.num 49928106040377707 17) (.rd (.var .presModTemp)))))),
  .set (.arr .jac 182) (.add (.rd (.arr .jac 182)) (.mul (.neg (.num 20687665396724007 16)) (.add (.mul (.rd (.var .jTemp)) (.num 49928106040377707 17)) (.mul (.num 49928106040377707 17) (.rd (.var .presModTemp)))))),
  .set (.arr .jac 183) (.add (.rd (.arr .jac 183)) (.mul (.num 21406242870830865 16) (.add (.mul (.rd (.var .jTemp)) (.num 49928106040377707 17)) (.mul (.num 49928106040377707 17) (.rd (.var .presModTemp)))))),
  .set (.arr .jac 191) (.add (.rd (.arr .jac 191)) (.mul (.neg (.num 71857747410685777 18)) (.add (.mul (.rd (.var .jTemp)) (.num 49928106040377707 17)) (.mul (.num 49928106040377707 17) (.rd (.var .presModTemp)))))),
  .set (.arr .jac 203) (.add (.rd (.arr .jac 203)) (.mul (.neg (.num 20687665396724007 16)) (.add (.mul (.rd (.var .jTemp)) (.num 49928106040377707 17)) (.mul (.num 49928106040377707 17) (.rd (.var .presModTemp)))))),
  .set (.arr .jac 204) (.add (.rd (.arr .jac 204)) (.mul (.num 21406242870830865 16) (.add (.mul (.rd (.var .jTemp)) (.num 49928106040377707 17)) (.mul (.num 49928106040377707 17) (.rd (.var .presModTemp)))))),
  .set (.arr .jac 212) (.add (.rd (.arr .jac 212)) (.mul (.neg (.num 67040376938333812 18)) (.add (.mul (.rd (.var .jTemp)) (.num 46330052531852528 17)) (.mul (.num 46330052531852528 17) (.rd (.var .presModTemp)))))),
  .set (.arr .jac 224) (.add (.rd (.arr .jac 224)) (.mul (.neg (.num 19300756510553501 16)) (.add (.mul (.rd (.var .jTemp)) (.num 46330052531852528 17)) (.mul (.num 46330052531852528 17) (.rd (.var .presModTemp)))))),
  .set (.arr .jac 225) (.add (.rd (.arr .jac 225)) (.mul (.num 19971160279936839 16) (.add (.mul (.rd (.var .jTemp)) (.num 46330052531852528 17)) (.mul (.num 46330052531852528 17) (.rd (.var .presModTemp)))))),
  .set (.arr .jac 233) (.add (.rd (.arr .jac 233)) (.mul (.neg (.num 6282834125798803 17)) (.add (.mul (.rd (.var .jTemp)) (.num 42731999023327338 17)) (.mul (.num 14273199902332734 16) (.rd (.var .presModTemp)))))),
  .set (.arr .jac 245) (.add (.rd (.arr .jac 245)) (.mul (.neg (.num 18088121993971109 16)) (.add (.mul (.rd (.var .jTemp)) (.num 42731999023327338 17)) (.mul (.num 14273199902332734 16) (.rd (.var .presModTemp)))))),
  .set (.arr .jac 246) (.add (.rd (.arr .jac 246)) (.mul (.num 18716405406550991 16) (.add (.mul (.rd (.var .jTemp)) (.num 42731999023327338 17)) (.mul (.num 14273199902332734 16) (.rd (.var .presModTemp)))))),
  .set (.arr .jac 254) (.add (.rd (.arr .jac 254)) (.mul (.neg (.num 35984491474595155 18)) (.add (.mul (.rd (.var .jTemp)) (.num 10994706834011048 20)) (.mul (.num 50010994706834011 17) (.rd (.var .presModTemp)))))),
  .set (.arr .jac 266) (.add (.rd (.arr .jac 266)) (.mul (.neg (.num 10359844914745953 16)) (.add (.mul (.rd (.var .jTemp)) (.num 10994706834011048 20)) (.mul (.num 50010994706834011 17) (.rd (.var .presModTemp)))))),
  .set (.arr .jac 267) (.add (.rd (.arr .jac 267)) (.mul (.num 10719689829491903 16) (.add (.mul (.rd (.var .jTemp)) (.num 10994706834011048 20)) (.mul (.num 50010994706834011 17) (.rd (.var .presModTemp)))))),
  .set (.arr .jac 275) (.add (.rd (.arr .jac 275)) (.mul (.neg (.num 22902626233248052 18)) (.add (.mul (.rd (.var .jTemp)) (.neg (.num 57102223643760053 17))) (.mul (.num 42897776356239947 17) (.rd (.var .presModTemp)))))),
  .set (.arr .jac 287) (.add (.rd (.arr .jac 287)) (.mul (.neg (.num 6593608696244927 16)) (.add (.mul (.rd (.var .jTemp)) (.neg (.num 57102223643760053 17))) (.mul (.num 42897776356239947 17) (.rd (.var .presModTemp)))))),
  .set (.arr .jac 288) (.add (.rd (.arr .jac 288)) (.mul (.num 68226349585774082 17) (.add (.mul (.rd (.var .jTemp)) (.neg (.num 57102223643760053 17))) (.mul (.num 42897776356239947 17) (.rd (.var .presModTemp)))))),
  .set (.arr .jac 296) (.add (.rd (.arr .jac 296)) (.mul (.neg (.num 34734585093427126 18)) (.add (.add (.mul (.rd (.var .jTemp)) (.neg (.num 35870588016911675 18))) (.mul (.neg (.num 35870588016911675 18)) (.rd (.var .presModTemp)))) (.mul (.rd (.arr .presMod 7)) (.mul (.rd (.var .kf)) (.rd (.arr .C 1))))))),
  .set (.arr .jac 308) (.add (.rd (.arr .jac 308)) (.neg (.add (.add (.mul (.rd (.var .jTemp)) (.neg (.num 35870588016911675 18))) (.mul (.neg (.num 35870588016911675 18)) (.rd (.var .presModTemp)))) (.mul (.rd (.arr .presMod 7)) (.mul (.rd (.var .kf)) (.rd (.arr .C 1))))))),
  .set (.arr .jac 309) (.add (.rd (.arr .jac 309)) (.mul (.num 10347345850934271 16) (.add (.add (.mul (.rd (.var .jTemp)) (.neg (.num 35870588016911675 18))) (.mul (.neg (.num 35870588016911675 18)) (.rd (.var .presModTemp)))) (.mul (.rd (.arr .presMod 7)) (.mul (.rd (.var .kf)) (.rd (.arr .C 1))))))),
  .set (.arr .jac 317) (.add (.rd (.arr .jac 317)) (.mul (.neg (.num 33568593911733322 18)) (.add (.add (.mul (.rd (.var .jTemp)) (.neg (.num 71851123102163683 18))) (.mul (.neg (.num 71851123102163683 18)) (.rd (.var .presModTemp)))) (.mul (.rd (.arr .presMod 7)) (.neg (.rd (.var .kr))))))),
  .set (.arr .jac 329) (.add (.rd (.arr .jac 329)) (.mul (.neg (.num 96643140608826661 17)) (.add (.add (.mul (.rd (.var .jTemp)) (.neg (.num 71851123102163683 18))) (.mul (.neg (.num 71851123102163683 18)) (.rd (.var .presModTemp)))) (.mul (.rd (.arr .presMod 7)) (.neg (.rd (.var .kr))))))),
  .set (.arr .jac 330) (.add (.rd (.arr .jac 330)) (.add (.add (.mul (.rd (.var .jTemp)) (.neg (.num 71851123102163683 18))) (.mul (.neg (.num 71851123102163683 18)) (.rd (.var .presModTemp)))) (.mul (.rd (.arr .presMod 7)) (.neg (.rd (.var .kr)))))),
  .set (.arr .jac 338) (.add (.rd (.arr .jac 338)) (.mul (.neg (.num 32478341649959309 18)) (.add (.mul (.rd (.var .jTemp)) (.neg (.num 10783165818741525 17))) (.mul (.neg (.num 10783165818741525 17)) (.rd (.var .presModTemp)))))),
  .set (.arr .jac 350) (.add (.rd (.arr .jac 350)) (.mul (.neg (.num 93504331670008145 17)) (.add (.mul (.rd (.var .jTemp)) (.neg (.num 10783165818741525 17))) (.mul (.neg (.num 10783165818741525 17)) (.rd (.var .presModTemp)))))),
  .set (.arr .jac 351) (.add (.rd (.arr .jac 351)) (.mul (.num 96752165835004078 17) (.add (.mul (.rd (.var .jTemp)) (.neg (.num 10783165818741525 17))) (.mul (.neg (.num 10783165818741525 17)) (.rd (.var .presModTemp)))))),
  .set (.arr .jac 359) (.add (.rd (.arr .jac 359)) (.mul (.neg (.num 35928873705342888 18)) (.add (.mul (.rd (.var .jTemp)) (.neg (.num 14378791924458678 19))) (.mul (.neg (.num 14378791924458678 19)) (.rd (.var .presModTemp)))))),
  .set (.arr .jac 371) (.add (.rd (.arr .jac 371)) (.mul (.neg (.num 10343832698362003 16)) (.add (.mul (.rd (.var .jTemp)) (.neg (.num 14378791924458678 19))) (.mul (.neg (.num 14378791924458678 19)) (.rd (.var .presModTemp)))))),
  .set (.arr .jac 372) (.add (.rd (.arr .jac 372)) (.mul (.num 10703121435415432 16) (.add (.mul (.rd (.var .jTemp)) (.neg (.num 14378791924458678 19))) (.mul (.neg (.num 14378791924458678 19)) (.rd (.var .presModTemp)))))),
  .set (.arr .jac 380) (.add (.rd (.arr .jac 380)) (.mul (.neg (.num 3468276115987709 17)) (.add (.mul (.rd (.var .jTemp)) (.neg (.num 37418414277697654 18))) (.mul (.neg (.num 37418414277697654 18)) (.rd (.var .presModTemp)))))),
  .set (.arr .jac 392) (.add (.rd (.arr .jac 392)) (.mul (.neg (.num 99850800194069855 17)) (.add (.mul (.rd (.var .jTemp)) (.neg (.num 37418414277697654 18))) (.mul (.neg (.num 37418414277697654 18)) (.rd (.var .presModTemp)))))),
  .set (.arr .jac 393) (.add (.rd (.arr .jac 393)) (.mul (.num 10331907631005757 16) (.add (.mul (.rd (.var .jTemp)) (.neg (.num 37418414277697654 18))) (.mul (.neg (.num 37418414277697654 18)) (.rd (.var .presModTemp)))))),
  .set (.arr .jac 401) (.add (.rd (.arr .jac 401)) (.mul (.neg (.num 33520188469166906 18)) (.add (.mul (.rd (.var .jTemp)) (.neg (.num 73398949362949439 18))) (.mul (.num 19266010506370506 16) (.rd (.var .presModTemp)))))),
  .set (.arr .jac 413) (.add (.rd (.arr .jac 413)) (.mul (.neg (.num 96503782552767503 17)) (.add (.mul (.rd (.var .jTemp)) (.neg (.num 73398949362949439 18))) (.mul (.num 19266010506370506 16) (.rd (.var .presModTemp)))))),
  .set (.arr .jac 414) (.add (.rd (.arr .jac 414)) (.mul (.num 99855801399684196 17) (.add (.mul (.rd (.var .jTemp)) (.neg (.num 73398949362949439 18))) (.mul (.num 19266010506370506 16) (.rd (.var .presModTemp)))))),
  .set (.arr .jac 422) (.add (.rd (.arr .jac 422)) (.mul (.neg (.num 2523130069089817 17)) (.add (.mul (.rd (.var .jTemp)) (.neg (.num 42602775520927771 17))) (.mul (.neg (.num 72602775520927776 17)) (.rd (.var .presModTemp)))))),
  .set (.arr .jac 434) (.add (.rd (.arr .jac 434)) (.mul (.neg (.num 72640282367077191 17)) (.add (.mul (.rd (.var .jTemp)) (.neg (.num 42602775520927771 17))) (.mul (.neg (.num 72602775520927776 17)) (.rd (.var .presModTemp)))))),
  .set (.arr .jac 435) (.add (.rd (.arr .jac 435)) (.mul (.num 75163412436167021 17) (.add (.mul (.rd (.var .jTemp)) (.neg (.num 42602775520927771 17))) (.mul (.neg (.num 72602775520927776 17)) (.rd (.var .presModTemp))))))]

/-- utilities/mechanisms/drm19/lib/src/jacobs/jacob_0.c:2892-2898 -/
def jacobT33 : List CStmt := [
  .set (.var .jTemp) (.mul (.mul (.div (.num 1 0) (.rd (.var .T))) (.sub (.mul (.rd (.arr .fwd 33)) (.neg (.num 1 0))) (.mul (.rd (.arr .rev 33)) (.add (.neg (.num 1 0)) (.mul (.neg (.rd (.var .T))) (.sub (.sub (.add (.rd (.arr .dBdT 0)) (.rd (.arr .dBdT 11))) (.rd (.arr .dBdT 1))) (.rd (.arr .dBdT 13)))))))) (.rd (.var .rhoInv))),
  .set (.arr .jac 1) (.add (.rd (.arr .jac 1)) (.mul (.rd (.var .jTemp)) (.num 20158800000000001 16))),
  .set (.arr .jac 2) (.add (.rd (.arr .jac 2)) (.mul (.neg (.rd (.var .jTemp))) (.num 10079400000000001 16))),
  .set (.arr .jac 12) (.add (.rd (.arr .jac 12)) (.mul (.rd (.var .jTemp)) (.num 28010399999999997 15))),
  .set (.arr .jac 14) (.add (.rd (.arr .jac 14)) (.mul (.neg (.rd (.var .jTemp))) (.num 29018339999999998 15)))]

/-- utilities/mechanisms/drm19/lib/src/jacobs/jacob_0.c:2899-2990 -/
def jacobS33 : List CStmt := [
  .ite (.rd (.var .T)) (.num 1000 0) (.var .Kc) (.sub (.add (.add (.num 20410511910000002 16) (.mul (.neg (.num 79732125000000043 17)) (.rd (.var .logT)))) (.mul (.rd (.var .T)) (.add (.num 53070461946473331 19) (.mul (.rd (.var .T)) (.add (.neg (.num 53735468780006796 22)) (.mul (.rd (.var .T)) (.add (.num 28648853818082653 25) (.mul (.neg (.num 63091153790361341 29)) (.rd (.var .T)))))))))) (.div (.neg (.num 44575246033000003 12)) (.rd (.var .T)))) (.sub (.add (.add (.neg (.num 55182880159999996 16)) (.mul (.num 7802904199999996 16) (.rd (.var .logT)))) (.mul (.rd (.var .T)) (.add (.neg (.num 14719151400078511 19)) (.mul (.rd (.var .T)) (.add (.num 33084785347396752 23) (.mul (.rd (.var .T)) (.add (.neg (.num 44889596605403977 27)) (.mul (.num 26505818300901323 31) (.rd (.var .T)))))))))) (.div (.neg (.num 44587609371999992 12)) (.rd (.var .T)))),
  .set (.var .Kc) (.exp (.rd (.var .Kc))),
  .set (.var .jTemp) (.mul (.mul (.neg (.rd (.var .mwAvg))) (.rd (.var .rhoInv))) (.sub (.mul (.num 2 0) (.rd (.arr .fwd 33))) (.mul (.num 2 0) (.rd (.arr .rev 33))))),
  .set (.var .kf) (.num 73400000000 0),
  .set (.var .kr) (.div (.rd (.var .kf)) (.rd (.var .Kc))),
  .set (.arr .jac 22) (.add (.rd (.arr .jac 22)) (.sub (.mul (.rd (.var .jTemp)) (.num 92803892982949643 17)) (.mul (.rd (.var .kr)) (.rd (.arr .C 11))))),
  .set (.arr .jac 23) (.add (.rd (.arr .jac 23)) (.mul (.neg (.num 5 1)) (.sub (.mul (.rd (.var .jTemp)) (.num 92803892982949643 17)) (.mul (.rd (.var .kr)) (.rd (.arr .C 11)))))),
  .set (.arr .jac 33) (.add (.rd (.arr .jac 33)) (.mul (.num 13894874694922315 15) (.sub (.mul (.rd (.var .jTemp)) (.num 92803892982949643 17)) (.mul (.rd (.var .kr)) (.rd (.arr .C 11)))))),
  .set (.arr .jac 35) (.add (.rd (.arr .jac 35)) (.mul (.neg (.num 14394874694922315 15)) (.sub (.mul (.rd (.var .jTemp)) (.num 92803892982949643 17)) (.mul (.rd (.var .kr)) (.rd (.arr .C 11)))))),
  .set (.arr .jac 43) (.add (.rd (.arr .jac 43)) (.mul (.num 2 0) (.add (.mul (.rd (.var .jTemp)) (.num 96401946491474821 17)) (.mul (.rd (.var .kf)) (.rd (.arr .C 13)))))),
  .set (.arr .jac 44) (.add (.rd (.arr .jac 44)) (.neg (.add (.mul (.rd (.var .jTemp)) (.num 96401946491474821 17)) (.mul (.rd (.var .kf)) (.rd (.arr .C 13)))))),
  .set (.arr .jac 54) (.add (.rd (.arr .jac 54)) (.mul (.num 2778974938984463 14) (.add (.mul (.rd (.var .jTemp)) (.num 96401946491474821 17)) (.mul (.rd (.var .kf)) (.rd (.arr .C 13)))))),
  .set (.arr .jac 56) (.add (.rd (.arr .jac 56)) (.mul (.neg (.num 2878974938984463 14)) (.add (.mul (.rd (.var .jTemp)) (.num 96401946491474821 17)) (.mul (.rd (.var .kf)) (.rd (.arr .C 13)))))),
  .set (.arr .jac 64) (.add (.rd (.arr .jac 64)) (.mul (.num 1259972248959336 16) (.mul (.rd (.var .jTemp)) (.num 42886781649405936 17)))),
  .set (.arr .jac 65) (.add (.rd (.arr .jac 65)) (.mul (.neg (.num 62998612447966798 18)) (.mul (.rd (.var .jTemp)) (.num 42886781649405936 17)))),
  .set (.arr .jac 75) (.add (.rd (.arr .jac 75)) (.mul (.num 17507156518369438 16) (.mul (.rd (.var .jTemp)) (.num 42886781649405936 17)))),
  .set (.arr .jac 77) (.add (.rd (.arr .jac 77)) (.mul (.neg (.num 18137142642849107 16)) (.mul (.rd (.var .jTemp)) (.num 42886781649405936 17)))),
  .set (.arr .jac 85) (.add (.rd (.arr .jac 85)) (.mul (.num 62998612447966798 18) (.mul (.rd (.var .jTemp)) (.neg (.num 14226436701188128 17))))),
  .set (.arr .jac 86) (.add (.rd (.arr .jac 86)) (.mul (.neg (.num 31499306223983399 18)) (.mul (.rd (.var .jTemp)) (.neg (.num 14226436701188128 17))))),
  .set (.arr .jac 96) (.add (.rd (.arr .jac 96)) (.mul (.num 87535782591847189 17) (.mul (.rd (.var .jTemp)) (.neg (.num 14226436701188128 17))))),
  .set (.arr .jac 98) (.add (.rd (.arr .jac 98)) (.mul (.neg (.num 90685713214245534 17)) (.mul (.rd (.var .jTemp)) (.neg (.num 14226436701188128 17))))),
  .set (.arr .jac 106) (.add (.rd (.arr .jac 106)) (.mul (.num 11852999940025896 17) (.mul (.rd (.var .jTemp)) (.num 39288728140880758 17)))),
  .set (.arr .jac 107) (.add (.rd (.arr .jac 107)) (.mul (.neg (.num 59264999700129481 18)) (.mul (.rd (.var .jTemp)) (.num 39288728140880758 17)))),
  .set (.arr .jac 117) (.add (.rd (.arr .jac 117)) (.mul (.num 16469594892558153 16) (.mul (.rd (.var .jTemp)) (.num 39288728140880758 17)))),
  .set (.arr .jac 119) (.add (.rd (.arr .jac 119)) (.mul (.neg (.num 17062244889559448 16)) (.mul (.rd (.var .jTemp)) (.num 39288728140880758 17)))),
  .set (.arr .jac 127) (.add (.rd (.arr .jac 127)) (.mul (.num 11189834407236524 17) (.mul (.rd (.var .jTemp)) (.num 35690674632355568 17)))),
  .set (.arr .jac 128) (.add (.rd (.arr .jac 128)) (.mul (.neg (.num 55949172036182618 18)) (.mul (.rd (.var .jTemp)) (.num 35690674632355568 17)))),
  .set (.arr .jac 138) (.add (.rd (.arr .jac 138)) (.mul (.num 15548134694548181 16) (.mul (.rd (.var .jTemp)) (.num 35690674632355568 17)))),
  .set (.arr .jac 140) (.add (.rd (.arr .jac 140)) (.mul (.neg (.num 16107626414910008 16)) (.mul (.rd (.var .jTemp)) (.num 35690674632355568 17)))),
  .set (.arr .jac 148) (.add (.rd (.arr .jac 148)) (.mul (.num 61074798662333819 18) (.mul (.rd (.var .jTemp)) (.neg (.num 17824490209713328 17))))),
  .set (.arr .jac 149) (.add (.rd (.arr .jac 149)) (.mul (.neg (.num 3053739933116691 17)) (.mul (.rd (.var .jTemp)) (.neg (.num 17824490209713328 17))))),
  .set (.arr .jac 159) (.add (.rd (.arr .jac 159)) (.mul (.num 84862667443073736 17) (.mul (.rd (.var .jTemp)) (.neg (.num 17824490209713328 17))))),
  .set (.arr .jac 161) (.add (.rd (.arr .jac 161)) (.mul (.neg (.num 87916407376190431 17)) (.mul (.rd (.var .jTemp)) (.neg (.num 17824490209713328 17))))),
  .set (.arr .jac 169) (.add (.rd (.arr .jac 169)) (.mul (.num 14371549482137155 17) (.mul (.rd (.var .jTemp)) (.num 49928106040377707 17)))),
  .set (.arr .jac 170) (.add (.rd (.arr .jac 170)) (.mul (.neg (.num 71857747410685777 18)) (.mul (.rd (.var .jTemp)) (.num 49928106040377707 17)))),
  .set (.arr .jac 180) (.add (.rd (.arr .jac 180)) (.mul (.num 19969087922617146 16) (.mul (.rd (.var .jTemp)) (.num 49928106040377707 17)))),
  .set (.arr .jac 182) (.add (.rd (.arr .jac 182)) (.mul (.neg (.num 20687665396724007 16)) (.mul (.rd (.var .jTemp)) (.num 49928106040377707 17)))),
  .set (.arr .jac 190) (.add (.rd (.arr .jac 190)) (.mul (.num 14371549482137155 17) (.mul (.rd (.var .jTemp)) (.num 49928106040377707 17)))),
  .set (.arr .jac 191) (.add (.rd (.arr .jac 191)) (.mul (.neg (.num 71857747410685777 18)) (.mul (.rd (.var .jTemp)) (.num 49928106040377707 17)))),
  .set (.arr .jac 201) (.add (.rd (.arr .jac 201)) (.mul (.num 19969087922617146 16) (.mul (.rd (.var .jTemp)) (.num 49928106040377707 17)))),
  .set (.arr .jac 203) (.add (.rd (.arr .jac 203)) (.mul (.neg (.num 20687665396724007 16)) (.mul (.rd (.var .jTemp)) (.num 49928106040377707 17)))),
  .set (.arr .jac 211) (.add (.rd (.arr .jac 211)) (.mul (.num 13408075387666762 17) (.mul (.rd (.var .jTemp)) (.num 46330052531852528 17)))),
  .set (.arr .jac 212) (.add (.rd (.arr .jac 212)) (.mul (.neg (.num 67040376938333812 18)) (.mul (.rd (.var .jTemp)) (.num 46330052531852528 17)))),
  .set (.arr .jac 222) (.add (.rd (.arr .jac 222)) (.mul (.num 18630352741170162 16) (.mul (.rd (.var .jTemp)) (.num 46330052531852528 17)))),
  .set (.arr .jac 224) (.add (.rd (.arr .jac 224)) (.mul (.neg (.num 19300756510553501 16)) (.mul (.rd (.var .jTemp)) (.num 46330052531852528 17)))),
  .set (.arr .jac 232) (.add (.rd (.arr .jac 232)) (.mul (.num 12565668251597606 17) (.mul (.rd (.var .jTemp)) (.num 42731999023327338 17)))),
  .set (.arr .jac 233) (.add (.rd (.arr .jac 233)) (.mul (.neg (.num 6282834125798803 17)) (.mul (.rd (.var .jTemp)) (.num 42731999023327338 17)))),
  .set (.arr .jac 243) (.add (.rd (.arr .jac 243)) (.mul (.num 17459838581391229 16) (.mul (.rd (.var .jTemp)) (.num 42731999023327338 17)))),
  .set (.arr .jac 245) (.add (.rd (.arr .jac 245)) (.mul (.neg (.num 18088121993971109 16)) (.mul (.rd (.var .jTemp)) (.num 42731999023327338 17)))),
  .set (.arr .jac 253) (.add (.rd (.arr .jac 253)) (.mul (.num 7196898294919031 17) (.sub (.mul (.rd (.var .jTemp)) (.num 10994706834011048 20)) (.mul (.rd (.var .kr)) (.rd (.arr .C 0)))))),
  .set (.arr .jac 254) (.add (.rd (.arr .jac 254)) (.mul (.neg (.num 35984491474595155 18)) (.sub (.mul (.rd (.var .jTemp)) (.num 10994706834011048 20)) (.mul (.rd (.var .kr)) (.rd (.arr .C 0)))))),
  .set (.arr .jac 264) (.add (.rd (.arr .jac 264)) (.sub (.mul (.rd (.var .jTemp)) (.num 10994706834011048 20)) (.mul (.rd (.var .kr)) (.rd (.arr .C 0))))),
  .set (.arr .jac 266) (.add (.rd (.arr .jac 266)) (.mul (.neg (.num 10359844914745953 16)) (.sub (.mul (.rd (.var .jTemp)) (.num 10994706834011048 20)) (.mul (.rd (.var .kr)) (.rd (.arr .C 0)))))),
  .set (.arr .jac 274) (.add (.rd (.arr .jac 274)) (.mul (.num 45805252466496103 18) (.mul (.rd (.var .jTemp)) (.neg (.num 57102223643760053 17))))),
  .set (.arr .jac 275) (.add (.rd (.arr .jac 275)) (.mul (.neg (.num 22902626233248052 18)) (.mul (.rd (.var .jTemp)) (.neg (.num 57102223643760053 17))))),
  .set (.arr .jac 285) (.add (.rd (.arr .jac 285)) (.mul (.num 63645824339124468 17) (.mul (.rd (.var .jTemp)) (.neg (.num 57102223643760053 17))))),
  .set (.arr .jac 287) (.add (.rd (.arr .jac 287)) (.mul (.neg (.num 6593608696244927 16)) (.mul (.rd (.var .jTemp)) (.neg (.num 57102223643760053 17))))),
  .set (.arr .jac 295) (.add (.rd (.arr .jac 295)) (.mul (.num 69469170186854251 18) (.add (.mul (.rd (.var .jTemp)) (.neg (.num 35870588016911675 18))) (.mul (.rd (.var .kf)) (.rd (.arr .C 1)))))),
  .set (.arr .jac 296) (.add (.rd (.arr .jac 296)) (.mul (.neg (.num 34734585093427126 18)) (.add (.mul (.rd (.var .jTemp)) (.neg (.num 35870588016911675 18))) (.mul (.rd (.var .kf)) (.rd (.arr .C 1)))))),
  .set (.arr .jac 306) (.add (.rd (.arr .jac 306)) (.mul (.num 96526541490657281 17) (.add (.mul (.rd (.var .jTemp)) (.neg (.num 35870588016911675 18))) (.mul (.rd (.var .kf)) (.rd (.arr .C 1)))))),
  .set (.arr .jac 308) (.add (.rd (.arr .jac 308)) (.neg (.add (.mul (.rd (.var .jTemp)) (.neg (.num 35870588016911675 18))) (.mul (.rd (.var .kf)) (.rd (.arr .C 1)))))),
  .set (.arr .jac 316) (.add (.rd (.arr .jac 316)) (.mul (.num 67137187823466643 18) (.mul (.rd (.var .jTemp)) (.neg (.num 71851123102163683 18))))),
  .set (.arr .jac 317) (.add (.rd (.arr .jac 317)) (.mul (.neg (.num 33568593911733322 18)) (.mul (.rd (.var .jTemp)) (.neg (.num 71851123102163683 18))))),
  .set (.arr .jac 327) (.add (.rd (.arr .jac 327)) (.mul (.num 93286281217653322 17) (.mul (.rd (.var .jTemp)) (.neg (.num 71851123102163683 18))))),
  .set (.arr .jac 329) (.add (.rd (.arr .jac 329)) (.mul (.neg (.num 96643140608826661 17)) (.mul (.rd (.var .jTemp)) (.neg (.num 71851123102163683 18))))),
  .set (.arr .jac 337) (.add (.rd (.arr .jac 337)) (.mul (.num 64956683299918619 18) (.mul (.rd (.var .jTemp)) (.neg (.num 10783165818741525 17))))),
  .set (.arr .jac 338) (.add (.rd (.arr .jac 338)) (.mul (.neg (.num 32478341649959309 18)) (.mul (.rd (.var .jTemp)) (.neg (.num 10783165818741525 17))))),
  .set (.arr .jac 348) (.add (.rd (.arr .jac 348)) (.mul (.num 90256497505012201 17) (.mul (.rd (.var .jTemp)) (.neg (.num 10783165818741525 17))))),
  .set (.arr .jac 350) (.add (.rd (.arr .jac 350)) (.mul (.neg (.num 93504331670008145 17)) (.mul (.rd (.var .jTemp)) (.neg (.num 10783165818741525 17))))),
  .set (.arr .jac 358) (.add (.rd (.arr .jac 358)) (.mul (.num 71857747410685777 18) (.mul (.rd (.var .jTemp)) (.neg (.num 14378791924458678 19))))),
  .set (.arr .jac 359) (.add (.rd (.arr .jac 359)) (.mul (.neg (.num 35928873705342888 18)) (.mul (.rd (.var .jTemp)) (.neg (.num 14378791924458678 19))))),
  .set (.arr .jac 369) (.add (.rd (.arr .jac 369)) (.mul (.num 99845439613085729 17) (.mul (.rd (.var .jTemp)) (.neg (.num 14378791924458678 19))))),
  .set (.arr .jac 371) (.add (.rd (.arr .jac 371)) (.mul (.neg (.num 10343832698362003 16)) (.mul (.rd (.var .jTemp)) (.neg (.num 14378791924458678 19))))),
  .set (.arr .jac 379) (.add (.rd (.arr .jac 379)) (.mul (.num 6936552231975418 17) (.mul (.rd (.var .jTemp)) (.neg (.num 37418414277697654 18))))),
  .set (.arr .jac 380) (.add (.rd (.arr .jac 380)) (.mul (.neg (.num 3468276115987709 17)) (.mul (.rd (.var .jTemp)) (.neg (.num 37418414277697654 18))))),
  .set (.arr .jac 390) (.add (.rd (.arr .jac 390)) (.mul (.num 96382524078082144 17) (.mul (.rd (.var .jTemp)) (.neg (.num 37418414277697654 18))))),
  .set (.arr .jac 392) (.add (.rd (.arr .jac 392)) (.mul (.neg (.num 99850800194069855 17)) (.mul (.rd (.var .jTemp)) (.neg (.num 37418414277697654 18))))),
  .set (.arr .jac 400) (.add (.rd (.arr .jac 400)) (.mul (.num 67040376938333812 18) (.mul (.rd (.var .jTemp)) (.neg (.num 73398949362949439 18))))),
  .set (.arr .jac 401) (.add (.rd (.arr .jac 401)) (.mul (.neg (.num 33520188469166906 18)) (.mul (.rd (.var .jTemp)) (.neg (.num 73398949362949439 18))))),
  .set (.arr .jac 411) (.add (.rd (.arr .jac 411)) (.mul (.num 9315176370585081 16) (.mul (.rd (.var .jTemp)) (.neg (.num 73398949362949439 18))))),
  .set (.arr .jac 413) (.add (.rd (.arr .jac 413)) (.mul (.neg (.num 96503782552767503 17)) (.mul (.rd (.var .jTemp)) (.neg (.num 73398949362949439 18))))),
  .set (.arr .jac 421) (.add (.rd (.arr .jac 421)) (.mul (.num 5046260138179634 17) (.mul (.rd (.var .jTemp)) (.neg (.num 42602775520927771 17))))),
  .set (.arr .jac 422) (.add (.rd (.arr .jac 422)) (.mul (.neg (.num 2523130069089817 17)) (.mul (.rd (.var .jTemp)) (.neg (.num 42602775520927771 17))))),
  .set (.arr .jac 432) (.add (.rd (.arr .jac 432)) (.mul (.num 70117152297987373 17) (.mul (.rd (.var .jTemp)) (.neg (.num 42602775520927771 17))))),
  .set (.arr .jac 434) (.add (.rd (.arr .jac 434)) (.mul (.neg (.num 72640282367077191 17)) (.mul (.rd (.var .jTemp)) (.neg (.num 42602775520927771 17)))))]

/-- utilities/mechanisms/drm19/lib/src/jacobs/jacob_0.c:2991-3002 -/
def jacobT34 : List CStmt := [
  .set (.var .concTemp) (.add (.rd (.var .concTemp)) (.mul (.num 3 1) (.rd (.arr .C 19)))),
  .set (.var .Pr) (.mul (.rd (.var .concTemp)) (.exp (.sub (.sub (.num 35943419894698771 15) (.mul (.num 5254 3) (.rd (.var .logT)))) (.div (.num 14895299119831213 13) (.rd (.var .T)))))),
  .set (.var .Fcent) (.add (.add (.mul (.num 24199999999999999 17) (.exp (.div (.rd (.var .T)) (.neg (.num 94 0))))) (.mul (.num 75800000000000001 17) (.exp (.div (.rd (.var .T)) (.neg (.num 1555 0)))))) (.exp (.div (.neg (.num 4200 0)) (.rd (.var .T))))),
  .set (.var .A) (.sub (.sub (.log10 (.fmax (.rd (.var .Pr)) (.num 1 300))) (.mul (.num 67 2) (.log10 (.fmax (.rd (.var .Fcent)) (.num 1 300))))) (.num 4 1)),
  .set (.var .B) (.sub (.sub (.num 806 3) (.mul (.num 11762 4) (.log10 (.fmax (.rd (.var .Fcent)) (.num 1 300))))) (.mul (.num 14 2) (.log10 (.fmax (.rd (.var .Pr)) (.num 1 300))))),
  .set (.var .lnFAB) (.div (.mul (.mul (.num 2 0) (.log (.fmax (.rd (.var .Fcent)) (.num 1 300)))) (.rd (.var .A))) (.mul (.mul (.mul (.mul (.rd (.var .B)) (.rd (.var .B))) (.rd (.var .B))) (.add (.num 1 0) (.div (.mul (.rd (.var .A)) (.rd (.var .A))) (.mul (.rd (.var .B)) (.rd (.var .B)))))) (.add (.num 1 0) (.div (.mul (.rd (.var .A)) (.rd (.var .A))) (.mul (.rd (.var .B)) (.rd (.var .B))))))),
  .set (.var .jTemp) (.mul (.add (.mul (.mul (.rd (.arr .presMod 8)) (.sub (.add (.div (.sub (.add (.neg (.num 5254 3)) (.div (.num 14895299119831213 13) (.rd (.var .T)))) (.num 1 0)) (.mul (.rd (.var .T)) (.add (.num 1 0) (.rd (.var .Pr))))) (.mul (.sub (.div (.num 1 0) (.mul (.rd (.var .Fcent)) (.add (.num 1 0) (.div (.mul (.rd (.var .A)) (.rd (.var .A))) (.mul (.rd (.var .B)) (.rd (.var .B))))))) (.div (.mul (.rd (.var .lnFAB)) (.add (.mul (.neg (.num 2909773028751787 16)) (.rd (.var .B))) (.mul (.num 51081716961460466 17) (.rd (.var .A))))) (.rd (.var .Fcent)))) (.add (.sub (.mul (.neg (.num 25744680851063828 19)) (.exp (.div (.rd (.var .T)) (.neg (.num 94 0))))) (.mul (.num 48745980707395501 20) (.exp (.div (.rd (.var .T)) (.neg (.num 1555 0)))))) (.mul (.div (.num 4200 0) (.mul (.rd (.var .T)) (.rd (.var .T)))) (.exp (.div (.neg (.num 4200 0)) (.rd (.var .T)))))))) (.div (.mul (.mul (.rd (.var .lnFAB)) (.add (.mul (.num 43429448190325176 17) (.rd (.var .B))) (.mul (.num 60801227466455256 18) (.rd (.var .A))))) (.sub (.add (.neg (.num 52539999999999996 16)) (.div (.num 14895299119831213 13) (.rd (.var .T)))) (.num 1 0))) (.rd (.var .T))))) (.sub (.rd (.arr .fwd 34)) (.rd (.arr .rev 34)))) (.mul (.div (.rd (.arr .presMod 8)) (.rd (.var .T))) (.sub (.add (.mul (.sub (.rd (.arr .fwd 34)) (.rd (.arr .rev 34))) (.add (.num 45400000000000001 17) (.div (.num 1308370868633823 12) (.rd (.var .T))))) (.mul (.rd (.arr .fwd 34)) (.neg (.num 1 0)))) (.mul (.rd (.arr .rev 34)) (.mul (.neg (.rd (.var .T))) (.sub (.sub (.rd (.arr .dBdT 15)) (.rd (.arr .dBdT 14))) (.rd (.arr .dBdT 1)))))))) (.rd (.var .rhoInv))),
  .set (.arr .jac 2) (.add (.rd (.arr .jac 2)) (.mul (.neg (.rd (.var .jTemp))) (.num 10079400000000001 16))),
  .set (.arr .jac 15) (.add (.rd (.arr .jac 15)) (.mul (.neg (.rd (.var .jTemp))) (.num 3002628 5))),
  .set (.arr .jac 16) (.mul (.rd (.var .jTemp)) (.num 31034219999999998 15))]

/-- utilities/mechanisms/drm19/lib/src/jacobs/jacob_0.c:3003-3076 -/
def jacobS34 : List CStmt := [
  .ite (.rd (.var .T)) (.num 1000 0) (.var .Kc) (.sub (.add (.add (.num 18183566103 9) (.mul (.neg (.num 418751915 8)) (.rd (.var .logT)))) (.mul (.rd (.var .T)) (.add (.num 85624643446473338 19) (.mul (.rd (.var .T)) (.add (.neg (.num 53305881330006796 22)) (.mul (.rd (.var .T)) (.add (.num 25459075081415984 25) (.mul (.neg (.num 55508275995361342 29)) (.rd (.var .T)))))))))) (.div (.neg (.num 10186102099999998 12)) (.rd (.var .T)))) (.sub (.add (.add (.neg (.num 9790173996 9)) (.mul (.num 51010891000000003 17) (.rd (.var .logT)))) (.mul (.rd (.var .T)) (.add (.neg (.num 66425189845785177 20)) (.mul (.rd (.var .T)) (.add (.num 29436735230730084 23) (.mul (.rd (.var .T)) (.add (.neg (.num 50997417938737298 27)) (.mul (.num 33629701750901327 31) (.rd (.var .T)))))))))) (.div (.neg (.num 11349995079999999 12)) (.rd (.var .T)))),
  .set (.var .Kc) (.mul (.num 82057360967184814 18) (.exp (.rd (.var .Kc)))),
  .set (.var .presModTemp) (.mul (.sub (.div (.num 1 0) (.add (.num 1 0) (.rd (.var .Pr)))) (.div (.mul (.mul (.mul (.log (.fmax (.rd (.var .Fcent)) (.num 1 300))) (.num 2 0)) (.rd (.var .A))) (.add (.mul (.rd (.var .B)) (.num 4342944819032518 16)) (.mul (.rd (.var .A)) (.num 6080122746645526 17)))) (.mul (.mul (.mul (.mul (.rd (.var .B)) (.rd (.var .B))) (.rd (.var .B))) (.add (.num 1 0) (.div (.mul (.rd (.var .A)) (.rd (.var .A))) (.mul (.rd (.var .B)) (.rd (.var .B)))))) (.add (.num 1 0) (.div (.mul (.rd (.var .A)) (.rd (.var .A))) (.mul (.rd (.var .B)) (.rd (.var .B)))))))) (.sub (.rd (.arr .fwd 34)) (.rd (.arr .rev 34)))),
  .set (.var .jTemp) (.mul (.mul (.mul (.neg (.rd (.var .mwAvg))) (.rd (.var .rhoInv))) (.rd (.arr .presMod 8))) (.add (.sub (.mul (.num 2 0) (.rd (.arr .fwd 34))) (.rd (.arr .rev 34))) (.rd (.var .presModTemp)))),
  .set (.var .presModTemp) (.mul (.rd (.var .presModTemp)) (.div (.mul (.exp (.sub (.sub (.num 35943419894698771 15) (.mul (.num 5254 3) (.rd (.var .logT)))) (.div (.num 14895299119831213 13) (.rd (.var .T))))) (.pow (.rd (.var .Fcent)) (.div (.num 1 0) (.add (.num 1 0) (.div (.mul (.rd (.var .A)) (.rd (.var .A))) (.mul (.rd (.var .B)) (.rd (.var .B)))))))) (.add (.num 1 0) (.rd (.var .Pr))))),
  .set (.var .kf) (.exp (.sub (.add (.num 20107079697522593 15) (.mul (.num 454 3) (.rd (.var .logT)))) (.div (.num 1308370868633823 12) (.rd (.var .T))))),
  .set (.var .kr) (.div (.rd (.var .kf)) (.rd (.var .Kc))),
  .set (.arr .jac 23) (.add (.rd (.arr .jac 23)) (.mul (.neg (.num 5 1)) (.add (.mul (.rd (.var .jTemp)) (.num 92803892982949643 17)) (.mul (.num 19280389298294964 16) (.rd (.var .presModTemp)))))),
  .set (.arr .jac 36) (.add (.rd (.arr .jac 36)) (.mul (.neg (.num 14894874694922317 15)) (.add (.mul (.rd (.var .jTemp)) (.num 92803892982949643 17)) (.mul (.num 19280389298294964 16) (.rd (.var .presModTemp)))))),
  .set (.arr .jac 37) (.mul (.num 15394874694922315 15) (.add (.mul (.rd (.var .jTemp)) (.num 92803892982949643 17)) (.mul (.num 19280389298294964 16) (.rd (.var .presModTemp))))),
  .set (.arr .jac 44) (.add (.rd (.arr .jac 44)) (.neg (.add (.add (.mul (.rd (.var .jTemp)) (.num 96401946491474821 17)) (.mul (.num 96401946491474821 17) (.rd (.var .presModTemp)))) (.mul (.rd (.arr .presMod 8)) (.mul (.rd (.var .kf)) (.rd (.arr .C 14))))))),
  .set (.arr .jac 57) (.add (.rd (.arr .jac 57)) (.mul (.neg (.num 29789749389844633 15)) (.add (.add (.mul (.rd (.var .jTemp)) (.num 96401946491474821 17)) (.mul (.num 96401946491474821 17) (.rd (.var .presModTemp)))) (.mul (.rd (.arr .presMod 8)) (.mul (.rd (.var .kf)) (.rd (.arr .C 14))))))),
  .set (.arr .jac 58) (.mul (.num 3078974938984463 14) (.add (.add (.mul (.rd (.var .jTemp)) (.num 96401946491474821 17)) (.mul (.num 96401946491474821 17) (.rd (.var .presModTemp)))) (.mul (.rd (.arr .presMod 8)) (.mul (.rd (.var .kf)) (.rd (.arr .C 14)))))),
  .set (.arr .jac 65) (.add (.rd (.arr .jac 65)) (.mul (.neg (.num 62998612447966798 18)) (.add (.mul (.rd (.var .jTemp)) (.num 42886781649405936 17)) (.mul (.num 42886781649405936 17) (.rd (.var .presModTemp)))))),
  .set (.arr .jac 78) (.add (.rd (.arr .jac 78)) (.mul (.neg (.num 18767128767328776 16)) (.add (.mul (.rd (.var .jTemp)) (.num 42886781649405936 17)) (.mul (.num 42886781649405936 17) (.rd (.var .presModTemp)))))),
  .set (.arr .jac 79) (.mul (.num 19397114891808442 16) (.add (.mul (.rd (.var .jTemp)) (.num 42886781649405936 17)) (.mul (.num 42886781649405936 17) (.rd (.var .presModTemp))))),
  .set (.arr .jac 86) (.add (.rd (.arr .jac 86)) (.mul (.neg (.num 31499306223983399 18)) (.add (.mul (.rd (.var .jTemp)) (.neg (.num 14226436701188128 17))) (.mul (.neg (.num 14226436701188128 17)) (.rd (.var .presModTemp)))))),
  .set (.arr .jac 99) (.add (.rd (.arr .jac 99)) (.mul (.neg (.num 93835643836643878 17)) (.add (.mul (.rd (.var .jTemp)) (.neg (.num 14226436701188128 17))) (.mul (.neg (.num 14226436701188128 17)) (.rd (.var .presModTemp)))))),
  .set (.arr .jac 100) (.mul (.num 96985574459042212 17) (.add (.mul (.rd (.var .jTemp)) (.neg (.num 14226436701188128 17))) (.mul (.neg (.num 14226436701188128 17)) (.rd (.var .presModTemp))))),
  .set (.arr .jac 107) (.add (.rd (.arr .jac 107)) (.mul (.neg (.num 59264999700129481 18)) (.add (.mul (.rd (.var .jTemp)) (.num 39288728140880758 17)) (.mul (.num 39288728140880758 17) (.rd (.var .presModTemp)))))),
  .set (.arr .jac 120) (.add (.rd (.arr .jac 120)) (.mul (.neg (.num 17654894886560744 16)) (.add (.mul (.rd (.var .jTemp)) (.num 39288728140880758 17)) (.mul (.num 39288728140880758 17) (.rd (.var .presModTemp)))))),
  .set (.arr .jac 121) (.mul (.num 18247544883562039 16) (.add (.mul (.rd (.var .jTemp)) (.num 39288728140880758 17)) (.mul (.num 39288728140880758 17) (.rd (.var .presModTemp))))),
  .set (.arr .jac 128) (.add (.rd (.arr .jac 128)) (.mul (.neg (.num 55949172036182618 18)) (.add (.mul (.rd (.var .jTemp)) (.num 35690674632355568 17)) (.mul (.num 53569067463235553 16) (.rd (.var .presModTemp)))))),
  .set (.arr .jac 141) (.add (.rd (.arr .jac 141)) (.mul (.neg (.num 16667118135271835 16)) (.add (.mul (.rd (.var .jTemp)) (.num 35690674632355568 17)) (.mul (.num 53569067463235553 16) (.rd (.var .presModTemp)))))),
  .set (.arr .jac 142) (.mul (.num 17226609855633661 16) (.add (.mul (.rd (.var .jTemp)) (.num 35690674632355568 17)) (.mul (.num 53569067463235553 16) (.rd (.var .presModTemp))))),
  .set (.arr .jac 149) (.add (.rd (.arr .jac 149)) (.mul (.neg (.num 3053739933116691 17)) (.add (.mul (.rd (.var .jTemp)) (.neg (.num 17824490209713328 17))) (.mul (.neg (.num 17824490209713328 17)) (.rd (.var .presModTemp)))))),
  .set (.arr .jac 162) (.add (.rd (.arr .jac 162)) (.mul (.neg (.num 90970147309307126 17)) (.add (.mul (.rd (.var .jTemp)) (.neg (.num 17824490209713328 17))) (.mul (.neg (.num 17824490209713328 17)) (.rd (.var .presModTemp)))))),
  .set (.arr .jac 163) (.mul (.num 94023887242423809 17) (.add (.mul (.rd (.var .jTemp)) (.neg (.num 17824490209713328 17))) (.mul (.neg (.num 17824490209713328 17)) (.rd (.var .presModTemp))))),
  .set (.arr .jac 170) (.add (.rd (.arr .jac 170)) (.mul (.neg (.num 71857747410685777 18)) (.add (.mul (.rd (.var .jTemp)) (.num 49928106040377707 17)) (.mul (.num 49928106040377707 17) (.rd (.var .presModTemp)))))),
  .set (.arr .jac 183) (.add (.rd (.arr .jac 183)) (.mul (.neg (.num 21406242870830865 16)) (.add (.mul (.rd (.var .jTemp)) (.num 49928106040377707 17)) (.mul (.num 49928106040377707 17) (.rd (.var .presModTemp)))))),
  .set (.arr .jac 184) (.mul (.num 22124820344937719 16) (.add (.mul (.rd (.var .jTemp)) (.num 49928106040377707 17)) (.mul (.num 49928106040377707 17) (.rd (.var .presModTemp))))),
  .set (.arr .jac 191) (.add (.rd (.arr .jac 191)) (.mul (.neg (.num 71857747410685777 18)) (.add (.mul (.rd (.var .jTemp)) (.num 49928106040377707 17)) (.mul (.num 49928106040377707 17) (.rd (.var .presModTemp)))))),
  .set (.arr .jac 204) (.add (.rd (.arr .jac 204)) (.mul (.neg (.num 21406242870830865 16)) (.add (.mul (.rd (.var .jTemp)) (.num 49928106040377707 17)) (.mul (.num 49928106040377707 17) (.rd (.var .presModTemp)))))),
  .set (.arr .jac 205) (.mul (.num 22124820344937719 16) (.add (.mul (.rd (.var .jTemp)) (.num 49928106040377707 17)) (.mul (.num 49928106040377707 17) (.rd (.var .presModTemp))))),
  .set (.arr .jac 212) (.add (.rd (.arr .jac 212)) (.mul (.neg (.num 67040376938333812 18)) (.add (.mul (.rd (.var .jTemp)) (.num 46330052531852528 17)) (.mul (.num 46330052531852528 17) (.rd (.var .presModTemp)))))),
  .set (.arr .jac 225) (.add (.rd (.arr .jac 225)) (.mul (.neg (.num 19971160279936839 16)) (.add (.mul (.rd (.var .jTemp)) (.num 46330052531852528 17)) (.mul (.num 46330052531852528 17) (.rd (.var .presModTemp)))))),
  .set (.arr .jac 226) (.mul (.num 20641564049320178 16) (.add (.mul (.rd (.var .jTemp)) (.num 46330052531852528 17)) (.mul (.num 46330052531852528 17) (.rd (.var .presModTemp))))),
  .set (.arr .jac 233) (.add (.rd (.arr .jac 233)) (.mul (.neg (.num 6282834125798803 17)) (.add (.mul (.rd (.var .jTemp)) (.num 42731999023327338 17)) (.mul (.num 14273199902332734 16) (.rd (.var .presModTemp)))))),
  .set (.arr .jac 246) (.add (.rd (.arr .jac 246)) (.mul (.neg (.num 18716405406550991 16)) (.add (.mul (.rd (.var .jTemp)) (.num 42731999023327338 17)) (.mul (.num 14273199902332734 16) (.rd (.var .presModTemp)))))),
  .set (.arr .jac 247) (.mul (.num 19344688819130871 16) (.add (.mul (.rd (.var .jTemp)) (.num 42731999023327338 17)) (.mul (.num 14273199902332734 16) (.rd (.var .presModTemp))))),
  .set (.arr .jac 254) (.add (.rd (.arr .jac 254)) (.mul (.neg (.num 35984491474595155 18)) (.add (.mul (.rd (.var .jTemp)) (.num 10994706834011048 20)) (.mul (.num 50010994706834011 17) (.rd (.var .presModTemp)))))),
  .set (.arr .jac 267) (.add (.rd (.arr .jac 267)) (.mul (.neg (.num 10719689829491903 16)) (.add (.mul (.rd (.var .jTemp)) (.num 10994706834011048 20)) (.mul (.num 50010994706834011 17) (.rd (.var .presModTemp)))))),
  .set (.arr .jac 268) (.mul (.num 11079534744237856 16) (.add (.mul (.rd (.var .jTemp)) (.num 10994706834011048 20)) (.mul (.num 50010994706834011 17) (.rd (.var .presModTemp))))),
  .set (.arr .jac 275) (.add (.rd (.arr .jac 275)) (.mul (.neg (.num 22902626233248052 18)) (.add (.mul (.rd (.var .jTemp)) (.neg (.num 57102223643760053 17))) (.mul (.num 42897776356239947 17) (.rd (.var .presModTemp)))))),
  .set (.arr .jac 288) (.add (.rd (.arr .jac 288)) (.mul (.neg (.num 68226349585774082 17)) (.add (.mul (.rd (.var .jTemp)) (.neg (.num 57102223643760053 17))) (.mul (.num 42897776356239947 17) (.rd (.var .presModTemp)))))),
  .set (.arr .jac 289) (.mul (.num 70516612209098883 17) (.add (.mul (.rd (.var .jTemp)) (.neg (.num 57102223643760053 17))) (.mul (.num 42897776356239947 17) (.rd (.var .presModTemp))))),
  .set (.arr .jac 296) (.add (.rd (.arr .jac 296)) (.mul (.neg (.num 34734585093427126 18)) (.add (.mul (.rd (.var .jTemp)) (.neg (.num 35870588016911675 18))) (.mul (.neg (.num 35870588016911675 18)) (.rd (.var .presModTemp)))))),
  .set (.arr .jac 309) (.add (.rd (.arr .jac 309)) (.mul (.neg (.num 10347345850934271 16)) (.add (.mul (.rd (.var .jTemp)) (.neg (.num 35870588016911675 18))) (.mul (.neg (.num 35870588016911675 18)) (.rd (.var .presModTemp)))))),
  .set (.arr .jac 310) (.mul (.num 10694691701868542 16) (.add (.mul (.rd (.var .jTemp)) (.neg (.num 35870588016911675 18))) (.mul (.neg (.num 35870588016911675 18)) (.rd (.var .presModTemp))))),
  .set (.arr .jac 317) (.add (.rd (.arr .jac 317)) (.mul (.neg (.num 33568593911733322 18)) (.add (.add (.mul (.rd (.var .jTemp)) (.neg (.num 71851123102163683 18))) (.mul (.neg (.num 71851123102163683 18)) (.rd (.var .presModTemp)))) (.mul (.rd (.arr .presMod 8)) (.mul (.rd (.var .kf)) (.rd (.arr .C 1))))))),
  .set (.arr .jac 330) (.add (.rd (.arr .jac 330)) (.neg (.add (.add (.mul (.rd (.var .jTemp)) (.neg (.num 71851123102163683 18))) (.mul (.neg (.num 71851123102163683 18)) (.rd (.var .presModTemp)))) (.mul (.rd (.arr .presMod 8)) (.mul (.rd (.var .kf)) (.rd (.arr .C 1))))))),
  .set (.arr .jac 331) (.mul (.num 10335685939117332 16) (.add (.add (.mul (.rd (.var .jTemp)) (.neg (.num 71851123102163683 18))) (.mul (.neg (.num 71851123102163683 18)) (.rd (.var .presModTemp)))) (.mul (.rd (.arr .presMod 8)) (.mul (.rd (.var .kf)) (.rd (.arr .C 1)))))),
  .set (.arr .jac 338) (.add (.rd (.arr .jac 338)) (.mul (.neg (.num 32478341649959309 18)) (.add (.add (.mul (.rd (.var .jTemp)) (.neg (.num 10783165818741525 17))) (.mul (.neg (.num 10783165818741525 17)) (.rd (.var .presModTemp)))) (.mul (.rd (.arr .presMod 8)) (.neg (.rd (.var .kr))))))),
  .set (.arr .jac 351) (.add (.rd (.arr .jac 351)) (.mul (.neg (.num 96752165835004078 17)) (.add (.add (.mul (.rd (.var .jTemp)) (.neg (.num 10783165818741525 17))) (.mul (.neg (.num 10783165818741525 17)) (.rd (.var .presModTemp)))) (.mul (.rd (.arr .presMod 8)) (.neg (.rd (.var .kr))))))),
  .set (.arr .jac 352) (.add (.add (.mul (.rd (.var .jTemp)) (.neg (.num 10783165818741525 17))) (.mul (.neg (.num 10783165818741525 17)) (.rd (.var .presModTemp)))) (.mul (.rd (.arr .presMod 8)) (.neg (.rd (.var .kr))))),
  .set (.arr .jac 359) (.add (.rd (.arr .jac 359)) (.mul (.neg (.num 35928873705342888 18)) (.add (.mul (.rd (.var .jTemp)) (.neg (.num 14378791924458678 19))) (.mul (.neg (.num 14378791924458678 19)) (.rd (.var .presModTemp)))))),
  .set (.arr .jac 372) (.add (.rd (.arr .jac 372)) (.mul (.neg (.num 10703121435415432 16)) (.add (.mul (.rd (.var .jTemp)) (.neg (.num 14378791924458678 19))) (.mul (.neg (.num 14378791924458678 19)) (.rd (.var .presModTemp)))))),
  .set (.arr .jac 373) (.mul (.num 11062410172468859 16) (.add (.mul (.rd (.var .jTemp)) (.neg (.num 14378791924458678 19))) (.mul (.neg (.num 14378791924458678 19)) (.rd (.var .presModTemp))))),
  .set (.arr .jac 380) (.add (.rd (.arr .jac 380)) (.mul (.neg (.num 3468276115987709 17)) (.add (.mul (.rd (.var .jTemp)) (.neg (.num 37418414277697654 18))) (.mul (.neg (.num 37418414277697654 18)) (.rd (.var .presModTemp)))))),
  .set (.arr .jac 393) (.add (.rd (.arr .jac 393)) (.mul (.neg (.num 10331907631005757 16)) (.add (.mul (.rd (.var .jTemp)) (.neg (.num 37418414277697654 18))) (.mul (.neg (.num 37418414277697654 18)) (.rd (.var .presModTemp)))))),
  .set (.arr .jac 394) (.mul (.num 10678735242604527 16) (.add (.mul (.rd (.var .jTemp)) (.neg (.num 37418414277697654 18))) (.mul (.neg (.num 37418414277697654 18)) (.rd (.var .presModTemp))))),
  .set (.arr .jac 401) (.add (.rd (.arr .jac 401)) (.mul (.neg (.num 33520188469166906 18)) (.add (.mul (.rd (.var .jTemp)) (.neg (.num 73398949362949439 18))) (.mul (.num 19266010506370506 16) (.rd (.var .presModTemp)))))),
  .set (.arr .jac 414) (.add (.rd (.arr .jac 414)) (.mul (.neg (.num 99855801399684196 17)) (.add (.mul (.rd (.var .jTemp)) (.neg (.num 73398949362949439 18))) (.mul (.num 19266010506370506 16) (.rd (.var .presModTemp)))))),
  .set (.arr .jac 415) (.mul (.num 10320782024660089 16) (.add (.mul (.rd (.var .jTemp)) (.neg (.num 73398949362949439 18))) (.mul (.num 19266010506370506 16) (.rd (.var .presModTemp))))),
  .set (.arr .jac 422) (.add (.rd (.arr .jac 422)) (.mul (.neg (.num 2523130069089817 17)) (.add (.mul (.rd (.var .jTemp)) (.neg (.num 42602775520927771 17))) (.mul (.neg (.num 42602775520927771 17)) (.rd (.var .presModTemp)))))),
  .set (.arr .jac 435) (.add (.rd (.arr .jac 435)) (.mul (.neg (.num 75163412436167021 17)) (.add (.mul (.rd (.var .jTemp)) (.neg (.num 42602775520927771 17))) (.mul (.neg (.num 42602775520927771 17)) (.rd (.var .presModTemp)))))),
  .set (.arr .jac 436) (.mul (.num 77686542505256828 17) (.add (.mul (.rd (.var .jTemp)) (.neg (.num 42602775520927771 17))) (.mul (.neg (.num 42602775520927771 17)) (.rd (.var .presModTemp)))))]

/-- utilities/mechanisms/drm19/lib/src/jacobs/jacob_0.c:3077-3083 -/
def jacobT35 : List CStmt := [
  .set (.var .jTemp) (.mul (.mul (.div (.num 1 0) (.rd (.var .T))) (.sub (.add (.mul (.sub (.rd (.arr .fwd 35)) (.rd (.arr .rev 35))) (.add (.num 105 2) (.div (.num 16480440749137576 13) (.rd (.var .T))))) (.mul (.rd (.arr .fwd 35)) (.neg (.num 1 0)))) (.mul (.rd (.arr .rev 35)) (.add (.neg (.num 1 0)) (.mul (.neg (.rd (.var .T))) (.sub (.sub (.add (.rd (.arr .dBdT 0)) (.rd (.arr .dBdT 13))) (.rd (.arr .dBdT 14))) (.rd (.arr .dBdT 1)))))))) (.rd (.var .rhoInv))),
  .set (.arr .jac 1) (.add (.rd (.arr .jac 1)) (.mul (.rd (.var .jTemp)) (.num 20158800000000001 16))),
  .set (.arr .jac 2) (.add (.rd (.arr .jac 2)) (.mul (.neg (.rd (.var .jTemp))) (.num 10079400000000001 16))),
  .set (.arr .jac 14) (.add (.rd (.arr .jac 14)) (.mul (.rd (.var .jTemp)) (.num 29018339999999998 15))),
  .set (.arr .jac 15) (.add (.rd (.arr .jac 15)) (.mul (.neg (.rd (.var .jTemp))) (.num 3002628 5)))]

/-- utilities/mechanisms/drm19/lib/src/jacobs/jacob_0.c:3084-3175 -/
def jacobS35 : List CStmt := [
  .ite (.rd (.var .T)) (.num 1000 0) (.var .Kc) (.sub (.add (.add (.num 46494588109999997 16) (.mul (.neg (.num 72820618999999942 17)) (.rd (.var .logT)))) (.mul (.rd (.var .T)) (.add (.num 73224645596473327 19) (.mul (.rd (.var .T)) (.add (.neg (.num 71700345330006799 22)) (.mul (.rd (.var .T)) (.add (.num 37309438498082653 25) (.mul (.neg (.num 8107847079536134 28)) (.rd (.var .T)))))))))) (.div (.neg (.num 82430734130000001 13)) (.rd (.var .T)))) (.sub (.add (.add (.neg (.num 84650819659999996 16)) (.mul (.num 18487634899999998 16) (.rd (.var .logT)))) (.mul (.rd (.var .T)) (.add (.neg (.num 21462240050078517 19)) (.mul (.rd (.var .T)) (.add (.num 40626479364063411 23) (.mul (.rd (.var .T)) (.add (.neg (.num 49734727605403966 27)) (.mul (.num 27530115000901327 31) (.rd (.var .T)))))))))) (.div (.neg (.num 84160683719999961 13)) (.rd (.var .T)))),
  .set (.var .Kc) (.exp (.rd (.var .Kc))),
  .set (.var .jTemp) (.mul (.mul (.neg (.rd (.var .mwAvg))) (.rd (.var .rhoInv))) (.sub (.mul (.num 2 0) (.rd (.arr .fwd 35))) (.mul (.num 2 0) (.rd (.arr .rev 35))))),
  .set (.var .kf) (.exp (.sub (.add (.num 16951004773893423 15) (.mul (.num 105 2) (.rd (.var .logT)))) (.div (.num 16480440749137576 13) (.rd (.var .T))))),
  .set (.var .kr) (.div (.rd (.var .kf)) (.rd (.var .Kc))),
  .set (.arr .jac 22) (.add (.rd (.arr .jac 22)) (.sub (.mul (.rd (.var .jTemp)) (.num 92803892982949643 17)) (.mul (.rd (.var .kr)) (.rd (.arr .C 13))))),
  .set (.arr .jac 23) (.add (.rd (.arr .jac 23)) (.mul (.neg (.num 5 1)) (.sub (.mul (.rd (.var .jTemp)) (.num 92803892982949643 17)) (.mul (.rd (.var .kr)) (.rd (.arr .C 13)))))),
  .set (.arr .jac 35) (.add (.rd (.arr .jac 35)) (.mul (.num 14394874694922315 15) (.sub (.mul (.rd (.var .jTemp)) (.num 92803892982949643 17)) (.mul (.rd (.var .kr)) (.rd (.arr .C 13)))))),
  .set (.arr .jac 36) (.add (.rd (.arr .jac 36)) (.mul (.neg (.num 14894874694922317 15)) (.sub (.mul (.rd (.var .jTemp)) (.num 92803892982949643 17)) (.mul (.rd (.var .kr)) (.rd (.arr .C 13)))))),
  .set (.arr .jac 43) (.add (.rd (.arr .jac 43)) (.mul (.num 2 0) (.add (.mul (.rd (.var .jTemp)) (.num 96401946491474821 17)) (.mul (.rd (.var .kf)) (.rd (.arr .C 14)))))),
  .set (.arr .jac 44) (.add (.rd (.arr .jac 44)) (.neg (.add (.mul (.rd (.var .jTemp)) (.num 96401946491474821 17)) (.mul (.rd (.var .kf)) (.rd (.arr .C 14)))))),
  .set (.arr .jac 56) (.add (.rd (.arr .jac 56)) (.mul (.num 2878974938984463 14) (.add (.mul (.rd (.var .jTemp)) (.num 96401946491474821 17)) (.mul (.rd (.var .kf)) (.rd (.arr .C 14)))))),
  .set (.arr .jac 57) (.add (.rd (.arr .jac 57)) (.mul (.neg (.num 29789749389844633 15)) (.add (.mul (.rd (.var .jTemp)) (.num 96401946491474821 17)) (.mul (.rd (.var .kf)) (.rd (.arr .C 14)))))),
  .set (.arr .jac 64) (.add (.rd (.arr .jac 64)) (.mul (.num 1259972248959336 16) (.mul (.rd (.var .jTemp)) (.num 42886781649405936 17)))),
  .set (.arr .jac 65) (.add (.rd (.arr .jac 65)) (.mul (.neg (.num 62998612447966798 18)) (.mul (.rd (.var .jTemp)) (.num 42886781649405936 17)))),
  .set (.arr .jac 77) (.add (.rd (.arr .jac 77)) (.mul (.num 18137142642849107 16) (.mul (.rd (.var .jTemp)) (.num 42886781649405936 17)))),
  .set (.arr .jac 78) (.add (.rd (.arr .jac 78)) (.mul (.neg (.num 18767128767328776 16)) (.mul (.rd (.var .jTemp)) (.num 42886781649405936 17)))),
  .set (.arr .jac 85) (.add (.rd (.arr .jac 85)) (.mul (.num 62998612447966798 18) (.mul (.rd (.var .jTemp)) (.neg (.num 14226436701188128 17))))),
  .set (.arr .jac 86) (.add (.rd (.arr .jac 86)) (.mul (.neg (.num 31499306223983399 18)) (.mul (.rd (.var .jTemp)) (.neg (.num 14226436701188128 17))))),
  .set (.arr .jac 98) (.add (.rd (.arr .jac 98)) (.mul (.num 90685713214245534 17) (.mul (.rd (.var .jTemp)) (.neg (.num 14226436701188128 17))))),
  .set (.arr .jac 99) (.add (.rd (.arr .jac 99)) (.mul (.neg (.num 93835643836643878 17)) (.mul (.rd (.var .jTemp)) (.neg (.num 14226436701188128 17))))),
  .set (.arr .jac 106) (.add (.rd (.arr .jac 106)) (.mul (.num 11852999940025896 17) (.mul (.rd (.var .jTemp)) (.num 39288728140880758 17)))),
  .set (.arr .jac 107) (.add (.rd (.arr .jac 107)) (.mul (.neg (.num 59264999700129481 18)) (.mul (.rd (.var .jTemp)) (.num 39288728140880758 17)))),
  .set (.arr .jac 119) (.add (.rd (.arr .jac 119)) (.mul (.num 17062244889559448 16) (.mul (.rd (.var .jTemp)) (.num 39288728140880758 17)))),
  .set (.arr .jac 120) (.add (.rd (.arr .jac 120)) (.mul (.neg (.num 17654894886560744 16)) (.mul (.rd (.var .jTemp)) (.num 39288728140880758 17)))),
  .set (.arr .jac 127) (.add (.rd (.arr .jac 127)) (.mul (.num 11189834407236524 17) (.mul (.rd (.var .jTemp)) (.num 35690674632355568 17)))),
  .set (.arr .jac 128) (.add (.rd (.arr .jac 128)) (.mul (.neg (.num 55949172036182618 18)) (.mul (.rd (.var .jTemp)) (.num 35690674632355568 17)))),
  .set (.arr .jac 140) (.add (.rd (.arr .jac 140)) (.mul (.num 16107626414910008 16) (.mul (.rd (.var .jTemp)) (.num 35690674632355568 17)))),
  .set (.arr .jac 141) (.add (.rd (.arr .jac 141)) (.mul (.neg (.num 16667118135271835 16)) (.mul (.rd (.var .jTemp)) (.num 35690674632355568 17)))),
  .set (.arr .jac 148) (.add (.rd (.arr .jac 148)) (.mul (.num 61074798662333819 18) (.mul (.rd (.var .jTemp)) (.neg (.num 17824490209713328 17))))),
  .set (.arr .jac 149) (.add (.rd (.arr .jac 149)) (.mul (.neg (.num 3053739933116691 17)) (.mul (.rd (.var .jTemp)) (.neg (.num 17824490209713328 17))))),
  .set (.arr .jac 161) (.add (.rd (.arr .jac 161)) (.mul (.num 87916407376190431 17) (.mul (.rd (.var .jTemp)) (.neg (.num 17824490209713328 17))))),
  .set (.arr .jac 162) (.add (.rd (.arr .jac 162)) (.mul (.neg (.num 90970147309307126 17)) (.mul (.rd (.var .jTemp)) (.neg (.num 17824490209713328 17))))),
  .set (.arr .jac 169) (.add (.rd (.arr .jac 169)) (.mul (.num 14371549482137155 17) (.mul (.rd (.var .jTemp)) (.num 49928106040377707 17)))),
  .set (.arr .jac 170) (.add (.rd (.arr .jac 170)) (.mul (.neg (.num 71857747410685777 18)) (.mul (.rd (.var .jTemp)) (.num 49928106040377707 17)))),
  .set (.arr .jac 182) (.add (.rd (.arr .jac 182)) (.mul (.num 20687665396724007 16) (.mul (.rd (.var .jTemp)) (.num 49928106040377707 17)))),
  .set (.arr .jac 183) (.add (.rd (.arr .jac 183)) (.mul (.neg (.num 21406242870830865 16)) (.mul (.rd (.var .jTemp)) (.num 49928106040377707 17)))),
  .set (.arr .jac 190) (.add (.rd (.arr .jac 190)) (.mul (.num 14371549482137155 17) (.mul (.rd (.var .jTemp)) (.num 49928106040377707 17)))),
  .set (.arr .jac 191) (.add (.rd (.arr .jac 191)) (.mul (.neg (.num 71857747410685777 18)) (.mul (.rd (.var .jTemp)) (.num 49928106040377707 17)))),
  .set (.arr .jac 203) (.add (.rd (.arr .jac 203)) (.mul (.num 20687665396724007 16) (.mul (.rd (.var .jTemp)) (.num 49928106040377707 17)))),
  .set (.arr .jac 204) (.add (.rd (.arr .jac 204)) (.mul (.neg (.num 21406242870830865 16)) (.mul (.rd (.var .jTemp)) (.num 49928106040377707 17)))),
  .set (.arr .jac 211) (.add (.rd (.arr .jac 211)) (.mul (.num 13408075387666762 17) (.mul (.rd (.var .jTemp)) (.num 46330052531852528 17)))),
  .set (.arr .jac 212) (.add (.rd (.arr .jac 212)) (.mul (.neg (.num 67040376938333812 18)) (.mul (.rd (.var .jTemp)) (.num 46330052531852528 17)))),
  .set (.arr .jac 224) (.add (.rd (.arr .jac 224)) (.mul (.num 19300756510553501 16) (.mul (.rd (.var .jTemp)) (.num 46330052531852528 17)))),
  .set (.arr .jac 225) (.add (.rd (.arr .jac 225)) (.mul (.neg (.num 19971160279936839 16)) (.mul (.rd (.var .jTemp)) (.num 46330052531852528 17)))),
  .set (.arr .jac 232) (.add (.rd (.arr .jac 232)) (.mul (.num 12565668251597606 17) (.mul (.rd (.var .jTemp)) (.num 42731999023327338 17)))),
  .set (.arr .jac 233) (.add (.rd (.arr .jac 233)) (.mul (.neg (.num 6282834125798803 17)) (.mul (.rd (.var .jTemp)) (.num 42731999023327338 17)))),
  .set (.arr .jac 245) (.add (.rd (.arr .jac 245)) (.mul (.num 18088121993971109 16) (.mul (.rd (.var .jTemp)) (.num 42731999023327338 17)))),
  .set (.arr .jac 246) (.add (.rd (.arr .jac 246)) (.mul (.neg (.num 18716405406550991 16)) (.mul (.rd (.var .jTemp)) (.num 42731999023327338 17)))),
  .set (.arr .jac 253) (.add (.rd (.arr .jac 253)) (.mul (.num 7196898294919031 17) (.mul (.rd (.var .jTemp)) (.num 10994706834011048 20)))),
  .set (.arr .jac 254) (.add (.rd (.arr .jac 254)) (.mul (.neg (.num 35984491474595155 18)) (.mul (.rd (.var .jTemp)) (.num 10994706834011048 20)))),
  .set (.arr .jac 266) (.add (.rd (.arr .jac 266)) (.mul (.num 10359844914745953 16) (.mul (.rd (.var .jTemp)) (.num 10994706834011048 20)))),
  .set (.arr .jac 267) (.add (.rd (.arr .jac 267)) (.mul (.neg (.num 10719689829491903 16)) (.mul (.rd (.var .jTemp)) (.num 10994706834011048 20)))),
  .set (.arr .jac 274) (.add (.rd (.arr .jac 274)) (.mul (.num 45805252466496103 18) (.mul (.rd (.var .jTemp)) (.neg (.num 57102223643760053 17))))),
  .set (.arr .jac 275) (.add (.rd (.arr .jac 275)) (.mul (.neg (.num 22902626233248052 18)) (.mul (.rd (.var .jTemp)) (.neg (.num 57102223643760053 17))))),
  .set (.arr .jac 287) (.add (.rd (.arr .jac 287)) (.mul (.num 6593608696244927 16) (.mul (.rd (.var .jTemp)) (.neg (.num 57102223643760053 17))))),
  .set (.arr .jac 288) (.add (.rd (.arr .jac 288)) (.mul (.neg (.num 68226349585774082 17)) (.mul (.rd (.var .jTemp)) (.neg (.num 57102223643760053 17))))),
  .set (.arr .jac 295) (.add (.rd (.arr .jac 295)) (.mul (.num 69469170186854251 18) (.sub (.mul (.rd (.var .jTemp)) (.neg (.num 35870588016911675 18))) (.mul (.rd (.var .kr)) (.rd (.arr .C 0)))))),
  .set (.arr .jac 296) (.add (.rd (.arr .jac 296)) (.mul (.neg (.num 34734585093427126 18)) (.sub (.mul (.rd (.var .jTemp)) (.neg (.num 35870588016911675 18))) (.mul (.rd (.var .kr)) (.rd (.arr .C 0)))))),
  .set (.arr .jac 308) (.add (.rd (.arr .jac 308)) (.sub (.mul (.rd (.var .jTemp)) (.neg (.num 35870588016911675 18))) (.mul (.rd (.var .kr)) (.rd (.arr .C 0))))),
  .set (.arr .jac 309) (.add (.rd (.arr .jac 309)) (.mul (.neg (.num 10347345850934271 16)) (.sub (.mul (.rd (.var .jTemp)) (.neg (.num 35870588016911675 18))) (.mul (.rd (.var .kr)) (.rd (.arr .C 0)))))),
  .set (.arr .jac 316) (.add (.rd (.arr .jac 316)) (.mul (.num 67137187823466643 18) (.add (.mul (.rd (.var .jTemp)) (.neg (.num 71851123102163683 18))) (.mul (.rd (.var .kf)) (.rd (.arr .C 1)))))),
  .set (.arr .jac 317) (.add (.rd (.arr .jac 317)) (.mul (.neg (.num 33568593911733322 18)) (.add (.mul (.rd (.var .jTemp)) (.neg (.num 71851123102163683 18))) (.mul (.rd (.var .kf)) (.rd (.arr .C 1)))))),
  .set (.arr .jac 329) (.add (.rd (.arr .jac 329)) (.mul (.num 96643140608826661 17) (.add (.mul (.rd (.var .jTemp)) (.neg (.num 71851123102163683 18))) (.mul (.rd (.var .kf)) (.rd (.arr .C 1)))))),
  .set (.arr .jac 330) (.add (.rd (.arr .jac 330)) (.neg (.add (.mul (.rd (.var .jTemp)) (.neg (.num 71851123102163683 18))) (.mul (.rd (.var .kf)) (.rd (.arr .C 1)))))),
  .set (.arr .jac 337) (.add (.rd (.arr .jac 337)) (.mul (.num 64956683299918619 18) (.mul (.rd (.var .jTemp)) (.neg (.num 10783165818741525 17))))),
  .set (.arr .jac 338) (.add (.rd (.arr .jac 338)) (.mul (.neg (.num 32478341649959309 18)) (.mul (.rd (.var .jTemp)) (.neg (.num 10783165818741525 17))))),
  .set (.arr .jac 350) (.add (.rd (.arr .jac 350)) (.mul (.num 93504331670008145 17) (.mul (.rd (.var .jTemp)) (.neg (.num 10783165818741525 17))))),
  .set (.arr .jac 351) (.add (.rd (.arr .jac 351)) (.mul (.neg (.num 96752165835004078 17)) (.mul (.rd (.var .jTemp)) (.neg (.num 10783165818741525 17))))),
  .set (.arr .jac 358) (.add (.rd (.arr .jac 358)) (.mul (.num 71857747410685777 18) (.mul (.rd (.var .jTemp)) (.neg (.num 14378791924458678 19))))),
  .set (.arr .jac 359) (.add (.rd (.arr .jac 359)) (.mul (.neg (.num 35928873705342888 18)) (.mul (.rd (.var .jTemp)) (.neg (.num 14378791924458678 19))))),
  .set (.arr .jac 371) (.add (.rd (.arr .jac 371)) (.mul (.num 10343832698362003 16) (.mul (.rd (.var .jTemp)) (.neg (.num 14378791924458678 19))))),
  .set (.arr .jac 372) (.add (.rd (.arr .jac 372)) (.mul (.neg (.num 10703121435415432 16)) (.mul (.rd (.var .jTemp)) (.neg (.num 14378791924458678 19))))),
  .set (.arr .jac 379) (.add (.rd (.arr .jac 379)) (.mul (.num 6936552231975418 17) (.mul (.rd (.var .jTemp)) (.neg (.num 37418414277697654 18))))),
  .set (.arr .jac 380) (.add (.rd (.arr .jac 380)) (.mul (.neg (.num 3468276115987709 17)) (.mul (.rd (.var .jTemp)) (.neg (.num 37418414277697654 18))))),
  .set (.arr .jac 392) (.add (.rd (.arr .jac 392)) (.mul (.num 99850800194069855 17) (.mul (.rd (.var .jTemp)) (.neg (.num 37418414277697654 18))))),
  .set (.arr .jac 393) (.add (.rd (.arr .jac 393)) (.mul (.neg (.num 10331907631005757 16)) (.mul (.rd (.var .jTemp)) (.neg (.num 37418414277697654 18))))),
  .set (.arr .jac 400) (.add (.rd (.arr .jac 400)) (.mul (.num 67040376938333812 18) (.mul (.rd (.var .jTemp)) (.neg (.num 73398949362949439 18))))),
  .set (.arr .jac 401) (.add (.rd (.arr .jac 401)) (.mul (.neg (.num 33520188469166906 18)) (.mul (.rd (.var .jTemp)) (.neg (.num 73398949362949439 18))))),
  .set (.arr .jac 413) (.add (.rd (.arr .jac 413)) (.mul (.num 96503782552767503 17) (.mul (.rd (.var .jTemp)) (.neg (.num 73398949362949439 18))))),
  .set (.arr .jac 414) (.add (.rd (.arr .jac 414)) (.mul (.neg (.num 99855801399684196 17)) (.mul (.rd (.var .jTemp)) (.neg (.num 73398949362949439 18))))),
  .set (.arr .jac 421) (.add (.rd (.arr .jac 421)) (.mul (.num 5046260138179634 17) (.mul (.rd (.var .jTemp)) (.neg (.num 42602775520927771 17))))),
  .set (.arr .jac 422) (.add (.rd (.arr .jac 422)) (.mul (.neg (.num 2523130069089817 17)) (.mul (.rd (.var .jTemp)) (.neg (.num 42602775520927771 17))))),
  .set (.arr .jac 434) (.add (.rd (.arr .jac 434)) (.mul (.num 72640282367077191 17) (.mul (.rd (.var .jTemp)) (.neg (.num 42602775520927771 17))))),
  .set (.arr .jac 435) (.add (.rd (.arr .jac 435)) (.mul (.neg (.num 75163412436167021 17)) (.mul (.rd (.var .jTemp)) (.neg (.num 42602775520927771 17)))))]

/-- utilities/mechanisms/drm19/lib/src/jacobs/jacob_0.c:3176-3182 -/
def jacobT36 : List CStmt := [
  .set (.var .jTemp) (.mul (.mul (.div (.num 1 0) (.rd (.var .T))) (.sub (.mul (.rd (.arr .fwd 36)) (.neg (.num 1 0))) (.mul (.rd (.arr .rev 36)) (.add (.neg (.num 1 0)) (.mul (.neg (.rd (.var .T))) (.sub (.sub (.add (.rd (.arr .dBdT 9)) (.rd (.arr .dBdT 4))) (.rd (.arr .dBdT 1))) (.rd (.arr .dBdT 15)))))))) (.rd (.var .rhoInv))),
  .set (.arr .jac 2) (.add (.rd (.arr .jac 2)) (.mul (.neg (.rd (.var .jTemp))) (.num 10079400000000001 16))),
  .set (.arr .jac 10) (.add (.rd (.arr .jac 10)) (.mul (.rd (.var .jTemp)) (.num 1503482 5))),
  .set (.arr .jac 5) (.add (.rd (.arr .jac 5)) (.mul (.rd (.var .jTemp)) (.num 17007339999999999 15))),
  .set (.arr .jac 16) (.add (.rd (.arr .jac 16)) (.mul (.neg (.rd (.var .jTemp))) (.num 31034219999999998 15)))]

/-- utilities/mechanisms/drm19/lib/src/jacobs/jacob_0.c:3183-3274 -/
def jacobS36 : List CStmt := [
  .ite (.rd (.var .T)) (.num 1000 0) (.var .Kc) (.sub (.add (.add (.neg (.num 14264257105 9)) (.mul (.num 30594018300000005 16) (.rd (.var .logT)))) (.mul (.rd (.var .T)) (.add (.neg (.num 38034803853526666 19)) (.mul (.rd (.var .T)) (.add (.num 83494749533265352 23) (.mul (.rd (.var .T)) (.add (.neg (.num 28122263185840126 26)) (.mul (.num 9161810204638663 29) (.rd (.var .T)))))))))) (.div (.neg (.num 63921816399999971 13)) (.rd (.var .T)))) (.sub (.add (.add (.num 11366069424000001 15) (.mul (.neg (.num 89219361999999958 17)) (.rd (.var .logT)))) (.mul (.rd (.var .T)) (.add (.neg (.num 41583445457851146 21)) (.mul (.rd (.var .T)) (.add (.neg (.num 34042378026032396 24)) (.mul (.rd (.var .T)) (.add (.num 94412827612626981 28) (.mul (.neg (.num 69240211490986809 32)) (.rd (.var .T)))))))))) (.div (.neg (.num 49672511199999999 13)) (.rd (.var .T)))),
  .set (.var .Kc) (.exp (.rd (.var .Kc))),
  .set (.var .jTemp) (.mul (.mul (.neg (.rd (.var .mwAvg))) (.rd (.var .rhoInv))) (.sub (.mul (.num 2 0) (.rd (.arr .fwd 36))) (.mul (.num 2 0) (.rd (.arr .rev 36))))),
  .set (.var .kf) (.num 32000000000 0),
  .set (.var .kr) (.div (.rd (.var .kf)) (.rd (.var .Kc))),
  .set (.arr .jac 23) (.add (.rd (.arr .jac 23)) (.mul (.neg (.num 5 1)) (.mul (.rd (.var .jTemp)) (.num 92803892982949643 17)))),
  .set (.arr .jac 31) (.add (.rd (.arr .jac 31)) (.mul (.num 74581919558703884 16) (.mul (.rd (.var .jTemp)) (.num 92803892982949643 17)))),
  .set (.arr .jac 26) (.add (.rd (.arr .jac 26)) (.mul (.num 84366827390519266 16) (.mul (.rd (.var .jTemp)) (.num 92803892982949643 17)))),
  .set (.arr .jac 37) (.add (.rd (.arr .jac 37)) (.mul (.neg (.num 15394874694922315 15)) (.mul (.rd (.var .jTemp)) (.num 92803892982949643 17)))),
  .set (.arr .jac 44) (.add (.rd (.arr .jac 44)) (.neg (.add (.mul (.rd (.var .jTemp)) (.num 96401946491474821 17)) (.mul (.rd (.var .kf)) (.rd (.arr .C 15)))))),
  .set (.arr .jac 52) (.add (.rd (.arr .jac 52)) (.mul (.num 14916383911740777 15) (.add (.mul (.rd (.var .jTemp)) (.num 96401946491474821 17)) (.mul (.rd (.var .kf)) (.rd (.arr .C 15)))))),
  .set (.arr .jac 47) (.add (.rd (.arr .jac 47)) (.mul (.num 16873365478103853 15) (.add (.mul (.rd (.var .jTemp)) (.num 96401946491474821 17)) (.mul (.rd (.var .kf)) (.rd (.arr .C 15)))))),
  .set (.arr .jac 58) (.add (.rd (.arr .jac 58)) (.mul (.neg (.num 3078974938984463 14)) (.add (.mul (.rd (.var .jTemp)) (.num 96401946491474821 17)) (.mul (.rd (.var .kf)) (.rd (.arr .C 15)))))),
  .set (.arr .jac 65) (.add (.rd (.arr .jac 65)) (.mul (.neg (.num 62998612447966798 18)) (.mul (.rd (.var .jTemp)) (.num 42886781649405936 17)))),
  .set (.arr .jac 73) (.add (.rd (.arr .jac 73)) (.mul (.num 93971148918084424 17) (.mul (.rd (.var .jTemp)) (.num 42886781649405936 17)))),
  .set (.arr .jac 68) (.add (.rd (.arr .jac 68)) (.mul (.num 10629986124479667 16) (.mul (.rd (.var .jTemp)) (.num 42886781649405936 17)))),
  .set (.arr .jac 79) (.add (.rd (.arr .jac 79)) (.mul (.neg (.num 19397114891808442 16)) (.mul (.rd (.var .jTemp)) (.num 42886781649405936 17)))),
  .set (.arr .jac 86) (.add (.rd (.arr .jac 86)) (.mul (.neg (.num 31499306223983399 18)) (.mul (.rd (.var .jTemp)) (.neg (.num 14226436701188128 17))))),
  .set (.arr .jac 94) (.add (.rd (.arr .jac 94)) (.mul (.num 46985574459042212 17) (.mul (.rd (.var .jTemp)) (.neg (.num 14226436701188128 17))))),
  .set (.arr .jac 89) (.add (.rd (.arr .jac 89)) (.mul (.num 53149930622398334 17) (.mul (.rd (.var .jTemp)) (.neg (.num 14226436701188128 17))))),
  .set (.arr .jac 100) (.add (.rd (.arr .jac 100)) (.mul (.neg (.num 96985574459042212 17)) (.mul (.rd (.var .jTemp)) (.neg (.num 14226436701188128 17))))),
  .set (.arr .jac 107) (.add (.rd (.arr .jac 107)) (.mul (.neg (.num 59264999700129481 18)) (.sub (.mul (.rd (.var .jTemp)) (.num 39288728140880758 17)) (.mul (.rd (.var .kr)) (.rd (.arr .C 9)))))),
  .set (.arr .jac 115) (.add (.rd (.arr .jac 115)) (.mul (.num 88401948805633335 17) (.sub (.mul (.rd (.var .jTemp)) (.num 39288728140880758 17)) (.mul (.rd (.var .kr)) (.rd (.arr .C 9)))))),
  .set (.arr .jac 110) (.add (.rd (.arr .jac 110)) (.sub (.mul (.rd (.var .jTemp)) (.num 39288728140880758 17)) (.mul (.rd (.var .kr)) (.rd (.arr .C 9))))),
  .set (.arr .jac 121) (.add (.rd (.arr .jac 121)) (.mul (.neg (.num 18247544883562039 16)) (.sub (.mul (.rd (.var .jTemp)) (.num 39288728140880758 17)) (.mul (.rd (.var .kr)) (.rd (.arr .C 9)))))),
  .set (.arr .jac 128) (.add (.rd (.arr .jac 128)) (.mul (.neg (.num 55949172036182618 18)) (.mul (.rd (.var .jTemp)) (.num 35690674632355568 17)))),
  .set (.arr .jac 136) (.add (.rd (.arr .jac 136)) (.mul (.num 83455932963573143 17) (.mul (.rd (.var .jTemp)) (.num 35690674632355568 17)))),
  .set (.arr .jac 131) (.add (.rd (.arr .jac 131)) (.mul (.num 94405082796381734 17) (.mul (.rd (.var .jTemp)) (.num 35690674632355568 17)))),
  .set (.arr .jac 142) (.add (.rd (.arr .jac 142)) (.mul (.neg (.num 17226609855633661 16)) (.mul (.rd (.var .jTemp)) (.num 35690674632355568 17)))),
  .set (.arr .jac 149) (.add (.rd (.arr .jac 149)) (.mul (.neg (.num 3053739933116691 17)) (.mul (.rd (.var .jTemp)) (.neg (.num 17824490209713328 17))))),
  .set (.arr .jac 157) (.add (.rd (.arr .jac 157)) (.mul (.num 45550757208982162 17) (.mul (.rd (.var .jTemp)) (.neg (.num 17824490209713328 17))))),
  .set (.arr .jac 152) (.add (.rd (.arr .jac 152)) (.mul (.num 51526869966558342 17) (.mul (.rd (.var .jTemp)) (.neg (.num 17824490209713328 17))))),
  .set (.arr .jac 163) (.add (.rd (.arr .jac 163)) (.mul (.neg (.num 94023887242423809 17)) (.mul (.rd (.var .jTemp)) (.neg (.num 17824490209713328 17))))),
  .set (.arr .jac 170) (.add (.rd (.arr .jac 170)) (.mul (.neg (.num 71857747410685777 18)) (.mul (.rd (.var .jTemp)) (.num 49928106040377707 17)))),
  .set (.arr .jac 178) (.add (.rd (.arr .jac 178)) (.mul (.num 10718577474106858 16) (.mul (.rd (.var .jTemp)) (.num 49928106040377707 17)))),
  .set (.arr .jac 173) (.add (.rd (.arr .jac 173)) (.mul (.num 12124820344937721 16) (.mul (.rd (.var .jTemp)) (.num 49928106040377707 17)))),
  .set (.arr .jac 184) (.add (.rd (.arr .jac 184)) (.mul (.neg (.num 22124820344937719 16)) (.mul (.rd (.var .jTemp)) (.num 49928106040377707 17)))),
  .set (.arr .jac 191) (.add (.rd (.arr .jac 191)) (.mul (.neg (.num 71857747410685777 18)) (.mul (.rd (.var .jTemp)) (.num 49928106040377707 17)))),
  .set (.arr .jac 199) (.add (.rd (.arr .jac 199)) (.mul (.num 10718577474106858 16) (.mul (.rd (.var .jTemp)) (.num 49928106040377707 17)))),
  .set (.arr .jac 194) (.add (.rd (.arr .jac 194)) (.mul (.num 12124820344937721 16) (.mul (.rd (.var .jTemp)) (.num 49928106040377707 17)))),
  .set (.arr .jac 205) (.add (.rd (.arr .jac 205)) (.mul (.neg (.num 22124820344937719 16)) (.mul (.rd (.var .jTemp)) (.num 49928106040377707 17)))),
  .set (.arr .jac 212) (.add (.rd (.arr .jac 212)) (.mul (.neg (.num 67040376938333812 18)) (.sub (.mul (.rd (.var .jTemp)) (.num 46330052531852528 17)) (.mul (.rd (.var .kr)) (.rd (.arr .C 4)))))),
  .set (.arr .jac 220) (.add (.rd (.arr .jac 220)) (.sub (.mul (.rd (.var .jTemp)) (.num 46330052531852528 17)) (.mul (.rd (.var .kr)) (.rd (.arr .C 4))))),
  .set (.arr .jac 215) (.add (.rd (.arr .jac 215)) (.mul (.num 11311967818703517 16) (.sub (.mul (.rd (.var .jTemp)) (.num 46330052531852528 17)) (.mul (.rd (.var .kr)) (.rd (.arr .C 4)))))),
  .set (.arr .jac 226) (.add (.rd (.arr .jac 226)) (.mul (.neg (.num 20641564049320178 16)) (.sub (.mul (.rd (.var .jTemp)) (.num 46330052531852528 17)) (.mul (.rd (.var .kr)) (.rd (.arr .C 4)))))),
  .set (.arr .jac 233) (.add (.rd (.arr .jac 233)) (.mul (.neg (.num 6282834125798803 17)) (.mul (.rd (.var .jTemp)) (.num 42731999023327338 17)))),
  .set (.arr .jac 241) (.add (.rd (.arr .jac 241)) (.mul (.num 93717165874201191 17) (.mul (.rd (.var .jTemp)) (.num 42731999023327338 17)))),
  .set (.arr .jac 236) (.add (.rd (.arr .jac 236)) (.mul (.num 10601255644290632 16) (.mul (.rd (.var .jTemp)) (.num 42731999023327338 17)))),
  .set (.arr .jac 247) (.add (.rd (.arr .jac 247)) (.mul (.neg (.num 19344688819130871 16)) (.mul (.rd (.var .jTemp)) (.num 42731999023327338 17)))),
  .set (.arr .jac 254) (.add (.rd (.arr .jac 254)) (.mul (.neg (.num 35984491474595155 18)) (.mul (.rd (.var .jTemp)) (.num 10994706834011048 20)))),
  .set (.arr .jac 262) (.add (.rd (.arr .jac 262)) (.mul (.num 53675848970382434 17) (.mul (.rd (.var .jTemp)) (.num 10994706834011048 20)))),
  .set (.arr .jac 257) (.add (.rd (.arr .jac 257)) (.mul (.num 60717947619455637 17) (.mul (.rd (.var .jTemp)) (.num 10994706834011048 20)))),
  .set (.arr .jac 268) (.add (.rd (.arr .jac 268)) (.mul (.neg (.num 11079534744237856 16)) (.mul (.rd (.var .jTemp)) (.num 10994706834011048 20)))),
  .set (.arr .jac 275) (.add (.rd (.arr .jac 275)) (.mul (.neg (.num 22902626233248052 18)) (.mul (.rd (.var .jTemp)) (.neg (.num 57102223643760053 17))))),
  .set (.arr .jac 283) (.add (.rd (.arr .jac 283)) (.mul (.num 34162436548223352 17) (.mul (.rd (.var .jTemp)) (.neg (.num 57102223643760053 17))))),
  .set (.arr .jac 278) (.add (.rd (.arr .jac 278)) (.mul (.num 38644438284200339 17) (.mul (.rd (.var .jTemp)) (.neg (.num 57102223643760053 17))))),
  .set (.arr .jac 289) (.add (.rd (.arr .jac 289)) (.mul (.neg (.num 70516612209098883 17)) (.mul (.rd (.var .jTemp)) (.neg (.num 57102223643760053 17))))),
  .set (.arr .jac 296) (.add (.rd (.arr .jac 296)) (.mul (.neg (.num 34734585093427126 18)) (.mul (.rd (.var .jTemp)) (.neg (.num 35870588016911675 18))))),
  .set (.arr .jac 304) (.add (.rd (.arr .jac 304)) (.mul (.num 5181144062685874 16) (.mul (.rd (.var .jTemp)) (.neg (.num 35870588016911675 18))))),
  .set (.arr .jac 299) (.add (.rd (.arr .jac 299)) (.mul (.num 58608934901169396 17) (.mul (.rd (.var .jTemp)) (.neg (.num 35870588016911675 18))))),
  .set (.arr .jac 310) (.add (.rd (.arr .jac 310)) (.mul (.neg (.num 10694691701868542 16)) (.mul (.rd (.var .jTemp)) (.neg (.num 35870588016911675 18))))),
  .set (.arr .jac 317) (.add (.rd (.arr .jac 317)) (.mul (.neg (.num 33568593911733322 18)) (.mul (.rd (.var .jTemp)) (.neg (.num 71851123102163683 18))))),
  .set (.arr .jac 325) (.add (.rd (.arr .jac 325)) (.mul (.num 50072203416473837 17) (.mul (.rd (.var .jTemp)) (.neg (.num 71851123102163683 18))))),
  .set (.arr .jac 320) (.add (.rd (.arr .jac 320)) (.mul (.num 5664151536587283 16) (.mul (.rd (.var .jTemp)) (.neg (.num 71851123102163683 18))))),
  .set (.arr .jac 331) (.add (.rd (.arr .jac 331)) (.mul (.neg (.num 10335685939117332 16)) (.mul (.rd (.var .jTemp)) (.neg (.num 71851123102163683 18))))),
  .set (.arr .jac 338) (.add (.rd (.arr .jac 338)) (.mul (.neg (.num 32478341649959309 18)) (.add (.mul (.rd (.var .jTemp)) (.neg (.num 10783165818741525 17))) (.mul (.rd (.var .kf)) (.rd (.arr .C 1)))))),
  .set (.arr .jac 346) (.add (.rd (.arr .jac 346)) (.mul (.num 4844594128674734 16) (.add (.mul (.rd (.var .jTemp)) (.neg (.num 10783165818741525 17))) (.mul (.rd (.var .kf)) (.rd (.arr .C 1)))))),
  .set (.arr .jac 341) (.add (.rd (.arr .jac 341)) (.mul (.num 54801892878248593 17) (.add (.mul (.rd (.var .jTemp)) (.neg (.num 10783165818741525 17))) (.mul (.rd (.var .kf)) (.rd (.arr .C 1)))))),
  .set (.arr .jac 352) (.add (.rd (.arr .jac 352)) (.neg (.add (.mul (.rd (.var .jTemp)) (.neg (.num 10783165818741525 17))) (.mul (.rd (.var .kf)) (.rd (.arr .C 1)))))),
  .set (.arr .jac 359) (.add (.rd (.arr .jac 359)) (.mul (.neg (.num 35928873705342888 18)) (.mul (.rd (.var .jTemp)) (.neg (.num 14378791924458678 19))))),
  .set (.arr .jac 367) (.add (.rd (.arr .jac 367)) (.mul (.num 53592887370534292 17) (.mul (.rd (.var .jTemp)) (.neg (.num 14378791924458678 19))))),
  .set (.arr .jac 362) (.add (.rd (.arr .jac 362)) (.mul (.num 60624101724688606 17) (.mul (.rd (.var .jTemp)) (.neg (.num 14378791924458678 19))))),
  .set (.arr .jac 373) (.add (.rd (.arr .jac 373)) (.mul (.neg (.num 11062410172468859 16)) (.mul (.rd (.var .jTemp)) (.neg (.num 14378791924458678 19))))),
  .set (.arr .jac 380) (.add (.rd (.arr .jac 380)) (.mul (.neg (.num 3468276115987709 17)) (.mul (.rd (.var .jTemp)) (.neg (.num 37418414277697654 18))))),
  .set (.arr .jac 388) (.add (.rd (.arr .jac 388)) (.mul (.num 51734138057993861 17) (.mul (.rd (.var .jTemp)) (.neg (.num 37418414277697654 18))))),
  .set (.arr .jac 383) (.add (.rd (.arr .jac 383)) (.mul (.num 58521490484039129 17) (.mul (.rd (.var .jTemp)) (.neg (.num 37418414277697654 18))))),
  .set (.arr .jac 394) (.add (.rd (.arr .jac 394)) (.mul (.neg (.num 10678735242604527 16)) (.mul (.rd (.var .jTemp)) (.neg (.num 37418414277697654 18))))),
  .set (.arr .jac 401) (.add (.rd (.arr .jac 401)) (.mul (.neg (.num 33520188469166906 18)) (.mul (.rd (.var .jTemp)) (.neg (.num 73398949362949439 18))))),
  .set (.arr .jac 409) (.add (.rd (.arr .jac 409)) (.mul (.num 5 1) (.mul (.rd (.var .jTemp)) (.neg (.num 73398949362949439 18))))),
  .set (.arr .jac 404) (.add (.rd (.arr .jac 404)) (.mul (.num 56559839093517583 17) (.mul (.rd (.var .jTemp)) (.neg (.num 73398949362949439 18))))),
  .set (.arr .jac 415) (.add (.rd (.arr .jac 415)) (.mul (.neg (.num 10320782024660089 16)) (.mul (.rd (.var .jTemp)) (.neg (.num 73398949362949439 18))))),
  .set (.arr .jac 422) (.add (.rd (.arr .jac 422)) (.mul (.neg (.num 2523130069089817 17)) (.mul (.rd (.var .jTemp)) (.neg (.num 42602775520927771 17))))),
  .set (.arr .jac 430) (.add (.rd (.arr .jac 430)) (.mul (.num 37635976769800739 17) (.mul (.rd (.var .jTemp)) (.neg (.num 42602775520927771 17))))),
  .set (.arr .jac 425) (.add (.rd (.arr .jac 425)) (.mul (.num 42573695804545908 17) (.mul (.rd (.var .jTemp)) (.neg (.num 42602775520927771 17))))),
  .set (.arr .jac 436) (.add (.rd (.arr .jac 436)) (.mul (.neg (.num 77686542505256828 17)) (.mul (.rd (.var .jTemp)) (.neg (.num 42602775520927771 17)))))]

/-- utilities/mechanisms/drm19/lib/src/jacobs/jacob_0.c:3275-3286 -/
def jacobT37 : List CStmt := [
  .set (.var .concTemp) (.add (.rd (.var .concTemp)) (.mul (.neg (.num 3 1)) (.rd (.arr .C 19)))),
  .set (.var .Pr) (.mul (.rd (.var .concTemp)) (.exp (.sub (.sub (.num 6227515802649706 14) (.mul (.num 8074 3) (.rd (.var .logT)))) (.div (.num 25915807590246877 13) (.rd (.var .T)))))),
  .set (.var .Fcent) (.add (.add (.mul (.num 24700000000000055 18) (.exp (.div (.rd (.var .T)) (.neg (.num 20999999999999997 14))))) (.mul (.num 97529999999999994 17) (.exp (.div (.rd (.var .T)) (.neg (.num 98399999999999989 14)))))) (.exp (.div (.neg (.num 4374 0)) (.rd (.var .T))))),
  .set (.var .A) (.sub (.sub (.log10 (.fmax (.rd (.var .Pr)) (.num 1 300))) (.mul (.num 67 2) (.log10 (.fmax (.rd (.var .Fcent)) (.num 1 300))))) (.num 4 1)),
  .set (.var .B) (.sub (.sub (.num 806 3) (.mul (.num 11762 4) (.log10 (.fmax (.rd (.var .Fcent)) (.num 1 300))))) (.mul (.num 14 2) (.log10 (.fmax (.rd (.var .Pr)) (.num 1 300))))),
  .set (.var .lnFAB) (.div (.mul (.mul (.num 2 0) (.log (.fmax (.rd (.var .Fcent)) (.num 1 300)))) (.rd (.var .A))) (.mul (.mul (.mul (.mul (.rd (.var .B)) (.rd (.var .B))) (.rd (.var .B))) (.add (.num 1 0) (.div (.mul (.rd (.var .A)) (.rd (.var .A))) (.mul (.rd (.var .B)) (.rd (.var .B)))))) (.add (.num 1 0) (.div (.mul (.rd (.var .A)) (.rd (.var .A))) (.mul (.rd (.var .B)) (.rd (.var .B))))))),
  .set (.var .jTemp) (.mul (.add (.mul (.mul (.rd (.arr .presMod 9)) (.sub (.add (.div (.sub (.add (.neg (.num 8074 3)) (.div (.num 25915807590246877 13) (.rd (.var .T)))) (.num 1 0)) (.mul (.rd (.var .T)) (.add (.num 1 0) (.rd (.var .Pr))))) (.mul (.sub (.div (.num 1 0) (.mul (.rd (.var .Fcent)) (.add (.num 1 0) (.div (.mul (.rd (.var .A)) (.rd (.var .A))) (.mul (.rd (.var .B)) (.rd (.var .B))))))) (.div (.mul (.rd (.var .lnFAB)) (.add (.mul (.neg (.num 2909773028751787 16)) (.rd (.var .B))) (.mul (.num 51081716961460466 17) (.rd (.var .A))))) (.rd (.var .Fcent)))) (.add (.sub (.mul (.neg (.num 11761904761904789 20)) (.exp (.div (.rd (.var .T)) (.neg (.num 20999999999999997 14))))) (.mul (.num 991158536585366 18) (.exp (.div (.rd (.var .T)) (.neg (.num 98399999999999989 14)))))) (.mul (.div (.num 4374 0) (.mul (.rd (.var .T)) (.rd (.var .T)))) (.exp (.div (.neg (.num 4374 0)) (.rd (.var .T)))))))) (.div (.mul (.mul (.rd (.var .lnFAB)) (.add (.mul (.num 43429448190325176 17) (.rd (.var .B))) (.mul (.num 60801227466455256 18) (.rd (.var .A))))) (.sub (.add (.neg (.num 80739999999999998 16)) (.div (.num 25915807590246877 13) (.rd (.var .T)))) (.num 1 0))) (.rd (.var .T))))) (.sub (.rd (.arr .fwd 37)) (.rd (.arr .rev 37)))) (.mul (.div (.rd (.arr .presMod 9)) (.rd (.var .T))) (.sub (.add (.mul (.sub (.rd (.arr .fwd 37)) (.rd (.arr .rev 37))) (.add (.num 45400000000000001 17) (.div (.num 91585960804367608 14) (.rd (.var .T))))) (.mul (.rd (.arr .fwd 37)) (.neg (.num 1 0)))) (.mul (.rd (.arr .rev 37)) (.mul (.neg (.rd (.var .T))) (.sub (.sub (.rd (.arr .dBdT 17)) (.rd (.arr .dBdT 1))) (.rd (.arr .dBdT 16)))))))) (.rd (.var .rhoInv))),
  .set (.arr .jac 17) (.add (.rd (.arr .jac 17)) (.mul (.neg (.rd (.var .jTemp))) (.num 28053759999999997 15))),
  .set (.arr .jac 2) (.add (.rd (.arr .jac 2)) (.mul (.neg (.rd (.var .jTemp))) (.num 10079400000000001 16))),
  .set (.arr .jac 18) (.add (.rd (.arr .jac 18)) (.mul (.rd (.var .jTemp)) (.num 29061699999999998 15)))]

/-- utilities/mechanisms/drm19/lib/src/jacobs/jacob_0.c:3287-3360 -/
def jacobS37 : List CStmt := [
  .ite (.rd (.var .T)) (.num 1000 0) (.var .Kc) (.sub (.add (.add (.num 32092969330000005 16) (.mul (.neg (.num 11527358000000003 16)) (.rd (.var .logT)))) (.mul (.rd (.var .T)) (.add (.num 16919667746473337 19) (.mul (.rd (.var .T)) (.add (.neg (.num 12307914163340125 22)) (.mul (.rd (.var .T)) (.add (.num 77051789147493195 26) (.mul (.neg (.num 19687684495361349 29)) (.rd (.var .T)))))))))) (.div (.neg (.num 17721809329999996 12)) (.rd (.var .T)))) (.sub (.add (.add (.num 61852026639999975 16) (.mul (.neg (.num 15814547499999998 16)) (.rd (.var .logT)))) (.mul (.rd (.var .T)) (.add (.num 13759285615421489 19) (.mul (.rd (.var .T)) (.add (.neg (.num 21188125769269901 23)) (.mul (.rd (.var .T)) (.add (.num 23328972061262663 27) (.mul (.neg (.num 11967757749098676 31)) (.rd (.var .T)))))))))) (.div (.neg (.num 17556026039999997 12)) (.rd (.var .T)))),
  .set (.var .Kc) (.mul (.num 82057360967184814 18) (.exp (.rd (.var .Kc)))),
  .set (.var .presModTemp) (.mul (.sub (.div (.num 1 0) (.add (.num 1 0) (.rd (.var .Pr)))) (.div (.mul (.mul (.mul (.log (.fmax (.rd (.var .Fcent)) (.num 1 300))) (.num 2 0)) (.rd (.var .A))) (.add (.mul (.rd (.var .B)) (.num 4342944819032518 16)) (.mul (.rd (.var .A)) (.num 6080122746645526 17)))) (.mul (.mul (.mul (.mul (.rd (.var .B)) (.rd (.var .B))) (.rd (.var .B))) (.add (.num 1 0) (.div (.mul (.rd (.var .A)) (.rd (.var .A))) (.mul (.rd (.var .B)) (.rd (.var .B)))))) (.add (.num 1 0) (.div (.mul (.rd (.var .A)) (.rd (.var .A))) (.mul (.rd (.var .B)) (.rd (.var .B)))))))) (.sub (.rd (.arr .fwd 37)) (.rd (.arr .rev 37)))),
  .set (.var .jTemp) (.mul (.mul (.mul (.neg (.rd (.var .mwAvg))) (.rd (.var .rhoInv))) (.rd (.arr .presMod 9))) (.add (.sub (.mul (.num 2 0) (.rd (.arr .fwd 37))) (.rd (.arr .rev 37))) (.rd (.var .presModTemp)))),
  .set (.var .presModTemp) (.mul (.rd (.var .presModTemp)) (.div (.mul (.exp (.sub (.sub (.num 6227515802649706 14) (.mul (.num 8074 3) (.rd (.var .logT)))) (.div (.num 25915807590246877 13) (.rd (.var .T))))) (.pow (.rd (.var .Fcent)) (.div (.num 1 0) (.add (.num 1 0) (.div (.mul (.rd (.var .A)) (.rd (.var .A))) (.mul (.rd (.var .B)) (.rd (.var .B)))))))) (.add (.num 1 0) (.rd (.var .Pr))))),
  .set (.var .kf) (.exp (.sub (.add (.num 2080022687808254 14) (.mul (.num 454 3) (.rd (.var .logT)))) (.div (.num 91585960804367608 14) (.rd (.var .T))))),
  .set (.var .kr) (.div (.rd (.var .kf)) (.rd (.var .Kc))),
  .set (.arr .jac 38) (.add (.rd (.arr .jac 38)) (.mul (.neg (.num 13916383911740775 15)) (.add (.mul (.rd (.var .jTemp)) (.num 92803892982949643 17)) (.mul (.num 19280389298294964 16) (.rd (.var .presModTemp)))))),
  .set (.arr .jac 23) (.add (.rd (.arr .jac 23)) (.mul (.neg (.num 5 1)) (.add (.mul (.rd (.var .jTemp)) (.num 92803892982949643 17)) (.mul (.num 19280389298294964 16) (.rd (.var .presModTemp)))))),
  .set (.arr .jac 39) (.add (.rd (.arr .jac 39)) (.mul (.num 14416383911740777 15) (.add (.mul (.rd (.var .jTemp)) (.num 92803892982949643 17)) (.mul (.num 19280389298294964 16) (.rd (.var .presModTemp)))))),
  .set (.arr .jac 59) (.add (.rd (.arr .jac 59)) (.mul (.neg (.num 2783276782348155 14)) (.add (.add (.mul (.rd (.var .jTemp)) (.num 96401946491474821 17)) (.mul (.num 96401946491474821 17) (.rd (.var .presModTemp)))) (.mul (.rd (.arr .presMod 9)) (.mul (.rd (.var .kf)) (.rd (.arr .C 16))))))),
  .set (.arr .jac 44) (.add (.rd (.arr .jac 44)) (.neg (.add (.add (.mul (.rd (.var .jTemp)) (.num 96401946491474821 17)) (.mul (.num 96401946491474821 17) (.rd (.var .presModTemp)))) (.mul (.rd (.arr .presMod 9)) (.mul (.rd (.var .kf)) (.rd (.arr .C 16))))))),
  .set (.arr .jac 60) (.add (.rd (.arr .jac 60)) (.mul (.num 28832767823481554 15) (.add (.add (.mul (.rd (.var .jTemp)) (.num 96401946491474821 17)) (.mul (.num 96401946491474821 17) (.rd (.var .presModTemp)))) (.mul (.rd (.arr .presMod 9)) (.mul (.rd (.var .kf)) (.rd (.arr .C 16))))))),
  .set (.arr .jac 80) (.add (.rd (.arr .jac 80)) (.mul (.neg (.num 17534257534657549 16)) (.add (.mul (.rd (.var .jTemp)) (.num 42886781649405936 17)) (.mul (.num 42886781649405936 17) (.rd (.var .presModTemp)))))),
  .set (.arr .jac 65) (.add (.rd (.arr .jac 65)) (.mul (.neg (.num 62998612447966798 18)) (.add (.mul (.rd (.var .jTemp)) (.num 42886781649405936 17)) (.mul (.num 42886781649405936 17) (.rd (.var .presModTemp)))))),
  .set (.arr .jac 81) (.add (.rd (.arr .jac 81)) (.mul (.num 18164243659137218 16) (.add (.mul (.rd (.var .jTemp)) (.num 42886781649405936 17)) (.mul (.num 42886781649405936 17) (.rd (.var .presModTemp)))))),
  .set (.arr .jac 101) (.add (.rd (.arr .jac 101)) (.mul (.neg (.num 87671287673287746 17)) (.add (.mul (.rd (.var .jTemp)) (.neg (.num 14226436701188128 17))) (.mul (.neg (.num 14226436701188128 17)) (.rd (.var .presModTemp)))))),
  .set (.arr .jac 86) (.add (.rd (.arr .jac 86)) (.mul (.neg (.num 31499306223983399 18)) (.add (.mul (.rd (.var .jTemp)) (.neg (.num 14226436701188128 17))) (.mul (.neg (.num 14226436701188128 17)) (.rd (.var .presModTemp)))))),
  .set (.arr .jac 102) (.add (.rd (.arr .jac 102)) (.mul (.num 9082121829568609 16) (.add (.mul (.rd (.var .jTemp)) (.neg (.num 14226436701188128 17))) (.mul (.neg (.num 14226436701188128 17)) (.rd (.var .presModTemp)))))),
  .set (.arr .jac 122) (.add (.rd (.arr .jac 122)) (.mul (.neg (.num 16495089767124076 16)) (.add (.mul (.rd (.var .jTemp)) (.num 39288728140880758 17)) (.mul (.num 39288728140880758 17) (.rd (.var .presModTemp)))))),
  .set (.arr .jac 107) (.add (.rd (.arr .jac 107)) (.mul (.neg (.num 59264999700129481 18)) (.add (.mul (.rd (.var .jTemp)) (.num 39288728140880758 17)) (.mul (.num 39288728140880758 17) (.rd (.var .presModTemp)))))),
  .set (.arr .jac 123) (.add (.rd (.arr .jac 123)) (.mul (.num 17087739764125371 16) (.add (.mul (.rd (.var .jTemp)) (.num 39288728140880758 17)) (.mul (.num 39288728140880758 17) (.rd (.var .presModTemp)))))),
  .set (.arr .jac 143) (.add (.rd (.arr .jac 143)) (.mul (.neg (.num 15572203151990975 16)) (.add (.mul (.rd (.var .jTemp)) (.num 35690674632355568 17)) (.mul (.num 53569067463235553 16) (.rd (.var .presModTemp)))))),
  .set (.arr .jac 128) (.add (.rd (.arr .jac 128)) (.mul (.neg (.num 55949172036182618 18)) (.add (.mul (.rd (.var .jTemp)) (.num 35690674632355568 17)) (.mul (.num 53569067463235553 16) (.rd (.var .presModTemp)))))),
  .set (.arr .jac 144) (.add (.rd (.arr .jac 144)) (.mul (.num 16131694872352802 16) (.add (.mul (.rd (.var .jTemp)) (.num 35690674632355568 17)) (.mul (.num 53569067463235553 16) (.rd (.var .presModTemp)))))),
  .set (.arr .jac 164) (.add (.rd (.arr .jac 164)) (.mul (.neg (.num 84994034551730935 17)) (.add (.mul (.rd (.var .jTemp)) (.neg (.num 17824490209713328 17))) (.mul (.neg (.num 17824490209713328 17)) (.rd (.var .presModTemp)))))),
  .set (.arr .jac 149) (.add (.rd (.arr .jac 149)) (.mul (.neg (.num 3053739933116691 17)) (.add (.mul (.rd (.var .jTemp)) (.neg (.num 17824490209713328 17))) (.mul (.neg (.num 17824490209713328 17)) (.rd (.var .presModTemp)))))),
  .set (.arr .jac 165) (.add (.rd (.arr .jac 165)) (.mul (.num 8804777448484763 16) (.add (.mul (.rd (.var .jTemp)) (.neg (.num 17824490209713328 17))) (.mul (.neg (.num 17824490209713328 17)) (.rd (.var .presModTemp)))))),
  .set (.arr .jac 185) (.add (.rd (.arr .jac 185)) (.mul (.neg (.num 2 0)) (.add (.mul (.rd (.var .jTemp)) (.num 49928106040377707 17)) (.mul (.num 49928106040377707 17) (.rd (.var .presModTemp)))))),
  .set (.arr .jac 170) (.add (.rd (.arr .jac 170)) (.mul (.neg (.num 71857747410685777 18)) (.add (.mul (.rd (.var .jTemp)) (.num 49928106040377707 17)) (.mul (.num 49928106040377707 17) (.rd (.var .presModTemp)))))),
  .set (.arr .jac 186) (.add (.rd (.arr .jac 186)) (.mul (.num 20718577474106858 16) (.add (.mul (.rd (.var .jTemp)) (.num 49928106040377707 17)) (.mul (.num 49928106040377707 17) (.rd (.var .presModTemp)))))),
  .set (.arr .jac 206) (.add (.rd (.arr .jac 206)) (.mul (.neg (.num 2 0)) (.add (.mul (.rd (.var .jTemp)) (.num 49928106040377707 17)) (.mul (.num 49928106040377707 17) (.rd (.var .presModTemp)))))),
  .set (.arr .jac 191) (.add (.rd (.arr .jac 191)) (.mul (.neg (.num 71857747410685777 18)) (.add (.mul (.rd (.var .jTemp)) (.num 49928106040377707 17)) (.mul (.num 49928106040377707 17) (.rd (.var .presModTemp)))))),
  .set (.arr .jac 207) (.add (.rd (.arr .jac 207)) (.mul (.num 20718577474106858 16) (.add (.mul (.rd (.var .jTemp)) (.num 49928106040377707 17)) (.mul (.num 49928106040377707 17) (.rd (.var .presModTemp)))))),
  .set (.arr .jac 227) (.add (.rd (.arr .jac 227)) (.mul (.neg (.num 18659192461233323 16)) (.add (.mul (.rd (.var .jTemp)) (.num 46330052531852528 17)) (.mul (.num 46330052531852528 17) (.rd (.var .presModTemp)))))),
  .set (.arr .jac 212) (.add (.rd (.arr .jac 212)) (.mul (.neg (.num 67040376938333812 18)) (.add (.mul (.rd (.var .jTemp)) (.num 46330052531852528 17)) (.mul (.num 46330052531852528 17) (.rd (.var .presModTemp)))))),
  .set (.arr .jac 228) (.add (.rd (.arr .jac 228)) (.mul (.num 19329596230616661 16) (.add (.mul (.rd (.var .jTemp)) (.num 46330052531852528 17)) (.mul (.num 46330052531852528 17) (.rd (.var .presModTemp)))))),
  .set (.arr .jac 248) (.add (.rd (.arr .jac 248)) (.mul (.neg (.num 17486866349680477 16)) (.add (.mul (.rd (.var .jTemp)) (.num 42731999023327338 17)) (.mul (.num 14273199902332734 16) (.rd (.var .presModTemp)))))),
  .set (.arr .jac 233) (.add (.rd (.arr .jac 233)) (.mul (.neg (.num 6282834125798803 17)) (.add (.mul (.rd (.var .jTemp)) (.num 42731999023327338 17)) (.mul (.num 14273199902332734 16) (.rd (.var .presModTemp)))))),
  .set (.arr .jac 249) (.add (.rd (.arr .jac 249)) (.mul (.num 18115149762260356 16) (.add (.mul (.rd (.var .jTemp)) (.num 42731999023327338 17)) (.mul (.num 14273199902332734 16) (.rd (.var .presModTemp)))))),
  .set (.arr .jac 269) (.add (.rd (.arr .jac 269)) (.mul (.neg (.num 10015479964584584 16)) (.add (.mul (.rd (.var .jTemp)) (.num 10994706834011048 20)) (.mul (.num 50010994706834011 17) (.rd (.var .presModTemp)))))),
  .set (.arr .jac 254) (.add (.rd (.arr .jac 254)) (.mul (.neg (.num 35984491474595155 18)) (.add (.mul (.rd (.var .jTemp)) (.num 10994706834011048 20)) (.mul (.num 50010994706834011 17) (.rd (.var .presModTemp)))))),
  .set (.arr .jac 270) (.add (.rd (.arr .jac 270)) (.mul (.num 10375324879330534 16) (.add (.mul (.rd (.var .jTemp)) (.num 10994706834011048 20)) (.mul (.num 50010994706834011 17) (.rd (.var .presModTemp)))))),
  .set (.arr .jac 290) (.add (.rd (.arr .jac 290)) (.mul (.neg (.num 63744347849797089 17)) (.add (.mul (.rd (.var .jTemp)) (.neg (.num 57102223643760053 17))) (.mul (.num 42897776356239947 17) (.rd (.var .presModTemp)))))),
  .set (.arr .jac 275) (.add (.rd (.arr .jac 275)) (.mul (.neg (.num 22902626233248052 18)) (.add (.mul (.rd (.var .jTemp)) (.neg (.num 57102223643760053 17))) (.mul (.num 42897776356239947 17) (.rd (.var .presModTemp)))))),
  .set (.arr .jac 291) (.add (.rd (.arr .jac 291)) (.mul (.num 66034610473121891 17) (.add (.mul (.rd (.var .jTemp)) (.neg (.num 57102223643760053 17))) (.mul (.num 42897776356239947 17) (.rd (.var .presModTemp)))))),
  .set (.arr .jac 311) (.add (.rd (.arr .jac 311)) (.mul (.neg (.num 96675964235032041 17)) (.add (.mul (.rd (.var .jTemp)) (.neg (.num 35870588016911675 18))) (.mul (.neg (.num 35870588016911675 18)) (.rd (.var .presModTemp)))))),
  .set (.arr .jac 296) (.add (.rd (.arr .jac 296)) (.mul (.neg (.num 34734585093427126 18)) (.add (.mul (.rd (.var .jTemp)) (.neg (.num 35870588016911675 18))) (.mul (.neg (.num 35870588016911675 18)) (.rd (.var .presModTemp)))))),
  .set (.arr .jac 312) (.add (.rd (.arr .jac 312)) (.mul (.num 10014942274437477 16) (.add (.mul (.rd (.var .jTemp)) (.neg (.num 35870588016911675 18))) (.mul (.neg (.num 35870588016911675 18)) (.rd (.var .presModTemp)))))),
  .set (.arr .jac 332) (.add (.rd (.arr .jac 332)) (.mul (.neg (.num 93430688050600996 17)) (.add (.mul (.rd (.var .jTemp)) (.neg (.num 71851123102163683 18))) (.mul (.neg (.num 71851123102163683 18)) (.rd (.var .presModTemp)))))),
  .set (.arr .jac 317) (.add (.rd (.arr .jac 317)) (.mul (.neg (.num 33568593911733322 18)) (.add (.mul (.rd (.var .jTemp)) (.neg (.num 71851123102163683 18))) (.mul (.neg (.num 71851123102163683 18)) (.rd (.var .presModTemp)))))),
  .set (.arr .jac 333) (.add (.rd (.arr .jac 333)) (.mul (.num 96787547441774335 17) (.add (.mul (.rd (.var .jTemp)) (.neg (.num 71851123102163683 18))) (.mul (.neg (.num 71851123102163683 18)) (.rd (.var .presModTemp)))))),
  .set (.arr .jac 353) (.add (.rd (.arr .jac 353)) (.mul (.neg (.num 90396214243502815 17)) (.add (.mul (.rd (.var .jTemp)) (.neg (.num 10783165818741525 17))) (.mul (.neg (.num 10783165818741525 17)) (.rd (.var .presModTemp)))))),
  .set (.arr .jac 338) (.add (.rd (.arr .jac 338)) (.mul (.neg (.num 32478341649959309 18)) (.add (.mul (.rd (.var .jTemp)) (.neg (.num 10783165818741525 17))) (.mul (.neg (.num 10783165818741525 17)) (.rd (.var .presModTemp)))))),
  .set (.arr .jac 354) (.add (.rd (.arr .jac 354)) (.mul (.num 93644048408498748 17) (.add (.mul (.rd (.var .jTemp)) (.neg (.num 10783165818741525 17))) (.mul (.neg (.num 10783165818741525 17)) (.rd (.var .presModTemp)))))),
  .set (.arr .jac 374) (.add (.rd (.arr .jac 374)) (.neg (.add (.add (.mul (.rd (.var .jTemp)) (.neg (.num 14378791924458678 19))) (.mul (.neg (.num 14378791924458678 19)) (.rd (.var .presModTemp)))) (.mul (.rd (.arr .presMod 9)) (.mul (.rd (.var .kf)) (.rd (.arr .C 1))))))),
  .set (.arr .jac 359) (.add (.rd (.arr .jac 359)) (.mul (.neg (.num 35928873705342888 18)) (.add (.add (.mul (.rd (.var .jTemp)) (.neg (.num 14378791924458678 19))) (.mul (.neg (.num 14378791924458678 19)) (.rd (.var .presModTemp)))) (.mul (.rd (.arr .presMod 9)) (.mul (.rd (.var .kf)) (.rd (.arr .C 1))))))),
  .set (.arr .jac 375) (.add (.rd (.arr .jac 375)) (.mul (.num 10359288737053429 16) (.add (.add (.mul (.rd (.var .jTemp)) (.neg (.num 14378791924458678 19))) (.mul (.neg (.num 14378791924458678 19)) (.rd (.var .presModTemp)))) (.mul (.rd (.arr .presMod 9)) (.mul (.rd (.var .kf)) (.rd (.arr .C 1))))))),
  .set (.arr .jac 395) (.add (.rd (.arr .jac 395)) (.mul (.neg (.num 96531723884012288 17)) (.add (.add (.mul (.rd (.var .jTemp)) (.neg (.num 37418414277697654 18))) (.mul (.neg (.num 37418414277697654 18)) (.rd (.var .presModTemp)))) (.mul (.rd (.arr .presMod 9)) (.neg (.rd (.var .kr))))))),
  .set (.arr .jac 380) (.add (.rd (.arr .jac 380)) (.mul (.neg (.num 3468276115987709 17)) (.add (.add (.mul (.rd (.var .jTemp)) (.neg (.num 37418414277697654 18))) (.mul (.neg (.num 37418414277697654 18)) (.rd (.var .presModTemp)))) (.mul (.rd (.arr .presMod 9)) (.neg (.rd (.var .kr))))))),
  .set (.arr .jac 396) (.add (.rd (.arr .jac 396)) (.add (.add (.mul (.rd (.var .jTemp)) (.neg (.num 37418414277697654 18))) (.mul (.neg (.num 37418414277697654 18)) (.rd (.var .presModTemp)))) (.mul (.rd (.arr .presMod 9)) (.neg (.rd (.var .kr)))))),
  .set (.arr .jac 416) (.add (.rd (.arr .jac 416)) (.mul (.neg (.num 93295962306166613 17)) (.add (.mul (.rd (.var .jTemp)) (.neg (.num 73398949362949439 18))) (.mul (.num 19266010506370506 16) (.rd (.var .presModTemp)))))),
  .set (.arr .jac 401) (.add (.rd (.arr .jac 401)) (.mul (.neg (.num 33520188469166906 18)) (.add (.mul (.rd (.var .jTemp)) (.neg (.num 73398949362949439 18))) (.mul (.num 19266010506370506 16) (.rd (.var .presModTemp)))))),
  .set (.arr .jac 417) (.add (.rd (.arr .jac 417)) (.mul (.num 96647981153083307 17) (.add (.mul (.rd (.var .jTemp)) (.neg (.num 73398949362949439 18))) (.mul (.num 19266010506370506 16) (.rd (.var .presModTemp)))))),
  .set (.arr .jac 437) (.add (.rd (.arr .jac 437)) (.mul (.neg (.num 7022569340142184 16)) (.add (.mul (.rd (.var .jTemp)) (.neg (.num 42602775520927771 17))) (.mul (.neg (.num 72602775520927776 17)) (.rd (.var .presModTemp)))))),
  .set (.arr .jac 422) (.add (.rd (.arr .jac 422)) (.mul (.neg (.num 2523130069089817 17)) (.add (.mul (.rd (.var .jTemp)) (.neg (.num 42602775520927771 17))) (.mul (.neg (.num 72602775520927776 17)) (.rd (.var .presModTemp)))))),
  .set (.arr .jac 438) (.add (.rd (.arr .jac 438)) (.mul (.num 72748823470511659 17) (.add (.mul (.rd (.var .jTemp)) (.neg (.num 42602775520927771 17))) (.mul (.neg (.num 72602775520927776 17)) (.rd (.var .presModTemp))))))]

/-- utilities/mechanisms/drm19/lib/src/jacobs/jacob_0.c:3361-3371 -/
def jacobT38 : List CStmt := [
  .set (.var .Pr) (.mul (.rd (.var .concTemp)) (.exp (.sub (.sub (.num 47391841735846086 15) (.mul (.num 609 2) (.rd (.var .logT)))) (.div (.num 25689358786060257 13) (.rd (.var .T)))))),
  .set (.var .Fcent) (.add (.add (.mul (.num 15780000000000005 17) (.exp (.div (.rd (.var .T)) (.neg (.num 125 0))))) (.mul (.num 84219999999999995 17) (.exp (.div (.rd (.var .T)) (.neg (.num 2219 0)))))) (.exp (.div (.neg (.num 6882 0)) (.rd (.var .T))))),
  .set (.var .A) (.sub (.sub (.log10 (.fmax (.rd (.var .Pr)) (.num 1 300))) (.mul (.num 67 2) (.log10 (.fmax (.rd (.var .Fcent)) (.num 1 300))))) (.num 4 1)),
  .set (.var .B) (.sub (.sub (.num 806 3) (.mul (.num 11762 4) (.log10 (.fmax (.rd (.var .Fcent)) (.num 1 300))))) (.mul (.num 14 2) (.log10 (.fmax (.rd (.var .Pr)) (.num 1 300))))),
  .set (.var .lnFAB) (.div (.mul (.mul (.num 2 0) (.log (.fmax (.rd (.var .Fcent)) (.num 1 300)))) (.rd (.var .A))) (.mul (.mul (.mul (.mul (.rd (.var .B)) (.rd (.var .B))) (.rd (.var .B))) (.add (.num 1 0) (.div (.mul (.rd (.var .A)) (.rd (.var .A))) (.mul (.rd (.var .B)) (.rd (.var .B)))))) (.add (.num 1 0) (.div (.mul (.rd (.var .A)) (.rd (.var .A))) (.mul (.rd (.var .B)) (.rd (.var .B))))))),
  .set (.var .jTemp) (.mul (.add (.mul (.mul (.rd (.arr .presMod 10)) (.sub (.add (.div (.sub (.add (.neg (.num 609 2)) (.div (.num 25689358786060257 13) (.rd (.var .T)))) (.num 1 0)) (.mul (.rd (.var .T)) (.add (.num 1 0) (.rd (.var .Pr))))) (.mul (.sub (.div (.num 1 0) (.mul (.rd (.var .Fcent)) (.add (.num 1 0) (.div (.mul (.rd (.var .A)) (.rd (.var .A))) (.mul (.rd (.var .B)) (.rd (.var .B))))))) (.div (.mul (.rd (.var .lnFAB)) (.add (.mul (.neg (.num 2909773028751787 16)) (.rd (.var .B))) (.mul (.num 51081716961460466 17) (.rd (.var .A))))) (.rd (.var .Fcent)))) (.add (.sub (.mul (.neg (.num 12624000000000003 19)) (.exp (.div (.rd (.var .T)) (.neg (.num 125 0))))) (.mul (.num 37954033348355115 20) (.exp (.div (.rd (.var .T)) (.neg (.num 2219 0)))))) (.mul (.div (.num 6882 0) (.mul (.rd (.var .T)) (.rd (.var .T)))) (.exp (.div (.neg (.num 6882 0)) (.rd (.var .T)))))))) (.div (.mul (.mul (.rd (.var .lnFAB)) (.add (.mul (.num 43429448190325176 17) (.rd (.var .B))) (.mul (.num 60801227466455256 18) (.rd (.var .A))))) (.sub (.add (.neg (.num 60899999999999999 16)) (.div (.num 25689358786060257 13) (.rd (.var .T)))) (.num 1 0))) (.rd (.var .T))))) (.sub (.rd (.arr .fwd 38)) (.rd (.arr .rev 38)))) (.mul (.div (.rd (.arr .presMod 10)) (.rd (.var .T))) (.sub (.add (.mul (.sub (.rd (.arr .fwd 38)) (.rd (.arr .rev 38))) (.add (.neg (.num 98999999999999999 17)) (.div (.num 79508691247747697 14) (.rd (.var .T))))) (.mul (.rd (.arr .fwd 38)) (.neg (.num 1 0)))) (.mul (.rd (.arr .rev 38)) (.mul (.neg (.rd (.var .T))) (.sub (.sub (.rd (.arr .dBdT 18)) (.rd (.arr .dBdT 1))) (.rd (.arr .dBdT 17)))))))) (.rd (.var .rhoInv))),
  .set (.arr .jac 2) (.add (.rd (.arr .jac 2)) (.mul (.neg (.rd (.var .jTemp))) (.num 10079400000000001 16))),
  .set (.arr .jac 19) (.add (.rd (.arr .jac 19)) (.mul (.rd (.var .jTemp)) (.num 3006964 5))),
  .set (.arr .jac 18) (.add (.rd (.arr .jac 18)) (.mul (.neg (.rd (.var .jTemp))) (.num 29061699999999998 15)))]

/-- utilities/mechanisms/drm19/lib/src/jacobs/jacob_0.c:3372-3445 -/
def jacobS38 : List CStmt := [
  .ite (.rd (.var .T)) (.num 1000 0) (.var .Kc) (.sub (.add (.add (.num 92133753299999954 17) (.mul (.neg (.num 15150407599999998 16)) (.rd (.var .logT)))) (.mul (.rd (.var .T)) (.add (.neg (.num 65747689035266588 20)) (.mul (.rd (.var .T)) (.add (.num 17049246836659875 22) (.mul (.rd (.var .T)) (.add (.neg (.num 91116399185840205 26)) (.mul (.num 1908838350463865 28) (.rd (.var .T)))))))))) (.div (.neg (.num 49837491899999994 12)) (.rd (.var .T)))) (.sub (.add (.add (.num 54826342439999998 16) (.mul (.neg (.num 23827749300000001 16)) (.rd (.var .logT)))) (.mul (.rd (.var .T)) (.add (.num 21439977615421487 19) (.mul (.rd (.var .T)) (.add (.neg (.num 34059000602603242 23)) (.mul (.rd (.var .T)) (.add (.num 38495260394596016 27) (.mul (.neg (.num 20180657249098672 31)) (.rd (.var .T)))))))))) (.div (.neg (.num 49757573099999994 12)) (.rd (.var .T)))),
  .set (.var .Kc) (.mul (.num 82057360967184814 18) (.exp (.rd (.var .Kc)))),
  .set (.var .presModTemp) (.mul (.sub (.div (.num 1 0) (.add (.num 1 0) (.rd (.var .Pr)))) (.div (.mul (.mul (.mul (.log (.fmax (.rd (.var .Fcent)) (.num 1 300))) (.num 2 0)) (.rd (.var .A))) (.add (.mul (.rd (.var .B)) (.num 4342944819032518 16)) (.mul (.rd (.var .A)) (.num 6080122746645526 17)))) (.mul (.mul (.mul (.mul (.rd (.var .B)) (.rd (.var .B))) (.rd (.var .B))) (.add (.num 1 0) (.div (.mul (.rd (.var .A)) (.rd (.var .A))) (.mul (.rd (.var .B)) (.rd (.var .B)))))) (.add (.num 1 0) (.div (.mul (.rd (.var .A)) (.rd (.var .A))) (.mul (.rd (.var .B)) (.rd (.var .B)))))))) (.sub (.rd (.arr .fwd 38)) (.rd (.arr .rev 38)))),
  .set (.var .jTemp) (.mul (.mul (.mul (.neg (.rd (.var .mwAvg))) (.rd (.var .rhoInv))) (.rd (.arr .presMod 10))) (.add (.sub (.mul (.num 2 0) (.rd (.arr .fwd 38))) (.rd (.arr .rev 38))) (.rd (.var .presModTemp)))),
  .set (.var .presModTemp) (.mul (.rd (.var .presModTemp)) (.div (.mul (.exp (.sub (.sub (.num 47391841735846086 15) (.mul (.num 609 2) (.rd (.var .logT)))) (.div (.num 25689358786060257 13) (.rd (.var .T))))) (.pow (.rd (.var .Fcent)) (.div (.num 1 0) (.add (.num 1 0) (.div (.mul (.rd (.var .A)) (.rd (.var .A))) (.mul (.rd (.var .B)) (.rd (.var .B)))))))) (.add (.num 1 0) (.rd (.var .Pr))))),
  .set (.var .kf) (.exp (.sub (.sub (.num 33886771157681913 15) (.mul (.num 99 2) (.rd (.var .logT)))) (.div (.num 79508691247747697 14) (.rd (.var .T))))),
  .set (.var .kr) (.div (.rd (.var .kf)) (.rd (.var .Kc))),
  .set (.arr .jac 23) (.add (.rd (.arr .jac 23)) (.mul (.neg (.num 5 1)) (.add (.mul (.rd (.var .jTemp)) (.num 92803892982949643 17)) (.mul (.num 19280389298294964 16) (.rd (.var .presModTemp)))))),
  .set (.arr .jac 40) (.add (.rd (.arr .jac 40)) (.mul (.num 14916383911740777 15) (.add (.mul (.rd (.var .jTemp)) (.num 92803892982949643 17)) (.mul (.num 19280389298294964 16) (.rd (.var .presModTemp)))))),
  .set (.arr .jac 39) (.add (.rd (.arr .jac 39)) (.mul (.neg (.num 14416383911740777 15)) (.add (.mul (.rd (.var .jTemp)) (.num 92803892982949643 17)) (.mul (.num 19280389298294964 16) (.rd (.var .presModTemp)))))),
  .set (.arr .jac 44) (.add (.rd (.arr .jac 44)) (.neg (.add (.add (.mul (.rd (.var .jTemp)) (.num 96401946491474821 17)) (.mul (.num 96401946491474821 17) (.rd (.var .presModTemp)))) (.mul (.rd (.arr .presMod 10)) (.mul (.rd (.var .kf)) (.rd (.arr .C 17))))))),
  .set (.arr .jac 61) (.add (.rd (.arr .jac 61)) (.mul (.num 29832767823481554 15) (.add (.add (.mul (.rd (.var .jTemp)) (.num 96401946491474821 17)) (.mul (.num 96401946491474821 17) (.rd (.var .presModTemp)))) (.mul (.rd (.arr .presMod 10)) (.mul (.rd (.var .kf)) (.rd (.arr .C 17))))))),
  .set (.arr .jac 60) (.add (.rd (.arr .jac 60)) (.mul (.neg (.num 28832767823481554 15)) (.add (.add (.mul (.rd (.var .jTemp)) (.num 96401946491474821 17)) (.mul (.num 96401946491474821 17) (.rd (.var .presModTemp)))) (.mul (.rd (.arr .presMod 10)) (.mul (.rd (.var .kf)) (.rd (.arr .C 17))))))),
  .set (.arr .jac 65) (.add (.rd (.arr .jac 65)) (.mul (.neg (.num 62998612447966798 18)) (.add (.mul (.rd (.var .jTemp)) (.num 42886781649405936 17)) (.mul (.num 42886781649405936 17) (.rd (.var .presModTemp)))))),
  .set (.arr .jac 82) (.add (.rd (.arr .jac 82)) (.mul (.num 18794229783616885 16) (.add (.mul (.rd (.var .jTemp)) (.num 42886781649405936 17)) (.mul (.num 42886781649405936 17) (.rd (.var .presModTemp)))))),
  .set (.arr .jac 81) (.add (.rd (.arr .jac 81)) (.mul (.neg (.num 18164243659137218 16)) (.add (.mul (.rd (.var .jTemp)) (.num 42886781649405936 17)) (.mul (.num 42886781649405936 17) (.rd (.var .presModTemp)))))),
  .set (.arr .jac 86) (.add (.rd (.arr .jac 86)) (.mul (.neg (.num 31499306223983399 18)) (.add (.mul (.rd (.var .jTemp)) (.neg (.num 14226436701188128 17))) (.mul (.neg (.num 14226436701188128 17)) (.rd (.var .presModTemp)))))),
  .set (.arr .jac 103) (.add (.rd (.arr .jac 103)) (.mul (.num 93971148918084424 17) (.add (.mul (.rd (.var .jTemp)) (.neg (.num 14226436701188128 17))) (.mul (.neg (.num 14226436701188128 17)) (.rd (.var .presModTemp)))))),
  .set (.arr .jac 102) (.add (.rd (.arr .jac 102)) (.mul (.neg (.num 9082121829568609 16)) (.add (.mul (.rd (.var .jTemp)) (.neg (.num 14226436701188128 17))) (.mul (.neg (.num 14226436701188128 17)) (.rd (.var .presModTemp)))))),
  .set (.arr .jac 107) (.add (.rd (.arr .jac 107)) (.mul (.neg (.num 59264999700129481 18)) (.add (.mul (.rd (.var .jTemp)) (.num 39288728140880758 17)) (.mul (.num 39288728140880758 17) (.rd (.var .presModTemp)))))),
  .set (.arr .jac 124) (.add (.rd (.arr .jac 124)) (.mul (.num 17680389761126667 16) (.add (.mul (.rd (.var .jTemp)) (.num 39288728140880758 17)) (.mul (.num 39288728140880758 17) (.rd (.var .presModTemp)))))),
  .set (.arr .jac 123) (.add (.rd (.arr .jac 123)) (.mul (.neg (.num 17087739764125371 16)) (.add (.mul (.rd (.var .jTemp)) (.num 39288728140880758 17)) (.mul (.num 39288728140880758 17) (.rd (.var .presModTemp)))))),
  .set (.arr .jac 128) (.add (.rd (.arr .jac 128)) (.mul (.neg (.num 55949172036182618 18)) (.add (.mul (.rd (.var .jTemp)) (.num 35690674632355568 17)) (.mul (.num 53569067463235553 16) (.rd (.var .presModTemp)))))),
  .set (.arr .jac 145) (.add (.rd (.arr .jac 145)) (.mul (.num 16691186592714629 16) (.add (.mul (.rd (.var .jTemp)) (.num 35690674632355568 17)) (.mul (.num 53569067463235553 16) (.rd (.var .presModTemp)))))),
  .set (.arr .jac 144) (.add (.rd (.arr .jac 144)) (.mul (.neg (.num 16131694872352802 16)) (.add (.mul (.rd (.var .jTemp)) (.num 35690674632355568 17)) (.mul (.num 53569067463235553 16) (.rd (.var .presModTemp)))))),
  .set (.arr .jac 149) (.add (.rd (.arr .jac 149)) (.mul (.neg (.num 3053739933116691 17)) (.add (.mul (.rd (.var .jTemp)) (.neg (.num 17824490209713328 17))) (.mul (.neg (.num 17824490209713328 17)) (.rd (.var .presModTemp)))))),
  .set (.arr .jac 166) (.add (.rd (.arr .jac 166)) (.mul (.num 91101514417964324 17) (.add (.mul (.rd (.var .jTemp)) (.neg (.num 17824490209713328 17))) (.mul (.neg (.num 17824490209713328 17)) (.rd (.var .presModTemp)))))),
  .set (.arr .jac 165) (.add (.rd (.arr .jac 165)) (.mul (.neg (.num 8804777448484763 16)) (.add (.mul (.rd (.var .jTemp)) (.neg (.num 17824490209713328 17))) (.mul (.neg (.num 17824490209713328 17)) (.rd (.var .presModTemp)))))),
  .set (.arr .jac 170) (.add (.rd (.arr .jac 170)) (.mul (.neg (.num 71857747410685777 18)) (.add (.mul (.rd (.var .jTemp)) (.num 49928106040377707 17)) (.mul (.num 49928106040377707 17) (.rd (.var .presModTemp)))))),
  .set (.arr .jac 187) (.add (.rd (.arr .jac 187)) (.mul (.num 21437154948213717 16) (.add (.mul (.rd (.var .jTemp)) (.num 49928106040377707 17)) (.mul (.num 49928106040377707 17) (.rd (.var .presModTemp)))))),
  .set (.arr .jac 186) (.add (.rd (.arr .jac 186)) (.mul (.neg (.num 20718577474106858 16)) (.add (.mul (.rd (.var .jTemp)) (.num 49928106040377707 17)) (.mul (.num 49928106040377707 17) (.rd (.var .presModTemp)))))),
  .set (.arr .jac 191) (.add (.rd (.arr .jac 191)) (.mul (.neg (.num 71857747410685777 18)) (.add (.mul (.rd (.var .jTemp)) (.num 49928106040377707 17)) (.mul (.num 49928106040377707 17) (.rd (.var .presModTemp)))))),
  .set (.arr .jac 208) (.add (.rd (.arr .jac 208)) (.mul (.num 21437154948213717 16) (.add (.mul (.rd (.var .jTemp)) (.num 49928106040377707 17)) (.mul (.num 49928106040377707 17) (.rd (.var .presModTemp)))))),
  .set (.arr .jac 207) (.add (.rd (.arr .jac 207)) (.mul (.neg (.num 20718577474106858 16)) (.add (.mul (.rd (.var .jTemp)) (.num 49928106040377707 17)) (.mul (.num 49928106040377707 17) (.rd (.var .presModTemp)))))),
  .set (.arr .jac 212) (.add (.rd (.arr .jac 212)) (.mul (.neg (.num 67040376938333812 18)) (.add (.mul (.rd (.var .jTemp)) (.num 46330052531852528 17)) (.mul (.num 46330052531852528 17) (.rd (.var .presModTemp)))))),
  .set (.arr .jac 229) (.add (.rd (.arr .jac 229)) (.mul (.num 2 0) (.add (.mul (.rd (.var .jTemp)) (.num 46330052531852528 17)) (.mul (.num 46330052531852528 17) (.rd (.var .presModTemp)))))),
  .set (.arr .jac 228) (.add (.rd (.arr .jac 228)) (.mul (.neg (.num 19329596230616661 16)) (.add (.mul (.rd (.var .jTemp)) (.num 46330052531852528 17)) (.mul (.num 46330052531852528 17) (.rd (.var .presModTemp)))))),
  .set (.arr .jac 233) (.add (.rd (.arr .jac 233)) (.mul (.neg (.num 6282834125798803 17)) (.add (.mul (.rd (.var .jTemp)) (.num 42731999023327338 17)) (.mul (.num 14273199902332734 16) (.rd (.var .presModTemp)))))),
  .set (.arr .jac 250) (.add (.rd (.arr .jac 250)) (.mul (.num 18743433174840238 16) (.add (.mul (.rd (.var .jTemp)) (.num 42731999023327338 17)) (.mul (.num 14273199902332734 16) (.rd (.var .presModTemp)))))),
  .set (.arr .jac 249) (.add (.rd (.arr .jac 249)) (.mul (.neg (.num 18115149762260356 16)) (.add (.mul (.rd (.var .jTemp)) (.num 42731999023327338 17)) (.mul (.num 14273199902332734 16) (.rd (.var .presModTemp)))))),
  .set (.arr .jac 254) (.add (.rd (.arr .jac 254)) (.mul (.neg (.num 35984491474595155 18)) (.add (.mul (.rd (.var .jTemp)) (.num 10994706834011048 20)) (.mul (.num 50010994706834011 17) (.rd (.var .presModTemp)))))),
  .set (.arr .jac 271) (.add (.rd (.arr .jac 271)) (.mul (.num 10735169794076487 16) (.add (.mul (.rd (.var .jTemp)) (.num 10994706834011048 20)) (.mul (.num 50010994706834011 17) (.rd (.var .presModTemp)))))),
  .set (.arr .jac 270) (.add (.rd (.arr .jac 270)) (.mul (.neg (.num 10375324879330534 16)) (.add (.mul (.rd (.var .jTemp)) (.num 10994706834011048 20)) (.mul (.num 50010994706834011 17) (.rd (.var .presModTemp)))))),
  .set (.arr .jac 275) (.add (.rd (.arr .jac 275)) (.mul (.neg (.num 22902626233248052 18)) (.add (.mul (.rd (.var .jTemp)) (.neg (.num 57102223643760053 17))) (.mul (.num 42897776356239947 17) (.rd (.var .presModTemp)))))),
  .set (.arr .jac 292) (.add (.rd (.arr .jac 292)) (.mul (.num 68324873096446703 17) (.add (.mul (.rd (.var .jTemp)) (.neg (.num 57102223643760053 17))) (.mul (.num 42897776356239947 17) (.rd (.var .presModTemp)))))),
  .set (.arr .jac 291) (.add (.rd (.arr .jac 291)) (.mul (.neg (.num 66034610473121891 17)) (.add (.mul (.rd (.var .jTemp)) (.neg (.num 57102223643760053 17))) (.mul (.num 42897776356239947 17) (.rd (.var .presModTemp)))))),
  .set (.arr .jac 296) (.add (.rd (.arr .jac 296)) (.mul (.neg (.num 34734585093427126 18)) (.add (.mul (.rd (.var .jTemp)) (.neg (.num 35870588016911675 18))) (.mul (.neg (.num 35870588016911675 18)) (.rd (.var .presModTemp)))))),
  .set (.arr .jac 313) (.add (.rd (.arr .jac 313)) (.mul (.num 10362288125371748 16) (.add (.mul (.rd (.var .jTemp)) (.neg (.num 35870588016911675 18))) (.mul (.neg (.num 35870588016911675 18)) (.rd (.var .presModTemp)))))),
  .set (.arr .jac 312) (.add (.rd (.arr .jac 312)) (.mul (.neg (.num 10014942274437477 16)) (.add (.mul (.rd (.var .jTemp)) (.neg (.num 35870588016911675 18))) (.mul (.neg (.num 35870588016911675 18)) (.rd (.var .presModTemp)))))),
  .set (.arr .jac 317) (.add (.rd (.arr .jac 317)) (.mul (.neg (.num 33568593911733322 18)) (.add (.mul (.rd (.var .jTemp)) (.neg (.num 71851123102163683 18))) (.mul (.neg (.num 71851123102163683 18)) (.rd (.var .presModTemp)))))),
  .set (.arr .jac 334) (.add (.rd (.arr .jac 334)) (.mul (.num 10014440683294767 16) (.add (.mul (.rd (.var .jTemp)) (.neg (.num 71851123102163683 18))) (.mul (.neg (.num 71851123102163683 18)) (.rd (.var .presModTemp)))))),
  .set (.arr .jac 333) (.add (.rd (.arr .jac 333)) (.mul (.neg (.num 96787547441774335 17)) (.add (.mul (.rd (.var .jTemp)) (.neg (.num 71851123102163683 18))) (.mul (.neg (.num 71851123102163683 18)) (.rd (.var .presModTemp)))))),
  .set (.arr .jac 338) (.add (.rd (.arr .jac 338)) (.mul (.neg (.num 32478341649959309 18)) (.add (.mul (.rd (.var .jTemp)) (.neg (.num 10783165818741525 17))) (.mul (.neg (.num 10783165818741525 17)) (.rd (.var .presModTemp)))))),
  .set (.arr .jac 355) (.add (.rd (.arr .jac 355)) (.mul (.num 96891882573494681 17) (.add (.mul (.rd (.var .jTemp)) (.neg (.num 10783165818741525 17))) (.mul (.neg (.num 10783165818741525 17)) (.rd (.var .presModTemp)))))),
  .set (.arr .jac 354) (.add (.rd (.arr .jac 354)) (.mul (.neg (.num 93644048408498748 17)) (.add (.mul (.rd (.var .jTemp)) (.neg (.num 10783165818741525 17))) (.mul (.neg (.num 10783165818741525 17)) (.rd (.var .presModTemp)))))),
  .set (.arr .jac 359) (.add (.rd (.arr .jac 359)) (.mul (.neg (.num 35928873705342888 18)) (.add (.mul (.rd (.var .jTemp)) (.neg (.num 14378791924458678 19))) (.mul (.neg (.num 14378791924458678 19)) (.rd (.var .presModTemp)))))),
  .set (.arr .jac 376) (.add (.rd (.arr .jac 376)) (.mul (.num 10718577474106858 16) (.add (.mul (.rd (.var .jTemp)) (.neg (.num 14378791924458678 19))) (.mul (.neg (.num 14378791924458678 19)) (.rd (.var .presModTemp)))))),
  .set (.arr .jac 375) (.add (.rd (.arr .jac 375)) (.mul (.neg (.num 10359288737053429 16)) (.add (.mul (.rd (.var .jTemp)) (.neg (.num 14378791924458678 19))) (.mul (.neg (.num 14378791924458678 19)) (.rd (.var .presModTemp)))))),
  .set (.arr .jac 380) (.add (.rd (.arr .jac 380)) (.mul (.neg (.num 3468276115987709 17)) (.add (.add (.mul (.rd (.var .jTemp)) (.neg (.num 37418414277697654 18))) (.mul (.neg (.num 37418414277697654 18)) (.rd (.var .presModTemp)))) (.mul (.rd (.arr .presMod 10)) (.mul (.rd (.var .kf)) (.rd (.arr .C 1))))))),
  .set (.arr .jac 397) (.add (.rd (.arr .jac 397)) (.mul (.num 10346827611598772 16) (.add (.add (.mul (.rd (.var .jTemp)) (.neg (.num 37418414277697654 18))) (.mul (.neg (.num 37418414277697654 18)) (.rd (.var .presModTemp)))) (.mul (.rd (.arr .presMod 10)) (.mul (.rd (.var .kf)) (.rd (.arr .C 1))))))),
  .set (.arr .jac 396) (.add (.rd (.arr .jac 396)) (.neg (.add (.add (.mul (.rd (.var .jTemp)) (.neg (.num 37418414277697654 18))) (.mul (.neg (.num 37418414277697654 18)) (.rd (.var .presModTemp)))) (.mul (.rd (.arr .presMod 10)) (.mul (.rd (.var .kf)) (.rd (.arr .C 1))))))),
  .set (.arr .jac 401) (.add (.rd (.arr .jac 401)) (.mul (.neg (.num 33520188469166906 18)) (.add (.add (.mul (.rd (.var .jTemp)) (.neg (.num 73398949362949439 18))) (.mul (.num 19266010506370506 16) (.rd (.var .presModTemp)))) (.mul (.rd (.arr .presMod 10)) (.neg (.rd (.var .kr))))))),
  .set (.arr .jac 418) (.add (.rd (.arr .jac 418)) (.add (.add (.mul (.rd (.var .jTemp)) (.neg (.num 73398949362949439 18))) (.mul (.num 19266010506370506 16) (.rd (.var .presModTemp)))) (.mul (.rd (.arr .presMod 10)) (.neg (.rd (.var .kr)))))),
  .set (.arr .jac 417) (.add (.rd (.arr .jac 417)) (.mul (.neg (.num 96647981153083307 17)) (.add (.add (.mul (.rd (.var .jTemp)) (.neg (.num 73398949362949439 18))) (.mul (.num 19266010506370506 16) (.rd (.var .presModTemp)))) (.mul (.rd (.arr .presMod 10)) (.neg (.rd (.var .kr))))))),
  .set (.arr .jac 422) (.add (.rd (.arr .jac 422)) (.mul (.neg (.num 2523130069089817 17)) (.add (.mul (.rd (.var .jTemp)) (.neg (.num 42602775520927771 17))) (.mul (.neg (.num 72602775520927776 17)) (.rd (.var .presModTemp)))))),
  .set (.arr .jac 439) (.add (.rd (.arr .jac 439)) (.mul (.num 75271953539601477 17) (.add (.mul (.rd (.var .jTemp)) (.neg (.num 42602775520927771 17))) (.mul (.neg (.num 72602775520927776 17)) (.rd (.var .presModTemp)))))),
  .set (.arr .jac 438) (.add (.rd (.arr .jac 438)) (.mul (.neg (.num 72748823470511659 17)) (.add (.mul (.rd (.var .jTemp)) (.neg (.num 42602775520927771 17))) (.mul (.neg (.num 72602775520927776 17)) (.rd (.var .presModTemp))))))]

/-- utilities/mechanisms/drm19/lib/src/jacobs/jacob_0.c:3446-3452 -/
def jacobT39 : List CStmt := [
  .set (.var .jTemp) (.mul (.mul (.div (.num 1 0) (.rd (.var .T))) (.sub (.add (.mul (.sub (.rd (.arr .fwd 39)) (.rd (.arr .rev 39))) (.add (.num 18999999999999999 16) (.div (.num 37892433233894944 13) (.rd (.var .T))))) (.mul (.rd (.arr .fwd 39)) (.neg (.num 1 0)))) (.mul (.rd (.arr .rev 39)) (.add (.neg (.num 1 0)) (.mul (.neg (.rd (.var .T))) (.sub (.sub (.add (.rd (.arr .dBdT 0)) (.rd (.arr .dBdT 17))) (.rd (.arr .dBdT 18))) (.rd (.arr .dBdT 1)))))))) (.rd (.var .rhoInv))),
  .set (.arr .jac 1) (.add (.rd (.arr .jac 1)) (.mul (.rd (.var .jTemp)) (.num 20158800000000001 16))),
  .set (.arr .jac 2) (.add (.rd (.arr .jac 2)) (.mul (.neg (.rd (.var .jTemp))) (.num 10079400000000001 16))),
  .set (.arr .jac 19) (.add (.rd (.arr .jac 19)) (.mul (.neg (.rd (.var .jTemp))) (.num 3006964 5))),
  .set (.arr .jac 18) (.add (.rd (.arr .jac 18)) (.mul (.rd (.var .jTemp)) (.num 29061699999999998 15)))]

/-- utilities/mechanisms/drm19/lib/src/jacobs/jacob_0.c:3453-3544 -/
def jacobS39 : List CStmt := [
  .ite (.rd (.var .T)) (.num 1000 0) (.var .Kc) (.sub (.add (.add (.num 33107072910000004 16) (.mul (.neg (.num 14062812000000013 17)) (.rd (.var .logT)))) (.mul (.rd (.var .T)) (.add (.num 46477372646473326 19) (.mul (.rd (.var .T)) (.add (.neg (.num 49512831830006802 22)) (.mul (.rd (.var .T)) (.add (.num 2590931441474933 24) (.mul (.neg (.num 55968971545361342 29)) (.rd (.var .T)))))))))) (.div (.neg (.num 20277630730000001 13)) (.rd (.var .T)))) (.sub (.add (.add (.neg (.num 61315709060000003 16)) (.mul (.num 172005411 8) (.rd (.var .logT)))) (.mul (.rd (.var .T)) (.add (.neg (.num 21686989750078507 19)) (.mul (.rd (.var .T)) (.add (.num 42383279697396743 23) (.mul (.rd (.var .T)) (.add (.neg (.num 53459125772070629 27)) (.mul (.num 30193425550901323 31) (.rd (.var .T)))))))))) (.div (.neg (.num 21399056219999966 13)) (.rd (.var .T)))),
  .set (.var .Kc) (.exp (.rd (.var .Kc))),
  .set (.var .jTemp) (.mul (.mul (.neg (.rd (.var .mwAvg))) (.rd (.var .rhoInv))) (.sub (.mul (.num 2 0) (.rd (.arr .fwd 39))) (.mul (.num 2 0) (.rd (.arr .rev 39))))),
  .set (.var .kf) (.exp (.sub (.add (.num 11652687407345388 15) (.mul (.num 19 1) (.rd (.var .logT)))) (.div (.num 37892433233894944 13) (.rd (.var .T))))),
  .set (.var .kr) (.div (.rd (.var .kf)) (.rd (.var .Kc))),
  .set (.arr .jac 22) (.add (.rd (.arr .jac 22)) (.sub (.mul (.rd (.var .jTemp)) (.num 92803892982949643 17)) (.mul (.rd (.var .kr)) (.rd (.arr .C 17))))),
  .set (.arr .jac 23) (.add (.rd (.arr .jac 23)) (.mul (.neg (.num 5 1)) (.sub (.mul (.rd (.var .jTemp)) (.num 92803892982949643 17)) (.mul (.rd (.var .kr)) (.rd (.arr .C 17)))))),
  .set (.arr .jac 40) (.add (.rd (.arr .jac 40)) (.mul (.neg (.num 14916383911740777 15)) (.sub (.mul (.rd (.var .jTemp)) (.num 92803892982949643 17)) (.mul (.rd (.var .kr)) (.rd (.arr .C 17)))))),
  .set (.arr .jac 39) (.add (.rd (.arr .jac 39)) (.mul (.num 14416383911740777 15) (.sub (.mul (.rd (.var .jTemp)) (.num 92803892982949643 17)) (.mul (.rd (.var .kr)) (.rd (.arr .C 17)))))),
  .set (.arr .jac 43) (.add (.rd (.arr .jac 43)) (.mul (.num 2 0) (.add (.mul (.rd (.var .jTemp)) (.num 96401946491474821 17)) (.mul (.rd (.var .kf)) (.rd (.arr .C 18)))))),
  .set (.arr .jac 44) (.add (.rd (.arr .jac 44)) (.neg (.add (.mul (.rd (.var .jTemp)) (.num 96401946491474821 17)) (.mul (.rd (.var .kf)) (.rd (.arr .C 18)))))),
  .set (.arr .jac 61) (.add (.rd (.arr .jac 61)) (.mul (.neg (.num 29832767823481554 15)) (.add (.mul (.rd (.var .jTemp)) (.num 96401946491474821 17)) (.mul (.rd (.var .kf)) (.rd (.arr .C 18)))))),
  .set (.arr .jac 60) (.add (.rd (.arr .jac 60)) (.mul (.num 28832767823481554 15) (.add (.mul (.rd (.var .jTemp)) (.num 96401946491474821 17)) (.mul (.rd (.var .kf)) (.rd (.arr .C 18)))))),
  .set (.arr .jac 64) (.add (.rd (.arr .jac 64)) (.mul (.num 1259972248959336 16) (.mul (.rd (.var .jTemp)) (.num 42886781649405936 17)))),
  .set (.arr .jac 65) (.add (.rd (.arr .jac 65)) (.mul (.neg (.num 62998612447966798 18)) (.mul (.rd (.var .jTemp)) (.num 42886781649405936 17)))),
  .set (.arr .jac 82) (.add (.rd (.arr .jac 82)) (.mul (.neg (.num 18794229783616885 16)) (.mul (.rd (.var .jTemp)) (.num 42886781649405936 17)))),
  .set (.arr .jac 81) (.add (.rd (.arr .jac 81)) (.mul (.num 18164243659137218 16) (.mul (.rd (.var .jTemp)) (.num 42886781649405936 17)))),
  .set (.arr .jac 85) (.add (.rd (.arr .jac 85)) (.mul (.num 62998612447966798 18) (.mul (.rd (.var .jTemp)) (.neg (.num 14226436701188128 17))))),
  .set (.arr .jac 86) (.add (.rd (.arr .jac 86)) (.mul (.neg (.num 31499306223983399 18)) (.mul (.rd (.var .jTemp)) (.neg (.num 14226436701188128 17))))),
  .set (.arr .jac 103) (.add (.rd (.arr .jac 103)) (.mul (.neg (.num 93971148918084424 17)) (.mul (.rd (.var .jTemp)) (.neg (.num 14226436701188128 17))))),
  .set (.arr .jac 102) (.add (.rd (.arr .jac 102)) (.mul (.num 9082121829568609 16) (.mul (.rd (.var .jTemp)) (.neg (.num 14226436701188128 17))))),
  .set (.arr .jac 106) (.add (.rd (.arr .jac 106)) (.mul (.num 11852999940025896 17) (.mul (.rd (.var .jTemp)) (.num 39288728140880758 17)))),
  .set (.arr .jac 107) (.add (.rd (.arr .jac 107)) (.mul (.neg (.num 59264999700129481 18)) (.mul (.rd (.var .jTemp)) (.num 39288728140880758 17)))),
  .set (.arr .jac 124) (.add (.rd (.arr .jac 124)) (.mul (.neg (.num 17680389761126667 16)) (.mul (.rd (.var .jTemp)) (.num 39288728140880758 17)))),
  .set (.arr .jac 123) (.add (.rd (.arr .jac 123)) (.mul (.num 17087739764125371 16) (.mul (.rd (.var .jTemp)) (.num 39288728140880758 17)))),
  .set (.arr .jac 127) (.add (.rd (.arr .jac 127)) (.mul (.num 11189834407236524 17) (.mul (.rd (.var .jTemp)) (.num 35690674632355568 17)))),
  .set (.arr .jac 128) (.add (.rd (.arr .jac 128)) (.mul (.neg (.num 55949172036182618 18)) (.mul (.rd (.var .jTemp)) (.num 35690674632355568 17)))),
  .set (.arr .jac 145) (.add (.rd (.arr .jac 145)) (.mul (.neg (.num 16691186592714629 16)) (.mul (.rd (.var .jTemp)) (.num 35690674632355568 17)))),
  .set (.arr .jac 144) (.add (.rd (.arr .jac 144)) (.mul (.num 16131694872352802 16) (.mul (.rd (.var .jTemp)) (.num 35690674632355568 17)))),
  .set (.arr .jac 148) (.add (.rd (.arr .jac 148)) (.mul (.num 61074798662333819 18) (.mul (.rd (.var .jTemp)) (.neg (.num 17824490209713328 17))))),
  .set (.arr .jac 149) (.add (.rd (.arr .jac 149)) (.mul (.neg (.num 3053739933116691 17)) (.mul (.rd (.var .jTemp)) (.neg (.num 17824490209713328 17))))),
  .set (.arr .jac 166) (.add (.rd (.arr .jac 166)) (.mul (.neg (.num 91101514417964324 17)) (.mul (.rd (.var .jTemp)) (.neg (.num 17824490209713328 17))))),
  .set (.arr .jac 165) (.add (.rd (.arr .jac 165)) (.mul (.num 8804777448484763 16) (.mul (.rd (.var .jTemp)) (.neg (.num 17824490209713328 17))))),
  .set (.arr .jac 169) (.add (.rd (.arr .jac 169)) (.mul (.num 14371549482137155 17) (.mul (.rd (.var .jTemp)) (.num 49928106040377707 17)))),
  .set (.arr .jac 170) (.add (.rd (.arr .jac 170)) (.mul (.neg (.num 71857747410685777 18)) (.mul (.rd (.var .jTemp)) (.num 49928106040377707 17)))),
  .set (.arr .jac 187) (.add (.rd (.arr .jac 187)) (.mul (.neg (.num 21437154948213717 16)) (.mul (.rd (.var .jTemp)) (.num 49928106040377707 17)))),
  .set (.arr .jac 186) (.add (.rd (.arr .jac 186)) (.mul (.num 20718577474106858 16) (.mul (.rd (.var .jTemp)) (.num 49928106040377707 17)))),
  .set (.arr .jac 190) (.add (.rd (.arr .jac 190)) (.mul (.num 14371549482137155 17) (.mul (.rd (.var .jTemp)) (.num 49928106040377707 17)))),
  .set (.arr .jac 191) (.add (.rd (.arr .jac 191)) (.mul (.neg (.num 71857747410685777 18)) (.mul (.rd (.var .jTemp)) (.num 49928106040377707 17)))),
  .set (.arr .jac 208) (.add (.rd (.arr .jac 208)) (.mul (.neg (.num 21437154948213717 16)) (.mul (.rd (.var .jTemp)) (.num 49928106040377707 17)))),
  .set (.arr .jac 207) (.add (.rd (.arr .jac 207)) (.mul (.num 20718577474106858 16) (.mul (.rd (.var .jTemp)) (.num 49928106040377707 17)))),
  .set (.arr .jac 211) (.add (.rd (.arr .jac 211)) (.mul (.num 13408075387666762 17) (.mul (.rd (.var .jTemp)) (.num 46330052531852528 17)))),
  .set (.arr .jac 212) (.add (.rd (.arr .jac 212)) (.mul (.neg (.num 67040376938333812 18)) (.mul (.rd (.var .jTemp)) (.num 46330052531852528 17)))),
  .set (.arr .jac 229) (.add (.rd (.arr .jac 229)) (.mul (.neg (.num 2 0)) (.mul (.rd (.var .jTemp)) (.num 46330052531852528 17)))),
  .set (.arr .jac 228) (.add (.rd (.arr .jac 228)) (.mul (.num 19329596230616661 16) (.mul (.rd (.var .jTemp)) (.num 46330052531852528 17)))),
  .set (.arr .jac 232) (.add (.rd (.arr .jac 232)) (.mul (.num 12565668251597606 17) (.mul (.rd (.var .jTemp)) (.num 42731999023327338 17)))),
  .set (.arr .jac 233) (.add (.rd (.arr .jac 233)) (.mul (.neg (.num 6282834125798803 17)) (.mul (.rd (.var .jTemp)) (.num 42731999023327338 17)))),
  .set (.arr .jac 250) (.add (.rd (.arr .jac 250)) (.mul (.neg (.num 18743433174840238 16)) (.mul (.rd (.var .jTemp)) (.num 42731999023327338 17)))),
  .set (.arr .jac 249) (.add (.rd (.arr .jac 249)) (.mul (.num 18115149762260356 16) (.mul (.rd (.var .jTemp)) (.num 42731999023327338 17)))),
  .set (.arr .jac 253) (.add (.rd (.arr .jac 253)) (.mul (.num 7196898294919031 17) (.mul (.rd (.var .jTemp)) (.num 10994706834011048 20)))),
  .set (.arr .jac 254) (.add (.rd (.arr .jac 254)) (.mul (.neg (.num 35984491474595155 18)) (.mul (.rd (.var .jTemp)) (.num 10994706834011048 20)))),
  .set (.arr .jac 271) (.add (.rd (.arr .jac 271)) (.mul (.neg (.num 10735169794076487 16)) (.mul (.rd (.var .jTemp)) (.num 10994706834011048 20)))),
  .set (.arr .jac 270) (.add (.rd (.arr .jac 270)) (.mul (.num 10375324879330534 16) (.mul (.rd (.var .jTemp)) (.num 10994706834011048 20)))),
  .set (.arr .jac 274) (.add (.rd (.arr .jac 274)) (.mul (.num 45805252466496103 18) (.mul (.rd (.var .jTemp)) (.neg (.num 57102223643760053 17))))),
  .set (.arr .jac 275) (.add (.rd (.arr .jac 275)) (.mul (.neg (.num 22902626233248052 18)) (.mul (.rd (.var .jTemp)) (.neg (.num 57102223643760053 17))))),
  .set (.arr .jac 292) (.add (.rd (.arr .jac 292)) (.mul (.neg (.num 68324873096446703 17)) (.mul (.rd (.var .jTemp)) (.neg (.num 57102223643760053 17))))),
  .set (.arr .jac 291) (.add (.rd (.arr .jac 291)) (.mul (.num 66034610473121891 17) (.mul (.rd (.var .jTemp)) (.neg (.num 57102223643760053 17))))),
  .set (.arr .jac 295) (.add (.rd (.arr .jac 295)) (.mul (.num 69469170186854251 18) (.mul (.rd (.var .jTemp)) (.neg (.num 35870588016911675 18))))),
  .set (.arr .jac 296) (.add (.rd (.arr .jac 296)) (.mul (.neg (.num 34734585093427126 18)) (.mul (.rd (.var .jTemp)) (.neg (.num 35870588016911675 18))))),
  .set (.arr .jac 313) (.add (.rd (.arr .jac 313)) (.mul (.neg (.num 10362288125371748 16)) (.mul (.rd (.var .jTemp)) (.neg (.num 35870588016911675 18))))),
  .set (.arr .jac 312) (.add (.rd (.arr .jac 312)) (.mul (.num 10014942274437477 16) (.mul (.rd (.var .jTemp)) (.neg (.num 35870588016911675 18))))),
  .set (.arr .jac 316) (.add (.rd (.arr .jac 316)) (.mul (.num 67137187823466643 18) (.mul (.rd (.var .jTemp)) (.neg (.num 71851123102163683 18))))),
  .set (.arr .jac 317) (.add (.rd (.arr .jac 317)) (.mul (.neg (.num 33568593911733322 18)) (.mul (.rd (.var .jTemp)) (.neg (.num 71851123102163683 18))))),
  .set (.arr .jac 334) (.add (.rd (.arr .jac 334)) (.mul (.neg (.num 10014440683294767 16)) (.mul (.rd (.var .jTemp)) (.neg (.num 71851123102163683 18))))),
  .set (.arr .jac 333) (.add (.rd (.arr .jac 333)) (.mul (.num 96787547441774335 17) (.mul (.rd (.var .jTemp)) (.neg (.num 71851123102163683 18))))),
  .set (.arr .jac 337) (.add (.rd (.arr .jac 337)) (.mul (.num 64956683299918619 18) (.mul (.rd (.var .jTemp)) (.neg (.num 10783165818741525 17))))),
  .set (.arr .jac 338) (.add (.rd (.arr .jac 338)) (.mul (.neg (.num 32478341649959309 18)) (.mul (.rd (.var .jTemp)) (.neg (.num 10783165818741525 17))))),
  .set (.arr .jac 355) (.add (.rd (.arr .jac 355)) (.mul (.neg (.num 96891882573494681 17)) (.mul (.rd (.var .jTemp)) (.neg (.num 10783165818741525 17))))),
  .set (.arr .jac 354) (.add (.rd (.arr .jac 354)) (.mul (.num 93644048408498748 17) (.mul (.rd (.var .jTemp)) (.neg (.num 10783165818741525 17))))),
  .set (.arr .jac 358) (.add (.rd (.arr .jac 358)) (.mul (.num 71857747410685777 18) (.mul (.rd (.var .jTemp)) (.neg (.num 14378791924458678 19))))),
  .set (.arr .jac 359) (.add (.rd (.arr .jac 359)) (.mul (.neg (.num 35928873705342888 18)) (.mul (.rd (.var .jTemp)) (.neg (.num 14378791924458678 19))))),
  .set (.arr .jac 376) (.add (.rd (.arr .jac 376)) (.mul (.neg (.num 10718577474106858 16)) (.mul (.rd (.var .jTemp)) (.neg (.num 14378791924458678 19))))),
  .set (.arr .jac 375) (.add (.rd (.arr .jac 375)) (.mul (.num 10359288737053429 16) (.mul (.rd (.var .jTemp)) (.neg (.num 14378791924458678 19))))),
  .set (.arr .jac 379) (.add (.rd (.arr .jac 379)) (.mul (.num 6936552231975418 17) (.sub (.mul (.rd (.var .jTemp)) (.neg (.num 37418414277697654 18))) (.mul (.rd (.var .kr)) (.rd (.arr .C 0)))))),
  .set (.arr .jac 380) (.add (.rd (.arr .jac 380)) (.mul (.neg (.num 3468276115987709 17)) (.sub (.mul (.rd (.var .jTemp)) (.neg (.num 37418414277697654 18))) (.mul (.rd (.var .kr)) (.rd (.arr .C 0)))))),
  .set (.arr .jac 397) (.add (.rd (.arr .jac 397)) (.mul (.neg (.num 10346827611598772 16)) (.sub (.mul (.rd (.var .jTemp)) (.neg (.num 37418414277697654 18))) (.mul (.rd (.var .kr)) (.rd (.arr .C 0)))))),
  .set (.arr .jac 396) (.add (.rd (.arr .jac 396)) (.sub (.mul (.rd (.var .jTemp)) (.neg (.num 37418414277697654 18))) (.mul (.rd (.var .kr)) (.rd (.arr .C 0))))),
  .set (.arr .jac 400) (.add (.rd (.arr .jac 400)) (.mul (.num 67040376938333812 18) (.add (.mul (.rd (.var .jTemp)) (.neg (.num 73398949362949439 18))) (.mul (.rd (.var .kf)) (.rd (.arr .C 1)))))),
  .set (.arr .jac 401) (.add (.rd (.arr .jac 401)) (.mul (.neg (.num 33520188469166906 18)) (.add (.mul (.rd (.var .jTemp)) (.neg (.num 73398949362949439 18))) (.mul (.rd (.var .kf)) (.rd (.arr .C 1)))))),
  .set (.arr .jac 418) (.add (.rd (.arr .jac 418)) (.neg (.add (.mul (.rd (.var .jTemp)) (.neg (.num 73398949362949439 18))) (.mul (.rd (.var .kf)) (.rd (.arr .C 1)))))),
  .set (.arr .jac 417) (.add (.rd (.arr .jac 417)) (.mul (.num 96647981153083307 17) (.add (.mul (.rd (.var .jTemp)) (.neg (.num 73398949362949439 18))) (.mul (.rd (.var .kf)) (.rd (.arr .C 1)))))),
  .set (.arr .jac 421) (.add (.rd (.arr .jac 421)) (.mul (.num 5046260138179634 17) (.mul (.rd (.var .jTemp)) (.neg (.num 42602775520927771 17))))),
  .set (.arr .jac 422) (.add (.rd (.arr .jac 422)) (.mul (.neg (.num 2523130069089817 17)) (.mul (.rd (.var .jTemp)) (.neg (.num 42602775520927771 17))))),
  .set (.arr .jac 439) (.add (.rd (.arr .jac 439)) (.mul (.neg (.num 75271953539601477 17)) (.mul (.rd (.var .jTemp)) (.neg (.num 42602775520927771 17))))),
  .set (.arr .jac 438) (.add (.rd (.arr .jac 438)) (.mul (.num 72748823470511659 17) (.mul (.rd (.var .jTemp)) (.neg (.num 42602775520927771 17)))))]

/-- The blocks of `eval_jacob_0`, one per reaction, utilities/mechanisms/drm19/lib/src/jacobs/jacob_0.c:5-3544: derivatives with respect to the temperature and to the mass fractions. -/
def jacob0Blocks : List (List CStmt × List CStmt) := [
  (jacobT0, jacobS0), (jacobT1, jacobS1), (jacobT2, jacobS2), (jacobT3, jacobS3), (jacobT4, jacobS4), (jacobT5, jacobS5), (jacobT6, jacobS6), (jacobT7, jacobS7), (jacobT8, jacobS8), (jacobT9, jacobS9), (jacobT10, jacobS10), (jacobT11, jacobS11), (jacobT12, jacobS12), (jacobT13, jacobS13), (jacobT14, jacobS14), (jacobT15, jacobS15), (jacobT16, jacobS16), (jacobT17, jacobS17), (jacobT18, jacobS18), (jacobT19, jacobS19), (jacobT20, jacobS20), (jacobT21, jacobS21), (jacobT22, jacobS22), (jacobT23, jacobS23), (jacobT24, jacobS24), (jacobT25, jacobS25), (jacobT26, jacobS26), (jacobT27, jacobS27), (jacobT28, jacobS28), (jacobT29, jacobS29), (jacobT30, jacobS30), (jacobT31, jacobS31), (jacobT32, jacobS32), (jacobT33, jacobS33), (jacobT34, jacobS34), (jacobT35, jacobS35), (jacobT36, jacobS36), (jacobT37, jacobS37), (jacobT38, jacobS38), (jacobT39, jacobS39)]

end DLB.Mech.Drm19
