/- Generated by tools/gen_mechanisms.py from utilities/mechanisms/drm19/lib/src/jacobs/jacob_1.c. Do not edit. -/
import Verif.Model.CLang
set_option autoImplicit false

namespace DLB.Mech.Drm19
open DLB

/-- utilities/mechanisms/drm19/lib/src/jacobs/jacob_1.c:5-17 -/
def jacob1Start : List CStmt := [
  .set (.var .logT) (.log (.rd (.var .T))),
  .set (.var .kf) (.num 0 0),
  .set (.var .jTemp) (.num 0 0),
  .set (.var .presModTemp) (.num 0 0),
  .set (.var .Kc) (.num 0 0),
  .set (.var .kr) (.num 0 0),
  .set (.var .Pr) (.num 0 0),
  .set (.var .Fcent) (.num 0 0),
  .set (.var .A) (.num 0 0),
  .set (.var .B) (.num 0 0),
  .set (.var .lnFAB) (.num 0 0),
  .set (.var .rhoInv) (.div (.num 1 0) (.rd (.var .rho)))]

/-- utilities/mechanisms/drm19/lib/src/jacobs/jacob_1.c:18-29 -/
def jacobT40 : List CStmt := [
  .set (.var .concTemp) (.sub (.add (.add (.add (.add (.add (.add (.rd (.var .m)) (.mul (.num 1 0) (.rd (.arr .C 0)))) (.mul (.num 5 0) (.rd (.arr .C 5)))) (.mul (.num 1 0) (.rd (.arr .C 10)))) (.mul (.num 5 1) (.rd (.arr .C 11)))) (.mul (.num 1 0) (.rd (.arr .C 12)))) (.mul (.num 2 0) (.rd (.arr .C 18)))) (.mul (.num 3 1) (.rd (.arr .C 19)))),
  .set (.var .Pr) (.mul (.rd (.var .concTemp)) (.exp (.sub (.sub (.num 39308672375802352 15) (.mul (.num 492 2) (.rd (.var .logT)))) (.div (.num 23902929330810221 13) (.rd (.var .T)))))),
  .set (.var .Fcent) (.add (.add (.mul (.num 67999999999999949 18) (.exp (.div (.rd (.var .T)) (.neg (.num 19700000000000003 14))))) (.mul (.num 93200000000000005 17) (.exp (.div (.rd (.var .T)) (.neg (.num 1540 0)))))) (.exp (.div (.neg (.num 10300 0)) (.rd (.var .T))))),
  .set (.var .A) (.sub (.sub (.log10 (.fmax (.rd (.var .Pr)) (.num 1 300))) (.mul (.num 67 2) (.log10 (.fmax (.rd (.var .Fcent)) (.num 1 300))))) (.num 4 1)),
  .set (.var .B) (.sub (.sub (.num 806 3) (.mul (.num 11762 4) (.log10 (.fmax (.rd (.var .Fcent)) (.num 1 300))))) (.mul (.num 14 2) (.log10 (.fmax (.rd (.var .Pr)) (.num 1 300))))),
  .set (.var .lnFAB) (.div (.mul (.mul (.num 2 0) (.log (.fmax (.rd (.var .Fcent)) (.num 1 300)))) (.rd (.var .A))) (.mul (.mul (.mul (.mul (.rd (.var .B)) (.rd (.var .B))) (.rd (.var .B))) (.add (.num 1 0) (.div (.mul (.rd (.var .A)) (.rd (.var .A))) (.mul (.rd (.var .B)) (.rd (.var .B)))))) (.add (.num 1 0) (.div (.mul (.rd (.var .A)) (.rd (.var .A))) (.mul (.rd (.var .B)) (.rd (.var .B))))))),
  .set (.var .jTemp) (.mul (.add (.mul (.mul (.rd (.arr .presMod 11)) (.sub (.add (.div (.sub (.add (.neg (.num 492 2)) (.div (.num 23902929330810221 13) (.rd (.var .T)))) (.num 1 0)) (.mul (.rd (.var .T)) (.add (.num 1 0) (.rd (.var .Pr))))) (.mul (.sub (.div (.num 1 0) (.mul (.rd (.var .Fcent)) (.add (.num 1 0) (.div (.mul (.rd (.var .A)) (.rd (.var .A))) (.mul (.rd (.var .B)) (.rd (.var .B))))))) (.div (.mul (.rd (.var .lnFAB)) (.add (.mul (.neg (.num 2909773028751787 16)) (.rd (.var .B))) (.mul (.num 51081716961460466 17) (.rd (.var .A))))) (.rd (.var .Fcent)))) (.add (.sub (.mul (.neg (.num 34517766497461899 20)) (.exp (.div (.rd (.var .T)) (.neg (.num 19700000000000003 14))))) (.mul (.num 60519480519480523 20) (.exp (.div (.rd (.var .T)) (.neg (.num 1540 0)))))) (.mul (.div (.num 10300 0) (.mul (.rd (.var .T)) (.rd (.var .T)))) (.exp (.div (.neg (.num 10300 0)) (.rd (.var .T)))))))) (.div (.mul (.mul (.rd (.var .lnFAB)) (.add (.mul (.num 43429448190325176 17) (.rd (.var .B))) (.mul (.num 60801227466455256 18) (.rd (.var .A))))) (.sub (.add (.neg (.num 49199999999999999 16)) (.div (.num 23902929330810221 13) (.rd (.var .T)))) (.num 1 0))) (.rd (.var .T))))) (.sub (.rd (.arr .fwd 40)) (.rd (.arr .rev 40)))) (.mul (.div (.rd (.arr .presMod 11)) (.rd (.var .T))) (.sub (.add (.mul (.sub (.rd (.arr .fwd 40)) (.rd (.arr .rev 40))) (.add (.num 15 1) (.div (.num 40056277362789348 12) (.rd (.var .T))))) (.mul (.rd (.arr .fwd 40)) (.neg (.num 1 0)))) (.mul (.rd (.arr .rev 40)) (.mul (.neg (.rd (.var .T))) (.sub (.sub (.rd (.arr .dBdT 14)) (.rd (.arr .dBdT 0))) (.rd (.arr .dBdT 11)))))))) (.rd (.var .rhoInv))),
  .set (.arr .jac 1) (.add (.rd (.arr .jac 1)) (.mul (.neg (.rd (.var .jTemp))) (.num 20158800000000001 16))),
  .set (.arr .jac 12) (.add (.rd (.arr .jac 12)) (.mul (.neg (.rd (.var .jTemp))) (.num 28010399999999997 15))),
  .set (.arr .jac 15) (.add (.rd (.arr .jac 15)) (.mul (.rd (.var .jTemp)) (.num 3002628 5)))]

/-- utilities/mechanisms/drm19/lib/src/jacobs/jacob_1.c:30-103 -/
def jacobS40 : List CStmt := [
  .ite (.rd (.var .T)) (.num 1000 0) (.var .Kc) (.sub (.add (.add (.neg (.num 2458465178 9)) (.mul (.neg (.num 13014144000000005 17)) (.rd (.var .logT)))) (.mul (.rd (.var .T)) (.add (.neg (.num 86392503799999996 19)) (.mul (.rd (.var .T)) (.add (.num 92972229116666669 22) (.mul (.rd (.var .T)) (.add (.neg (.num 49160617819999996 25)) (.mul (.num 107289036545 23) (.rd (.var .T)))))))))) (.div (.num 95306447299999854 14) (.rd (.var .T)))) (.sub (.add (.add (.num 1333443332 8) (.mul (.neg (.num 32917747300000002 16)) (.rd (.var .logT)))) (.mul (.rd (.var .T)) (.add (.num 359343793155 14) (.mul (.rd (.var .T)) (.add (.neg (.num 65386985616666657 23)) (.mul (.rd (.var .T)) (.add (.num 79660458833333329 27) (.mul (.neg (.num 44023165000000007 31)) (.rd (.var .T)))))))))) (.div (.num 11061990220000007 13) (.rd (.var .T)))),
  .set (.var .Kc) (.mul (.num 82057360967184814 18) (.exp (.rd (.var .Kc)))),
  .set (.var .presModTemp) (.mul (.sub (.div (.num 1 0) (.add (.num 1 0) (.rd (.var .Pr)))) (.div (.mul (.mul (.mul (.log (.fmax (.rd (.var .Fcent)) (.num 1 300))) (.num 2 0)) (.rd (.var .A))) (.add (.mul (.rd (.var .B)) (.num 4342944819032518 16)) (.mul (.rd (.var .A)) (.num 6080122746645526 17)))) (.mul (.mul (.mul (.mul (.rd (.var .B)) (.rd (.var .B))) (.rd (.var .B))) (.add (.num 1 0) (.div (.mul (.rd (.var .A)) (.rd (.var .A))) (.mul (.rd (.var .B)) (.rd (.var .B)))))) (.add (.num 1 0) (.div (.mul (.rd (.var .A)) (.rd (.var .A))) (.mul (.rd (.var .B)) (.rd (.var .B)))))))) (.sub (.rd (.arr .fwd 40)) (.rd (.arr .rev 40)))),
  .set (.var .jTemp) (.mul (.mul (.mul (.neg (.rd (.var .mwAvg))) (.rd (.var .rhoInv))) (.rd (.arr .presMod 11))) (.add (.sub (.mul (.num 2 0) (.rd (.arr .fwd 40))) (.rd (.arr .rev 40))) (.rd (.var .presModTemp)))),
  .set (.var .presModTemp) (.mul (.rd (.var .presModTemp)) (.div (.mul (.exp (.sub (.sub (.num 39308672375802352 15) (.mul (.num 492 2) (.rd (.var .logT)))) (.div (.num 23902929330810221 13) (.rd (.var .T))))) (.pow (.rd (.var .Fcent)) (.div (.num 1 0) (.add (.num 1 0) (.div (.mul (.rd (.var .A)) (.rd (.var .A))) (.mul (.rd (.var .B)) (.rd (.var .B)))))))) (.add (.num 1 0) (.rd (.var .Pr))))),
  .set (.var .kf) (.exp (.sub (.add (.num 10668955394675699 15) (.mul (.num 15 1) (.rd (.var .logT)))) (.div (.num 40056277362789348 12) (.rd (.var .T))))),
  .set (.var .kr) (.div (.rd (.var .kf)) (.rd (.var .Kc))),
  .set (.arr .jac 22) (.add (.rd (.arr .jac 22)) (.neg (.add (.add (.mul (.rd (.var .jTemp)) (.num 92803892982949643 17)) (.mul (.num 19280389298294964 16) (.rd (.var .presModTemp)))) (.mul (.rd (.arr .presMod 11)) (.mul (.rd (.var .kf)) (.rd (.arr .C 11))))))),
  .set (.arr .jac 33) (.add (.rd (.arr .jac 33)) (.mul (.neg (.num 13894874694922315 15)) (.add (.add (.mul (.rd (.var .jTemp)) (.num 92803892982949643 17)) (.mul (.num 19280389298294964 16) (.rd (.var .presModTemp)))) (.mul (.rd (.arr .presMod 11)) (.mul (.rd (.var .kf)) (.rd (.arr .C 11))))))),
  .set (.arr .jac 36) (.add (.rd (.arr .jac 36)) (.mul (.num 14894874694922317 15) (.add (.add (.mul (.rd (.var .jTemp)) (.num 92803892982949643 17)) (.mul (.num 19280389298294964 16) (.rd (.var .presModTemp)))) (.mul (.rd (.arr .presMod 11)) (.mul (.rd (.var .kf)) (.rd (.arr .C 11))))))),
  .set (.arr .jac 43) (.add (.rd (.arr .jac 43)) (.mul (.neg (.num 2 0)) (.add (.mul (.rd (.var .jTemp)) (.num 96401946491474821 17)) (.mul (.num 96401946491474821 17) (.rd (.var .presModTemp)))))),
  .set (.arr .jac 54) (.add (.rd (.arr .jac 54)) (.mul (.neg (.num 2778974938984463 14)) (.add (.mul (.rd (.var .jTemp)) (.num 96401946491474821 17)) (.mul (.num 96401946491474821 17) (.rd (.var .presModTemp)))))),
  .set (.arr .jac 57) (.add (.rd (.arr .jac 57)) (.mul (.num 29789749389844633 15) (.add (.mul (.rd (.var .jTemp)) (.num 96401946491474821 17)) (.mul (.num 96401946491474821 17) (.rd (.var .presModTemp)))))),
  .set (.arr .jac 64) (.add (.rd (.arr .jac 64)) (.mul (.neg (.num 1259972248959336 16)) (.add (.mul (.rd (.var .jTemp)) (.num 42886781649405936 17)) (.mul (.num 42886781649405936 17) (.rd (.var .presModTemp)))))),
  .set (.arr .jac 75) (.add (.rd (.arr .jac 75)) (.mul (.neg (.num 17507156518369438 16)) (.add (.mul (.rd (.var .jTemp)) (.num 42886781649405936 17)) (.mul (.num 42886781649405936 17) (.rd (.var .presModTemp)))))),
  .set (.arr .jac 78) (.add (.rd (.arr .jac 78)) (.mul (.num 18767128767328776 16) (.add (.mul (.rd (.var .jTemp)) (.num 42886781649405936 17)) (.mul (.num 42886781649405936 17) (.rd (.var .presModTemp)))))),
  .set (.arr .jac 85) (.add (.rd (.arr .jac 85)) (.mul (.neg (.num 62998612447966798 18)) (.add (.mul (.rd (.var .jTemp)) (.neg (.num 14226436701188128 17))) (.mul (.neg (.num 14226436701188128 17)) (.rd (.var .presModTemp)))))),
  .set (.arr .jac 96) (.add (.rd (.arr .jac 96)) (.mul (.neg (.num 87535782591847189 17)) (.add (.mul (.rd (.var .jTemp)) (.neg (.num 14226436701188128 17))) (.mul (.neg (.num 14226436701188128 17)) (.rd (.var .presModTemp)))))),
  .set (.arr .jac 99) (.add (.rd (.arr .jac 99)) (.mul (.num 93835643836643878 17) (.add (.mul (.rd (.var .jTemp)) (.neg (.num 14226436701188128 17))) (.mul (.neg (.num 14226436701188128 17)) (.rd (.var .presModTemp)))))),
  .set (.arr .jac 106) (.add (.rd (.arr .jac 106)) (.mul (.neg (.num 11852999940025896 17)) (.add (.mul (.rd (.var .jTemp)) (.num 39288728140880758 17)) (.mul (.num 39288728140880758 17) (.rd (.var .presModTemp)))))),
  .set (.arr .jac 117) (.add (.rd (.arr .jac 117)) (.mul (.neg (.num 16469594892558153 16)) (.add (.mul (.rd (.var .jTemp)) (.num 39288728140880758 17)) (.mul (.num 39288728140880758 17) (.rd (.var .presModTemp)))))),
  .set (.arr .jac 120) (.add (.rd (.arr .jac 120)) (.mul (.num 17654894886560744 16) (.add (.mul (.rd (.var .jTemp)) (.num 39288728140880758 17)) (.mul (.num 39288728140880758 17) (.rd (.var .presModTemp)))))),
  .set (.arr .jac 127) (.add (.rd (.arr .jac 127)) (.mul (.neg (.num 11189834407236524 17)) (.add (.mul (.rd (.var .jTemp)) (.num 35690674632355568 17)) (.mul (.num 53569067463235553 16) (.rd (.var .presModTemp)))))),
  .set (.arr .jac 138) (.add (.rd (.arr .jac 138)) (.mul (.neg (.num 15548134694548181 16)) (.add (.mul (.rd (.var .jTemp)) (.num 35690674632355568 17)) (.mul (.num 53569067463235553 16) (.rd (.var .presModTemp)))))),
  .set (.arr .jac 141) (.add (.rd (.arr .jac 141)) (.mul (.num 16667118135271835 16) (.add (.mul (.rd (.var .jTemp)) (.num 35690674632355568 17)) (.mul (.num 53569067463235553 16) (.rd (.var .presModTemp)))))),
  .set (.arr .jac 148) (.add (.rd (.arr .jac 148)) (.mul (.neg (.num 61074798662333819 18)) (.add (.mul (.rd (.var .jTemp)) (.neg (.num 17824490209713328 17))) (.mul (.neg (.num 17824490209713328 17)) (.rd (.var .presModTemp)))))),
  .set (.arr .jac 159) (.add (.rd (.arr .jac 159)) (.mul (.neg (.num 84862667443073736 17)) (.add (.mul (.rd (.var .jTemp)) (.neg (.num 17824490209713328 17))) (.mul (.neg (.num 17824490209713328 17)) (.rd (.var .presModTemp)))))),
  .set (.arr .jac 162) (.add (.rd (.arr .jac 162)) (.mul (.num 90970147309307126 17) (.add (.mul (.rd (.var .jTemp)) (.neg (.num 17824490209713328 17))) (.mul (.neg (.num 17824490209713328 17)) (.rd (.var .presModTemp)))))),
  .set (.arr .jac 169) (.add (.rd (.arr .jac 169)) (.mul (.neg (.num 14371549482137155 17)) (.add (.mul (.rd (.var .jTemp)) (.num 49928106040377707 17)) (.mul (.num 49928106040377707 17) (.rd (.var .presModTemp)))))),
  .set (.arr .jac 180) (.add (.rd (.arr .jac 180)) (.mul (.neg (.num 19969087922617146 16)) (.add (.mul (.rd (.var .jTemp)) (.num 49928106040377707 17)) (.mul (.num 49928106040377707 17) (.rd (.var .presModTemp)))))),
  .set (.arr .jac 183) (.add (.rd (.arr .jac 183)) (.mul (.num 21406242870830865 16) (.add (.mul (.rd (.var .jTemp)) (.num 49928106040377707 17)) (.mul (.num 49928106040377707 17) (.rd (.var .presModTemp)))))),
  .set (.arr .jac 190) (.add (.rd (.arr .jac 190)) (.mul (.neg (.num 14371549482137155 17)) (.add (.mul (.rd (.var .jTemp)) (.num 49928106040377707 17)) (.mul (.num 49928106040377707 17) (.rd (.var .presModTemp)))))),
  .set (.arr .jac 201) (.add (.rd (.arr .jac 201)) (.mul (.neg (.num 19969087922617146 16)) (.add (.mul (.rd (.var .jTemp)) (.num 49928106040377707 17)) (.mul (.num 49928106040377707 17) (.rd (.var .presModTemp)))))),
  .set (.arr .jac 204) (.add (.rd (.arr .jac 204)) (.mul (.num 21406242870830865 16) (.add (.mul (.rd (.var .jTemp)) (.num 49928106040377707 17)) (.mul (.num 49928106040377707 17) (.rd (.var .presModTemp)))))),
  .set (.arr .jac 211) (.add (.rd (.arr .jac 211)) (.mul (.neg (.num 13408075387666762 17)) (.add (.mul (.rd (.var .jTemp)) (.num 46330052531852528 17)) (.mul (.num 46330052531852528 17) (.rd (.var .presModTemp)))))),
  .set (.arr .jac 222) (.add (.rd (.arr .jac 222)) (.mul (.neg (.num 18630352741170162 16)) (.add (.mul (.rd (.var .jTemp)) (.num 46330052531852528 17)) (.mul (.num 46330052531852528 17) (.rd (.var .presModTemp)))))),
  .set (.arr .jac 225) (.add (.rd (.arr .jac 225)) (.mul (.num 19971160279936839 16) (.add (.mul (.rd (.var .jTemp)) (.num 46330052531852528 17)) (.mul (.num 46330052531852528 17) (.rd (.var .presModTemp)))))),
  .set (.arr .jac 232) (.add (.rd (.arr .jac 232)) (.mul (.neg (.num 12565668251597606 17)) (.add (.mul (.rd (.var .jTemp)) (.num 42731999023327338 17)) (.mul (.num 14273199902332734 16) (.rd (.var .presModTemp)))))),
  .set (.arr .jac 243) (.add (.rd (.arr .jac 243)) (.mul (.neg (.num 17459838581391229 16)) (.add (.mul (.rd (.var .jTemp)) (.num 42731999023327338 17)) (.mul (.num 14273199902332734 16) (.rd (.var .presModTemp)))))),
  .set (.arr .jac 246) (.add (.rd (.arr .jac 246)) (.mul (.num 18716405406550991 16) (.add (.mul (.rd (.var .jTemp)) (.num 42731999023327338 17)) (.mul (.num 14273199902332734 16) (.rd (.var .presModTemp)))))),
  .set (.arr .jac 253) (.add (.rd (.arr .jac 253)) (.mul (.neg (.num 7196898294919031 17)) (.add (.add (.mul (.rd (.var .jTemp)) (.num 10994706834011048 20)) (.mul (.num 50010994706834011 17) (.rd (.var .presModTemp)))) (.mul (.rd (.arr .presMod 11)) (.mul (.rd (.var .kf)) (.rd (.arr .C 0))))))),
  .set (.arr .jac 264) (.add (.rd (.arr .jac 264)) (.neg (.add (.add (.mul (.rd (.var .jTemp)) (.num 10994706834011048 20)) (.mul (.num 50010994706834011 17) (.rd (.var .presModTemp)))) (.mul (.rd (.arr .presMod 11)) (.mul (.rd (.var .kf)) (.rd (.arr .C 0))))))),
  .set (.arr .jac 267) (.add (.rd (.arr .jac 267)) (.mul (.num 10719689829491903 16) (.add (.add (.mul (.rd (.var .jTemp)) (.num 10994706834011048 20)) (.mul (.num 50010994706834011 17) (.rd (.var .presModTemp)))) (.mul (.rd (.arr .presMod 11)) (.mul (.rd (.var .kf)) (.rd (.arr .C 0))))))),
  .set (.arr .jac 274) (.add (.rd (.arr .jac 274)) (.mul (.neg (.num 45805252466496103 18)) (.add (.mul (.rd (.var .jTemp)) (.neg (.num 57102223643760053 17))) (.mul (.num 42897776356239947 17) (.rd (.var .presModTemp)))))),
  .set (.arr .jac 285) (.add (.rd (.arr .jac 285)) (.mul (.neg (.num 63645824339124468 17)) (.add (.mul (.rd (.var .jTemp)) (.neg (.num 57102223643760053 17))) (.mul (.num 42897776356239947 17) (.rd (.var .presModTemp)))))),
  .set (.arr .jac 288) (.add (.rd (.arr .jac 288)) (.mul (.num 68226349585774082 17) (.add (.mul (.rd (.var .jTemp)) (.neg (.num 57102223643760053 17))) (.mul (.num 42897776356239947 17) (.rd (.var .presModTemp)))))),
  .set (.arr .jac 295) (.add (.rd (.arr .jac 295)) (.mul (.neg (.num 69469170186854251 18)) (.add (.mul (.rd (.var .jTemp)) (.neg (.num 35870588016911675 18))) (.mul (.neg (.num 35870588016911675 18)) (.rd (.var .presModTemp)))))),
  .set (.arr .jac 306) (.add (.rd (.arr .jac 306)) (.mul (.neg (.num 96526541490657281 17)) (.add (.mul (.rd (.var .jTemp)) (.neg (.num 35870588016911675 18))) (.mul (.neg (.num 35870588016911675 18)) (.rd (.var .presModTemp)))))),
  .set (.arr .jac 309) (.add (.rd (.arr .jac 309)) (.mul (.num 10347345850934271 16) (.add (.mul (.rd (.var .jTemp)) (.neg (.num 35870588016911675 18))) (.mul (.neg (.num 35870588016911675 18)) (.rd (.var .presModTemp)))))),
  .set (.arr .jac 316) (.add (.rd (.arr .jac 316)) (.mul (.neg (.num 67137187823466643 18)) (.add (.add (.mul (.rd (.var .jTemp)) (.neg (.num 71851123102163683 18))) (.mul (.neg (.num 71851123102163683 18)) (.rd (.var .presModTemp)))) (.mul (.rd (.arr .presMod 11)) (.neg (.rd (.var .kr))))))),
  .set (.arr .jac 327) (.add (.rd (.arr .jac 327)) (.mul (.neg (.num 93286281217653322 17)) (.add (.add (.mul (.rd (.var .jTemp)) (.neg (.num 71851123102163683 18))) (.mul (.neg (.num 71851123102163683 18)) (.rd (.var .presModTemp)))) (.mul (.rd (.arr .presMod 11)) (.neg (.rd (.var .kr))))))),
  .set (.arr .jac 330) (.add (.rd (.arr .jac 330)) (.add (.add (.mul (.rd (.var .jTemp)) (.neg (.num 71851123102163683 18))) (.mul (.neg (.num 71851123102163683 18)) (.rd (.var .presModTemp)))) (.mul (.rd (.arr .presMod 11)) (.neg (.rd (.var .kr)))))),
  .set (.arr .jac 337) (.add (.rd (.arr .jac 337)) (.mul (.neg (.num 64956683299918619 18)) (.add (.mul (.rd (.var .jTemp)) (.neg (.num 10783165818741525 17))) (.mul (.neg (.num 10783165818741525 17)) (.rd (.var .presModTemp)))))),
  .set (.arr .jac 348) (.add (.rd (.arr .jac 348)) (.mul (.neg (.num 90256497505012201 17)) (.add (.mul (.rd (.var .jTemp)) (.neg (.num 10783165818741525 17))) (.mul (.neg (.num 10783165818741525 17)) (.rd (.var .presModTemp)))))),
  .set (.arr .jac 351) (.add (.rd (.arr .jac 351)) (.mul (.num 96752165835004078 17) (.add (.mul (.rd (.var .jTemp)) (.neg (.num 10783165818741525 17))) (.mul (.neg (.num 10783165818741525 17)) (.rd (.var .presModTemp)))))),
  .set (.arr .jac 358) (.add (.rd (.arr .jac 358)) (.mul (.neg (.num 71857747410685777 18)) (.add (.mul (.rd (.var .jTemp)) (.neg (.num 14378791924458678 19))) (.mul (.neg (.num 14378791924458678 19)) (.rd (.var .presModTemp)))))),
  .set (.arr .jac 369) (.add (.rd (.arr .jac 369)) (.mul (.neg (.num 99845439613085729 17)) (.add (.mul (.rd (.var .jTemp)) (.neg (.num 14378791924458678 19))) (.mul (.neg (.num 14378791924458678 19)) (.rd (.var .presModTemp)))))),
  .set (.arr .jac 372) (.add (.rd (.arr .jac 372)) (.mul (.num 10703121435415432 16) (.add (.mul (.rd (.var .jTemp)) (.neg (.num 14378791924458678 19))) (.mul (.neg (.num 14378791924458678 19)) (.rd (.var .presModTemp)))))),
  .set (.arr .jac 379) (.add (.rd (.arr .jac 379)) (.mul (.neg (.num 6936552231975418 17)) (.add (.mul (.rd (.var .jTemp)) (.neg (.num 37418414277697654 18))) (.mul (.neg (.num 37418414277697654 18)) (.rd (.var .presModTemp)))))),
  .set (.arr .jac 390) (.add (.rd (.arr .jac 390)) (.mul (.neg (.num 96382524078082144 17)) (.add (.mul (.rd (.var .jTemp)) (.neg (.num 37418414277697654 18))) (.mul (.neg (.num 37418414277697654 18)) (.rd (.var .presModTemp)))))),
  .set (.arr .jac 393) (.add (.rd (.arr .jac 393)) (.mul (.num 10331907631005757 16) (.add (.mul (.rd (.var .jTemp)) (.neg (.num 37418414277697654 18))) (.mul (.neg (.num 37418414277697654 18)) (.rd (.var .presModTemp)))))),
  .set (.arr .jac 400) (.add (.rd (.arr .jac 400)) (.mul (.neg (.num 67040376938333812 18)) (.add (.mul (.rd (.var .jTemp)) (.neg (.num 73398949362949439 18))) (.mul (.num 19266010506370506 16) (.rd (.var .presModTemp)))))),
  .set (.arr .jac 411) (.add (.rd (.arr .jac 411)) (.mul (.neg (.num 9315176370585081 16)) (.add (.mul (.rd (.var .jTemp)) (.neg (.num 73398949362949439 18))) (.mul (.num 19266010506370506 16) (.rd (.var .presModTemp)))))),
  .set (.arr .jac 414) (.add (.rd (.arr .jac 414)) (.mul (.num 99855801399684196 17) (.add (.mul (.rd (.var .jTemp)) (.neg (.num 73398949362949439 18))) (.mul (.num 19266010506370506 16) (.rd (.var .presModTemp)))))),
  .set (.arr .jac 421) (.add (.rd (.arr .jac 421)) (.mul (.neg (.num 5046260138179634 17)) (.add (.mul (.rd (.var .jTemp)) (.neg (.num 42602775520927771 17))) (.mul (.neg (.num 72602775520927776 17)) (.rd (.var .presModTemp)))))),
  .set (.arr .jac 432) (.add (.rd (.arr .jac 432)) (.mul (.neg (.num 70117152297987373 17)) (.add (.mul (.rd (.var .jTemp)) (.neg (.num 42602775520927771 17))) (.mul (.neg (.num 72602775520927776 17)) (.rd (.var .presModTemp)))))),
  .set (.arr .jac 435) (.add (.rd (.arr .jac 435)) (.mul (.num 75163412436167021 17) (.add (.mul (.rd (.var .jTemp)) (.neg (.num 42602775520927771 17))) (.mul (.neg (.num 72602775520927776 17)) (.rd (.var .presModTemp))))))]

/-- utilities/mechanisms/drm19/lib/src/jacobs/jacob_1.c:104-110 -/
def jacobT41 : List CStmt := [
  .set (.var .jTemp) (.mul (.mul (.div (.num 1 0) (.rd (.var .T))) (.sub (.add (.mul (.sub (.rd (.arr .fwd 41)) (.rd (.arr .rev 41))) (.add (.num 151 2) (.div (.num 17260431074669279 13) (.rd (.var .T))))) (.mul (.rd (.arr .fwd 41)) (.neg (.num 1 0)))) (.mul (.rd (.arr .rev 41)) (.add (.neg (.num 1 0)) (.mul (.neg (.rd (.var .T))) (.sub (.sub (.add (.rd (.arr .dBdT 1)) (.rd (.arr .dBdT 5))) (.rd (.arr .dBdT 0))) (.rd (.arr .dBdT 4)))))))) (.rd (.var .rhoInv))),
  .set (.arr .jac 1) (.add (.rd (.arr .jac 1)) (.mul (.neg (.rd (.var .jTemp))) (.num 20158800000000001 16))),
  .set (.arr .jac 2) (.add (.rd (.arr .jac 2)) (.mul (.rd (.var .jTemp)) (.num 10079400000000001 16))),
  .set (.arr .jac 5) (.add (.rd (.arr .jac 5)) (.mul (.neg (.rd (.var .jTemp))) (.num 17007339999999999 15))),
  .set (.arr .jac 6) (.add (.rd (.arr .jac 6)) (.mul (.rd (.var .jTemp)) (.num 18015280000000001 15)))]

/-- utilities/mechanisms/drm19/lib/src/jacobs/jacob_1.c:111-202 -/
def jacobS41 : List CStmt := [
  .ite (.rd (.var .T)) (.num 1000 0) (.var .Kc) (.sub (.add (.add (.neg (.num 22370938509999996 16)) (.mul (.num 36229401000000028 17) (.rd (.var .logT)))) (.mul (.rd (.var .T)) (.add (.neg (.num 3807818664647333 18)) (.mul (.rd (.var .T)) (.add (.num 35634357830006797 22) (.mul (.rd (.var .T)) (.add (.neg (.num 18136705573082654 25)) (.mul (.num 38919905395361339 29) (.rd (.var .T)))))))))) (.div (.neg (.num 75172121869999974 13)) (.rd (.var .T)))) (.sub (.add (.add (.num 4144588766 9) (.mul (.neg (.num 89617436999999978 17)) (.rd (.var .logT)))) (.mul (.rd (.var .T)) (.add (.num 83894538700785145 20) (.mul (.rd (.var .T)) (.add (.neg (.num 13167241797396752 23)) (.mul (.rd (.var .T)) (.add (.num 14205879822070641 27) (.mul (.neg (.num 74733377509013206 32)) (.rd (.var .T)))))))))) (.div (.neg (.num 74391352780000016 13)) (.rd (.var .T)))),
  .set (.var .Kc) (.exp (.rd (.var .Kc))),
  .set (.var .jTemp) (.mul (.mul (.neg (.rd (.var .mwAvg))) (.rd (.var .rhoInv))) (.sub (.mul (.num 2 0) (.rd (.arr .fwd 41))) (.mul (.num 2 0) (.rd (.arr .rev 41))))),
  .set (.var .kf) (.exp (.sub (.add (.num 12283033686666302 15) (.mul (.num 151 2) (.rd (.var .logT)))) (.div (.num 17260431074669279 13) (.rd (.var .T))))),
  .set (.var .kr) (.div (.rd (.var .kf)) (.rd (.var .Kc))),
  .set (.arr .jac 22) (.add (.rd (.arr .jac 22)) (.neg (.add (.mul (.rd (.var .jTemp)) (.num 92803892982949643 17)) (.mul (.rd (.var .kf)) (.rd (.arr .C 4)))))),
  .set (.arr .jac 23) (.add (.rd (.arr .jac 23)) (.mul (.num 5 1) (.add (.mul (.rd (.var .jTemp)) (.num 92803892982949643 17)) (.mul (.rd (.var .kf)) (.rd (.arr .C 4)))))),
  .set (.arr .jac 26) (.add (.rd (.arr .jac 26)) (.mul (.neg (.num 84366827390519266 16)) (.add (.mul (.rd (.var .jTemp)) (.num 92803892982949643 17)) (.mul (.rd (.var .kf)) (.rd (.arr .C 4)))))),
  .set (.arr .jac 27) (.add (.rd (.arr .jac 27)) (.mul (.num 89366827390519283 16) (.add (.mul (.rd (.var .jTemp)) (.num 92803892982949643 17)) (.mul (.rd (.var .kf)) (.rd (.arr .C 4)))))),
  .set (.arr .jac 43) (.add (.rd (.arr .jac 43)) (.mul (.neg (.num 2 0)) (.sub (.mul (.rd (.var .jTemp)) (.num 96401946491474821 17)) (.mul (.rd (.var .kr)) (.rd (.arr .C 5)))))),
  .set (.arr .jac 44) (.add (.rd (.arr .jac 44)) (.sub (.mul (.rd (.var .jTemp)) (.num 96401946491474821 17)) (.mul (.rd (.var .kr)) (.rd (.arr .C 5))))),
  .set (.arr .jac 47) (.add (.rd (.arr .jac 47)) (.mul (.neg (.num 16873365478103853 15)) (.sub (.mul (.rd (.var .jTemp)) (.num 96401946491474821 17)) (.mul (.rd (.var .kr)) (.rd (.arr .C 5)))))),
  .set (.arr .jac 48) (.add (.rd (.arr .jac 48)) (.mul (.num 17873365478103857 15) (.sub (.mul (.rd (.var .jTemp)) (.num 96401946491474821 17)) (.mul (.rd (.var .kr)) (.rd (.arr .C 5)))))),
  .set (.arr .jac 64) (.add (.rd (.arr .jac 64)) (.mul (.neg (.num 1259972248959336 16)) (.mul (.rd (.var .jTemp)) (.num 42886781649405936 17)))),
  .set (.arr .jac 65) (.add (.rd (.arr .jac 65)) (.mul (.num 62998612447966798 18) (.mul (.rd (.var .jTemp)) (.num 42886781649405936 17)))),
  .set (.arr .jac 68) (.add (.rd (.arr .jac 68)) (.mul (.neg (.num 10629986124479667 16)) (.mul (.rd (.var .jTemp)) (.num 42886781649405936 17)))),
  .set (.arr .jac 69) (.add (.rd (.arr .jac 69)) (.mul (.num 11259972248959336 16) (.mul (.rd (.var .jTemp)) (.num 42886781649405936 17)))),
  .set (.arr .jac 85) (.add (.rd (.arr .jac 85)) (.mul (.neg (.num 62998612447966798 18)) (.mul (.rd (.var .jTemp)) (.neg (.num 14226436701188128 17))))),
  .set (.arr .jac 86) (.add (.rd (.arr .jac 86)) (.mul (.num 31499306223983399 18) (.mul (.rd (.var .jTemp)) (.neg (.num 14226436701188128 17))))),
  .set (.arr .jac 89) (.add (.rd (.arr .jac 89)) (.mul (.neg (.num 53149930622398334 17)) (.mul (.rd (.var .jTemp)) (.neg (.num 14226436701188128 17))))),
  .set (.arr .jac 90) (.add (.rd (.arr .jac 90)) (.mul (.num 56299861244796678 17) (.mul (.rd (.var .jTemp)) (.neg (.num 14226436701188128 17))))),
  .set (.arr .jac 106) (.add (.rd (.arr .jac 106)) (.mul (.neg (.num 11852999940025896 17)) (.add (.mul (.rd (.var .jTemp)) (.num 39288728140880758 17)) (.mul (.rd (.var .kf)) (.rd (.arr .C 0)))))),
  .set (.arr .jac 107) (.add (.rd (.arr .jac 107)) (.mul (.num 59264999700129481 18) (.add (.mul (.rd (.var .jTemp)) (.num 39288728140880758 17)) (.mul (.rd (.var .kf)) (.rd (.arr .C 0)))))),
  .set (.arr .jac 110) (.add (.rd (.arr .jac 110)) (.neg (.add (.mul (.rd (.var .jTemp)) (.num 39288728140880758 17)) (.mul (.rd (.var .kf)) (.rd (.arr .C 0)))))),
  .set (.arr .jac 111) (.add (.rd (.arr .jac 111)) (.mul (.num 10592649997001296 16) (.add (.mul (.rd (.var .jTemp)) (.num 39288728140880758 17)) (.mul (.rd (.var .kf)) (.rd (.arr .C 0)))))),
  .set (.arr .jac 127) (.add (.rd (.arr .jac 127)) (.mul (.neg (.num 11189834407236524 17)) (.sub (.mul (.rd (.var .jTemp)) (.num 35690674632355568 17)) (.mul (.rd (.var .kr)) (.rd (.arr .C 1)))))),
  .set (.arr .jac 128) (.add (.rd (.arr .jac 128)) (.mul (.num 55949172036182618 18) (.sub (.mul (.rd (.var .jTemp)) (.num 35690674632355568 17)) (.mul (.rd (.var .kr)) (.rd (.arr .C 1)))))),
  .set (.arr .jac 131) (.add (.rd (.arr .jac 131)) (.mul (.neg (.num 94405082796381734 17)) (.sub (.mul (.rd (.var .jTemp)) (.num 35690674632355568 17)) (.mul (.rd (.var .kr)) (.rd (.arr .C 1)))))),
  .set (.arr .jac 132) (.add (.rd (.arr .jac 132)) (.sub (.mul (.rd (.var .jTemp)) (.num 35690674632355568 17)) (.mul (.rd (.var .kr)) (.rd (.arr .C 1))))),
  .set (.arr .jac 148) (.add (.rd (.arr .jac 148)) (.mul (.neg (.num 61074798662333819 18)) (.mul (.rd (.var .jTemp)) (.neg (.num 17824490209713328 17))))),
  .set (.arr .jac 149) (.add (.rd (.arr .jac 149)) (.mul (.num 3053739933116691 17) (.mul (.rd (.var .jTemp)) (.neg (.num 17824490209713328 17))))),
  .set (.arr .jac 152) (.add (.rd (.arr .jac 152)) (.mul (.neg (.num 51526869966558342 17)) (.mul (.rd (.var .jTemp)) (.neg (.num 17824490209713328 17))))),
  .set (.arr .jac 153) (.add (.rd (.arr .jac 153)) (.mul (.num 54580609899675037 17) (.mul (.rd (.var .jTemp)) (.neg (.num 17824490209713328 17))))),
  .set (.arr .jac 169) (.add (.rd (.arr .jac 169)) (.mul (.neg (.num 14371549482137155 17)) (.mul (.rd (.var .jTemp)) (.num 49928106040377707 17)))),
  .set (.arr .jac 170) (.add (.rd (.arr .jac 170)) (.mul (.num 71857747410685777 18) (.mul (.rd (.var .jTemp)) (.num 49928106040377707 17)))),
  .set (.arr .jac 173) (.add (.rd (.arr .jac 173)) (.mul (.neg (.num 12124820344937721 16)) (.mul (.rd (.var .jTemp)) (.num 49928106040377707 17)))),
  .set (.arr .jac 174) (.add (.rd (.arr .jac 174)) (.mul (.num 1284339781904458 15) (.mul (.rd (.var .jTemp)) (.num 49928106040377707 17)))),
  .set (.arr .jac 190) (.add (.rd (.arr .jac 190)) (.mul (.neg (.num 14371549482137155 17)) (.mul (.rd (.var .jTemp)) (.num 49928106040377707 17)))),
  .set (.arr .jac 191) (.add (.rd (.arr .jac 191)) (.mul (.num 71857747410685777 18) (.mul (.rd (.var .jTemp)) (.num 49928106040377707 17)))),
  .set (.arr .jac 194) (.add (.rd (.arr .jac 194)) (.mul (.neg (.num 12124820344937721 16)) (.mul (.rd (.var .jTemp)) (.num 49928106040377707 17)))),
  .set (.arr .jac 195) (.add (.rd (.arr .jac 195)) (.mul (.num 1284339781904458 15) (.mul (.rd (.var .jTemp)) (.num 49928106040377707 17)))),
  .set (.arr .jac 211) (.add (.rd (.arr .jac 211)) (.mul (.neg (.num 13408075387666762 17)) (.mul (.rd (.var .jTemp)) (.num 46330052531852528 17)))),
  .set (.arr .jac 212) (.add (.rd (.arr .jac 212)) (.mul (.num 67040376938333812 18) (.mul (.rd (.var .jTemp)) (.num 46330052531852528 17)))),
  .set (.arr .jac 215) (.add (.rd (.arr .jac 215)) (.mul (.neg (.num 11311967818703517 16)) (.mul (.rd (.var .jTemp)) (.num 46330052531852528 17)))),
  .set (.arr .jac 216) (.add (.rd (.arr .jac 216)) (.mul (.num 11982371588086855 16) (.mul (.rd (.var .jTemp)) (.num 46330052531852528 17)))),
  .set (.arr .jac 232) (.add (.rd (.arr .jac 232)) (.mul (.neg (.num 12565668251597606 17)) (.mul (.rd (.var .jTemp)) (.num 42731999023327338 17)))),
  .set (.arr .jac 233) (.add (.rd (.arr .jac 233)) (.mul (.num 6282834125798803 17) (.mul (.rd (.var .jTemp)) (.num 42731999023327338 17)))),
  .set (.arr .jac 236) (.add (.rd (.arr .jac 236)) (.mul (.neg (.num 10601255644290632 16)) (.mul (.rd (.var .jTemp)) (.num 42731999023327338 17)))),
  .set (.arr .jac 237) (.add (.rd (.arr .jac 237)) (.mul (.num 11229539056870512 16) (.mul (.rd (.var .jTemp)) (.num 42731999023327338 17)))),
  .set (.arr .jac 253) (.add (.rd (.arr .jac 253)) (.mul (.neg (.num 7196898294919031 17)) (.mul (.rd (.var .jTemp)) (.num 10994706834011048 20)))),
  .set (.arr .jac 254) (.add (.rd (.arr .jac 254)) (.mul (.num 35984491474595155 18) (.mul (.rd (.var .jTemp)) (.num 10994706834011048 20)))),
  .set (.arr .jac 257) (.add (.rd (.arr .jac 257)) (.mul (.neg (.num 60717947619455637 17)) (.mul (.rd (.var .jTemp)) (.num 10994706834011048 20)))),
  .set (.arr .jac 258) (.add (.rd (.arr .jac 258)) (.mul (.num 64316396766915152 17) (.mul (.rd (.var .jTemp)) (.num 10994706834011048 20)))),
  .set (.arr .jac 274) (.add (.rd (.arr .jac 274)) (.mul (.neg (.num 45805252466496103 18)) (.mul (.rd (.var .jTemp)) (.neg (.num 57102223643760053 17))))),
  .set (.arr .jac 275) (.add (.rd (.arr .jac 275)) (.mul (.num 22902626233248052 18) (.mul (.rd (.var .jTemp)) (.neg (.num 57102223643760053 17))))),
  .set (.arr .jac 278) (.add (.rd (.arr .jac 278)) (.mul (.neg (.num 38644438284200339 17)) (.mul (.rd (.var .jTemp)) (.neg (.num 57102223643760053 17))))),
  .set (.arr .jac 279) (.add (.rd (.arr .jac 279)) (.mul (.num 40934700907525146 17) (.mul (.rd (.var .jTemp)) (.neg (.num 57102223643760053 17))))),
  .set (.arr .jac 295) (.add (.rd (.arr .jac 295)) (.mul (.neg (.num 69469170186854251 18)) (.mul (.rd (.var .jTemp)) (.neg (.num 35870588016911675 18))))),
  .set (.arr .jac 296) (.add (.rd (.arr .jac 296)) (.mul (.num 34734585093427126 18) (.mul (.rd (.var .jTemp)) (.neg (.num 35870588016911675 18))))),
  .set (.arr .jac 299) (.add (.rd (.arr .jac 299)) (.mul (.neg (.num 58608934901169396 17)) (.mul (.rd (.var .jTemp)) (.neg (.num 35870588016911675 18))))),
  .set (.arr .jac 300) (.add (.rd (.arr .jac 300)) (.mul (.num 62082393410512116 17) (.mul (.rd (.var .jTemp)) (.neg (.num 35870588016911675 18))))),
  .set (.arr .jac 316) (.add (.rd (.arr .jac 316)) (.mul (.neg (.num 67137187823466643 18)) (.mul (.rd (.var .jTemp)) (.neg (.num 71851123102163683 18))))),
  .set (.arr .jac 317) (.add (.rd (.arr .jac 317)) (.mul (.num 33568593911733322 18) (.mul (.rd (.var .jTemp)) (.neg (.num 71851123102163683 18))))),
  .set (.arr .jac 320) (.add (.rd (.arr .jac 320)) (.mul (.neg (.num 5664151536587283 16)) (.mul (.rd (.var .jTemp)) (.neg (.num 71851123102163683 18))))),
  .set (.arr .jac 321) (.add (.rd (.arr .jac 321)) (.mul (.num 59998374757046158 17) (.mul (.rd (.var .jTemp)) (.neg (.num 71851123102163683 18))))),
  .set (.arr .jac 337) (.add (.rd (.arr .jac 337)) (.mul (.neg (.num 64956683299918619 18)) (.mul (.rd (.var .jTemp)) (.neg (.num 10783165818741525 17))))),
  .set (.arr .jac 338) (.add (.rd (.arr .jac 338)) (.mul (.num 32478341649959309 18) (.mul (.rd (.var .jTemp)) (.neg (.num 10783165818741525 17))))),
  .set (.arr .jac 341) (.add (.rd (.arr .jac 341)) (.mul (.neg (.num 54801892878248593 17)) (.mul (.rd (.var .jTemp)) (.neg (.num 10783165818741525 17))))),
  .set (.arr .jac 342) (.add (.rd (.arr .jac 342)) (.mul (.num 58049727043244526 17) (.mul (.rd (.var .jTemp)) (.neg (.num 10783165818741525 17))))),
  .set (.arr .jac 358) (.add (.rd (.arr .jac 358)) (.mul (.neg (.num 71857747410685777 18)) (.mul (.rd (.var .jTemp)) (.neg (.num 14378791924458678 19))))),
  .set (.arr .jac 359) (.add (.rd (.arr .jac 359)) (.mul (.num 35928873705342888 18) (.mul (.rd (.var .jTemp)) (.neg (.num 14378791924458678 19))))),
  .set (.arr .jac 362) (.add (.rd (.arr .jac 362)) (.mul (.neg (.num 60624101724688606 17)) (.mul (.rd (.var .jTemp)) (.neg (.num 14378791924458678 19))))),
  .set (.arr .jac 363) (.add (.rd (.arr .jac 363)) (.mul (.num 64216989095222898 17) (.mul (.rd (.var .jTemp)) (.neg (.num 14378791924458678 19))))),
  .set (.arr .jac 379) (.add (.rd (.arr .jac 379)) (.mul (.neg (.num 6936552231975418 17)) (.mul (.rd (.var .jTemp)) (.neg (.num 37418414277697654 18))))),
  .set (.arr .jac 380) (.add (.rd (.arr .jac 380)) (.mul (.num 3468276115987709 17) (.mul (.rd (.var .jTemp)) (.neg (.num 37418414277697654 18))))),
  .set (.arr .jac 383) (.add (.rd (.arr .jac 383)) (.mul (.neg (.num 58521490484039129 17)) (.mul (.rd (.var .jTemp)) (.neg (.num 37418414277697654 18))))),
  .set (.arr .jac 384) (.add (.rd (.arr .jac 384)) (.mul (.num 61989766600026841 17) (.mul (.rd (.var .jTemp)) (.neg (.num 37418414277697654 18))))),
  .set (.arr .jac 400) (.add (.rd (.arr .jac 400)) (.mul (.neg (.num 67040376938333812 18)) (.mul (.rd (.var .jTemp)) (.neg (.num 73398949362949439 18))))),
  .set (.arr .jac 401) (.add (.rd (.arr .jac 401)) (.mul (.num 33520188469166906 18) (.mul (.rd (.var .jTemp)) (.neg (.num 73398949362949439 18))))),
  .set (.arr .jac 404) (.add (.rd (.arr .jac 404)) (.mul (.neg (.num 56559839093517583 17)) (.mul (.rd (.var .jTemp)) (.neg (.num 73398949362949439 18))))),
  .set (.arr .jac 405) (.add (.rd (.arr .jac 405)) (.mul (.num 59911857940434277 17) (.mul (.rd (.var .jTemp)) (.neg (.num 73398949362949439 18))))),
  .set (.arr .jac 421) (.add (.rd (.arr .jac 421)) (.mul (.neg (.num 5046260138179634 17)) (.mul (.rd (.var .jTemp)) (.neg (.num 42602775520927771 17))))),
  .set (.arr .jac 422) (.add (.rd (.arr .jac 422)) (.mul (.num 2523130069089817 17) (.mul (.rd (.var .jTemp)) (.neg (.num 42602775520927771 17))))),
  .set (.arr .jac 425) (.add (.rd (.arr .jac 425)) (.mul (.neg (.num 42573695804545908 17)) (.mul (.rd (.var .jTemp)) (.neg (.num 42602775520927771 17))))),
  .set (.arr .jac 426) (.add (.rd (.arr .jac 426)) (.mul (.num 45096825873635726 17) (.mul (.rd (.var .jTemp)) (.neg (.num 42602775520927771 17)))))]

/-- utilities/mechanisms/drm19/lib/src/jacobs/jacob_1.c:203-208 -/
def jacobT42 : List CStmt := [
  .set (.var .jTemp) (.mul (.mul (.div (.num 1 0) (.rd (.var .T))) (.sub (.add (.mul (.sub (.rd (.arr .fwd 42)) (.rd (.arr .rev 42))) (.add (.num 23999999999999999 16) (.div (.neg (.num 10617932818528332 13)) (.rd (.var .T))))) (.mul (.rd (.arr .fwd 42)) (.neg (.num 1 0)))) (.mul (.rd (.arr .rev 42)) (.add (.neg (.num 1 0)) (.mul (.neg (.rd (.var .T))) (.sub (.add (.rd (.arr .dBdT 5)) (.rd (.arr .dBdT 2))) (.mul (.num 2 0) (.rd (.arr .dBdT 4))))))))) (.rd (.var .rhoInv))),
  .set (.arr .jac 3) (.add (.rd (.arr .jac 3)) (.mul (.rd (.var .jTemp)) (.num 159994 4))),
  .set (.arr .jac 5) (.add (.rd (.arr .jac 5)) (.mul (.mul (.rd (.var .jTemp)) (.neg (.num 2 0))) (.num 17007339999999999 15))),
  .set (.arr .jac 6) (.add (.rd (.arr .jac 6)) (.mul (.rd (.var .jTemp)) (.num 18015280000000001 15)))]

/-- utilities/mechanisms/drm19/lib/src/jacobs/jacob_1.c:209-280 -/
def jacobS42 : List CStmt := [
  .ite (.rd (.var .T)) (.num 1000 0) (.var .Kc) (.sub (.add (.add (.num 20278753680000001 16) (.mul (.neg (.num 61712319999999954 17)) (.rd (.var .logT)))) (.mul (.rd (.var .T)) (.add (.neg (.num 25655894999999994 20)) (.mul (.rd (.var .T)) (.add (.num 65459820833333341 23) (.mul (.rd (.var .T)) (.add (.neg (.num 32114751666666664 26)) (.mul (.num 57820423999999999 30) (.rd (.var .T)))))))))) (.div (.neg (.num 84016286199999995 13)) (.rd (.var .T)))) (.sub (.add (.add (.num 13800786099999995 16) (.mul (.neg (.num 58236206999999984 17)) (.rd (.var .logT)))) (.mul (.rd (.var .T)) (.add (.num 49704224715000007 20) (.mul (.rd (.var .T)) (.add (.neg (.num 62522419183333327 24)) (.mul (.rd (.var .T)) (.add (.num 57360453583333335 28) (.mul (.neg (.num 27170195449999994 32)) (.rd (.var .T)))))))))) (.div (.neg (.num 85040320000000029 13)) (.rd (.var .T)))),
  .set (.var .Kc) (.exp (.rd (.var .Kc))),
  .set (.var .jTemp) (.mul (.mul (.neg (.rd (.var .mwAvg))) (.rd (.var .rhoInv))) (.sub (.mul (.num 2 0) (.rd (.arr .fwd 42))) (.mul (.num 2 0) (.rd (.arr .rev 42))))),
  .set (.var .kf) (.exp (.sub (.add (.num 35751506887855933 16) (.mul (.num 24 1) (.rd (.var .logT)))) (.div (.neg (.num 10617932818528332 13)) (.rd (.var .T))))),
  .set (.var .kr) (.div (.rd (.var .kf)) (.rd (.var .Kc))),
  .set (.arr .jac 24) (.add (.rd (.arr .jac 24)) (.mul (.num 79366827390519274 16) (.mul (.rd (.var .jTemp)) (.num 92803892982949643 17)))),
  .set (.arr .jac 26) (.add (.rd (.arr .jac 26)) (.mul (.neg (.num 16873365478103853 15)) (.mul (.rd (.var .jTemp)) (.num 92803892982949643 17)))),
  .set (.arr .jac 27) (.add (.rd (.arr .jac 27)) (.mul (.num 89366827390519283 16) (.mul (.rd (.var .jTemp)) (.num 92803892982949643 17)))),
  .set (.arr .jac 45) (.add (.rd (.arr .jac 45)) (.mul (.num 15873365478103855 15) (.mul (.rd (.var .jTemp)) (.num 96401946491474821 17)))),
  .set (.arr .jac 47) (.add (.rd (.arr .jac 47)) (.mul (.neg (.num 33746730956207706 15)) (.mul (.rd (.var .jTemp)) (.num 96401946491474821 17)))),
  .set (.arr .jac 48) (.add (.rd (.arr .jac 48)) (.mul (.num 17873365478103857 15) (.mul (.rd (.var .jTemp)) (.num 96401946491474821 17)))),
  .set (.arr .jac 66) (.add (.rd (.arr .jac 66)) (.sub (.mul (.rd (.var .jTemp)) (.num 42886781649405936 17)) (.mul (.rd (.var .kr)) (.rd (.arr .C 5))))),
  .set (.arr .jac 68) (.add (.rd (.arr .jac 68)) (.mul (.neg (.num 21259972248959333 16)) (.sub (.mul (.rd (.var .jTemp)) (.num 42886781649405936 17)) (.mul (.rd (.var .kr)) (.rd (.arr .C 5)))))),
  .set (.arr .jac 69) (.add (.rd (.arr .jac 69)) (.mul (.num 11259972248959336 16) (.sub (.mul (.rd (.var .jTemp)) (.num 42886781649405936 17)) (.mul (.rd (.var .kr)) (.rd (.arr .C 5)))))),
  .set (.arr .jac 87) (.add (.rd (.arr .jac 87)) (.mul (.num 5 1) (.mul (.rd (.var .jTemp)) (.neg (.num 14226436701188128 17))))),
  .set (.arr .jac 89) (.add (.rd (.arr .jac 89)) (.mul (.neg (.num 10629986124479667 16)) (.mul (.rd (.var .jTemp)) (.neg (.num 14226436701188128 17))))),
  .set (.arr .jac 90) (.add (.rd (.arr .jac 90)) (.mul (.num 56299861244796678 17) (.mul (.rd (.var .jTemp)) (.neg (.num 14226436701188128 17))))),
  .set (.arr .jac 108) (.add (.rd (.arr .jac 108)) (.mul (.num 94073500029987056 17) (.add (.mul (.rd (.var .jTemp)) (.num 39288728140880758 17)) (.mul (.mul (.rd (.var .kf)) (.num 2 0)) (.rd (.arr .C 4)))))),
  .set (.arr .jac 110) (.add (.rd (.arr .jac 110)) (.mul (.neg (.num 2 0)) (.add (.mul (.rd (.var .jTemp)) (.num 39288728140880758 17)) (.mul (.mul (.rd (.var .kf)) (.num 2 0)) (.rd (.arr .C 4)))))),
  .set (.arr .jac 111) (.add (.rd (.arr .jac 111)) (.mul (.num 10592649997001296 16) (.add (.mul (.rd (.var .jTemp)) (.num 39288728140880758 17)) (.mul (.mul (.rd (.var .kf)) (.num 2 0)) (.rd (.arr .C 4)))))),
  .set (.arr .jac 129) (.add (.rd (.arr .jac 129)) (.mul (.num 88810165592763468 17) (.sub (.mul (.rd (.var .jTemp)) (.num 35690674632355568 17)) (.mul (.rd (.var .kr)) (.rd (.arr .C 2)))))),
  .set (.arr .jac 131) (.add (.rd (.arr .jac 131)) (.mul (.neg (.num 18881016559276347 16)) (.sub (.mul (.rd (.var .jTemp)) (.num 35690674632355568 17)) (.mul (.rd (.var .kr)) (.rd (.arr .C 2)))))),
  .set (.arr .jac 132) (.add (.rd (.arr .jac 132)) (.sub (.mul (.rd (.var .jTemp)) (.num 35690674632355568 17)) (.mul (.rd (.var .kr)) (.rd (.arr .C 2))))),
  .set (.arr .jac 150) (.add (.rd (.arr .jac 150)) (.mul (.num 48473130033441653 17) (.mul (.rd (.var .jTemp)) (.neg (.num 17824490209713328 17))))),
  .set (.arr .jac 152) (.add (.rd (.arr .jac 152)) (.mul (.neg (.num 10305373993311668 16)) (.mul (.rd (.var .jTemp)) (.neg (.num 17824490209713328 17))))),
  .set (.arr .jac 153) (.add (.rd (.arr .jac 153)) (.mul (.num 54580609899675037 17) (.mul (.rd (.var .jTemp)) (.neg (.num 17824490209713328 17))))),
  .set (.arr .jac 171) (.add (.rd (.arr .jac 171)) (.mul (.num 11406242870830863 16) (.mul (.rd (.var .jTemp)) (.num 49928106040377707 17)))),
  .set (.arr .jac 173) (.add (.rd (.arr .jac 173)) (.mul (.neg (.num 24249640689875442 16)) (.mul (.rd (.var .jTemp)) (.num 49928106040377707 17)))),
  .set (.arr .jac 174) (.add (.rd (.arr .jac 174)) (.mul (.num 1284339781904458 15) (.mul (.rd (.var .jTemp)) (.num 49928106040377707 17)))),
  .set (.arr .jac 192) (.add (.rd (.arr .jac 192)) (.mul (.num 11406242870830863 16) (.mul (.rd (.var .jTemp)) (.num 49928106040377707 17)))),
  .set (.arr .jac 194) (.add (.rd (.arr .jac 194)) (.mul (.neg (.num 24249640689875442 16)) (.mul (.rd (.var .jTemp)) (.num 49928106040377707 17)))),
  .set (.arr .jac 195) (.add (.rd (.arr .jac 195)) (.mul (.num 1284339781904458 15) (.mul (.rd (.var .jTemp)) (.num 49928106040377707 17)))),
  .set (.arr .jac 213) (.add (.rd (.arr .jac 213)) (.mul (.num 10641564049320178 16) (.mul (.rd (.var .jTemp)) (.num 46330052531852528 17)))),
  .set (.arr .jac 215) (.add (.rd (.arr .jac 215)) (.mul (.neg (.num 22623935637407033 16)) (.mul (.rd (.var .jTemp)) (.num 46330052531852528 17)))),
  .set (.arr .jac 216) (.add (.rd (.arr .jac 216)) (.mul (.num 11982371588086855 16) (.mul (.rd (.var .jTemp)) (.num 46330052531852528 17)))),
  .set (.arr .jac 234) (.add (.rd (.arr .jac 234)) (.mul (.num 99729722317107516 17) (.mul (.rd (.var .jTemp)) (.num 42731999023327338 17)))),
  .set (.arr .jac 236) (.add (.rd (.arr .jac 236)) (.mul (.neg (.num 21202511288581265 16)) (.mul (.rd (.var .jTemp)) (.num 42731999023327338 17)))),
  .set (.arr .jac 237) (.add (.rd (.arr .jac 237)) (.mul (.num 11229539056870512 16) (.mul (.rd (.var .jTemp)) (.num 42731999023327338 17)))),
  .set (.arr .jac 255) (.add (.rd (.arr .jac 255)) (.mul (.num 57119498471996122 17) (.mul (.rd (.var .jTemp)) (.num 10994706834011048 20)))),
  .set (.arr .jac 257) (.add (.rd (.arr .jac 257)) (.mul (.neg (.num 12143589523891127 16)) (.mul (.rd (.var .jTemp)) (.num 10994706834011048 20)))),
  .set (.arr .jac 258) (.add (.rd (.arr .jac 258)) (.mul (.num 64316396766915152 17) (.mul (.rd (.var .jTemp)) (.num 10994706834011048 20)))),
  .set (.arr .jac 276) (.add (.rd (.arr .jac 276)) (.mul (.num 36354175660875532 17) (.mul (.rd (.var .jTemp)) (.neg (.num 57102223643760053 17))))),
  .set (.arr .jac 278) (.add (.rd (.arr .jac 278)) (.mul (.neg (.num 77288876568400677 17)) (.mul (.rd (.var .jTemp)) (.neg (.num 57102223643760053 17))))),
  .set (.arr .jac 279) (.add (.rd (.arr .jac 279)) (.mul (.num 40934700907525146 17) (.mul (.rd (.var .jTemp)) (.neg (.num 57102223643760053 17))))),
  .set (.arr .jac 297) (.add (.rd (.arr .jac 297)) (.mul (.num 55135476391826688 17) (.mul (.rd (.var .jTemp)) (.neg (.num 35870588016911675 18))))),
  .set (.arr .jac 299) (.add (.rd (.arr .jac 299)) (.mul (.neg (.num 11721786980233879 16)) (.mul (.rd (.var .jTemp)) (.neg (.num 35870588016911675 18))))),
  .set (.arr .jac 300) (.add (.rd (.arr .jac 300)) (.mul (.num 62082393410512116 17) (.mul (.rd (.var .jTemp)) (.neg (.num 35870588016911675 18))))),
  .set (.arr .jac 318) (.add (.rd (.arr .jac 318)) (.mul (.num 53284655974699491 17) (.mul (.rd (.var .jTemp)) (.neg (.num 71851123102163683 18))))),
  .set (.arr .jac 320) (.add (.rd (.arr .jac 320)) (.mul (.neg (.num 11328303073174566 16)) (.mul (.rd (.var .jTemp)) (.neg (.num 71851123102163683 18))))),
  .set (.arr .jac 321) (.add (.rd (.arr .jac 321)) (.mul (.num 59998374757046158 17) (.mul (.rd (.var .jTemp)) (.neg (.num 71851123102163683 18))))),
  .set (.arr .jac 339) (.add (.rd (.arr .jac 339)) (.mul (.num 5155405871325266 16) (.mul (.rd (.var .jTemp)) (.neg (.num 10783165818741525 17))))),
  .set (.arr .jac 341) (.add (.rd (.arr .jac 341)) (.mul (.neg (.num 10960378575649719 16)) (.mul (.rd (.var .jTemp)) (.neg (.num 10783165818741525 17))))),
  .set (.arr .jac 342) (.add (.rd (.arr .jac 342)) (.mul (.num 58049727043244526 17) (.mul (.rd (.var .jTemp)) (.neg (.num 10783165818741525 17))))),
  .set (.arr .jac 360) (.add (.rd (.arr .jac 360)) (.mul (.num 57031214354154314 17) (.mul (.rd (.var .jTemp)) (.neg (.num 14378791924458678 19))))),
  .set (.arr .jac 362) (.add (.rd (.arr .jac 362)) (.mul (.neg (.num 12124820344937721 16)) (.mul (.rd (.var .jTemp)) (.neg (.num 14378791924458678 19))))),
  .set (.arr .jac 363) (.add (.rd (.arr .jac 363)) (.mul (.num 64216989095222898 17) (.mul (.rd (.var .jTemp)) (.neg (.num 14378791924458678 19))))),
  .set (.arr .jac 381) (.add (.rd (.arr .jac 381)) (.mul (.num 55053214368051429 17) (.mul (.rd (.var .jTemp)) (.neg (.num 37418414277697654 18))))),
  .set (.arr .jac 383) (.add (.rd (.arr .jac 383)) (.mul (.neg (.num 11704298096807826 16)) (.mul (.rd (.var .jTemp)) (.neg (.num 37418414277697654 18))))),
  .set (.arr .jac 384) (.add (.rd (.arr .jac 384)) (.mul (.num 61989766600026841 17) (.mul (.rd (.var .jTemp)) (.neg (.num 37418414277697654 18))))),
  .set (.arr .jac 402) (.add (.rd (.arr .jac 402)) (.mul (.num 5320782024660089 16) (.mul (.rd (.var .jTemp)) (.neg (.num 73398949362949439 18))))),
  .set (.arr .jac 404) (.add (.rd (.arr .jac 404)) (.mul (.neg (.num 11311967818703517 16)) (.mul (.rd (.var .jTemp)) (.neg (.num 73398949362949439 18))))),
  .set (.arr .jac 405) (.add (.rd (.arr .jac 405)) (.mul (.num 59911857940434277 17) (.mul (.rd (.var .jTemp)) (.neg (.num 73398949362949439 18))))),
  .set (.arr .jac 423) (.add (.rd (.arr .jac 423)) (.mul (.num 4005056573545609 16) (.mul (.rd (.var .jTemp)) (.neg (.num 42602775520927771 17))))),
  .set (.arr .jac 425) (.add (.rd (.arr .jac 425)) (.mul (.neg (.num 85147391609091816 17)) (.mul (.rd (.var .jTemp)) (.neg (.num 42602775520927771 17))))),
  .set (.arr .jac 426) (.add (.rd (.arr .jac 426)) (.mul (.num 45096825873635726 17) (.mul (.rd (.var .jTemp)) (.neg (.num 42602775520927771 17)))))]

/-- utilities/mechanisms/drm19/lib/src/jacobs/jacob_1.c:281-287 -/
def jacobT43 : List CStmt := [
  .set (.var .jTemp) (.mul (.mul (.div (.num 1 0) (.rd (.var .T))) (.sub (.add (.mul (.sub (.rd (.arr .fwd 43)) (.rd (.arr .rev 43))) (.div (.neg (.num 25160978242958132 14)) (.rd (.var .T)))) (.mul (.rd (.arr .fwd 43)) (.neg (.num 1 0)))) (.mul (.rd (.arr .rev 43)) (.add (.neg (.num 1 0)) (.mul (.neg (.rd (.var .T))) (.sub (.sub (.add (.rd (.arr .dBdT 5)) (.rd (.arr .dBdT 3))) (.rd (.arr .dBdT 6))) (.rd (.arr .dBdT 4)))))))) (.rd (.var .rhoInv))),
  .set (.arr .jac 4) (.add (.rd (.arr .jac 4)) (.mul (.rd (.var .jTemp)) (.num 31998799999999999 15))),
  .set (.arr .jac 5) (.add (.rd (.arr .jac 5)) (.mul (.neg (.rd (.var .jTemp))) (.num 17007339999999999 15))),
  .set (.arr .jac 6) (.add (.rd (.arr .jac 6)) (.mul (.rd (.var .jTemp)) (.num 18015280000000001 15))),
  .set (.arr .jac 7) (.add (.rd (.arr .jac 7)) (.mul (.neg (.rd (.var .jTemp))) (.num 33006740000000001 15)))]

/-- utilities/mechanisms/drm19/lib/src/jacobs/jacob_1.c:288-379 -/
def jacobS43 : List CStmt := [
  .ite (.rd (.var .T)) (.num 1000 0) (.var .Kc) (.sub (.add (.add (.neg (.num 49137694999999981 17)) (.mul (.neg (.num 3127165199999995 16)) (.rd (.var .logT)))) (.mul (.rd (.var .T)) (.add (.num 10586348849999999 19) (.mul (.rd (.var .T)) (.add (.neg (.num 15680872316666664 22)) (.mul (.rd (.var .T)) (.add (.num 10823547516666667 25) (.mul (.neg (.num 28203297000000007 29)) (.rd (.var .T)))))))))) (.div (.neg (.num 35267558860000005 12)) (.rd (.var .T)))) (.sub (.add (.add (.num 29517713799999998 16) (.mul (.neg (.num 79356824000000037 17)) (.rd (.var .logT)))) (.mul (.rd (.var .T)) (.add (.num 4358778670000001 19) (.mul (.rd (.var .T)) (.add (.neg (.num 69147710833333326 24)) (.mul (.rd (.var .T)) (.add (.num 71773627999999992 28) (.mul (.neg (.num 29010321499999993 32)) (.rd (.var .T)))))))))) (.div (.neg (.num 35063268533000002 12)) (.rd (.var .T)))),
  .set (.var .Kc) (.exp (.rd (.var .Kc))),
  .set (.var .jTemp) (.mul (.mul (.neg (.rd (.var .mwAvg))) (.rd (.var .rhoInv))) (.sub (.mul (.num 2 0) (.rd (.arr .fwd 43))) (.mul (.num 2 0) (.rd (.arr .rev 43))))),
  .set (.var .kf) (.exp (.sub (.num 24090561666932885 15) (.div (.neg (.num 25160978242958132 14)) (.rd (.var .T))))),
  .set (.var .kr) (.div (.rd (.var .kf)) (.rd (.var .Kc))),
  .set (.arr .jac 25) (.add (.rd (.arr .jac 25)) (.mul (.num 15873365478103855 15) (.mul (.rd (.var .jTemp)) (.num 92803892982949643 17)))),
  .set (.arr .jac 26) (.add (.rd (.arr .jac 26)) (.mul (.neg (.num 84366827390519266 16)) (.mul (.rd (.var .jTemp)) (.num 92803892982949643 17)))),
  .set (.arr .jac 27) (.add (.rd (.arr .jac 27)) (.mul (.num 89366827390519283 16) (.mul (.rd (.var .jTemp)) (.num 92803892982949643 17)))),
  .set (.arr .jac 28) (.add (.rd (.arr .jac 28)) (.mul (.neg (.num 16373365478103853 15)) (.mul (.rd (.var .jTemp)) (.num 92803892982949643 17)))),
  .set (.arr .jac 46) (.add (.rd (.arr .jac 46)) (.mul (.num 3174673095620771 14) (.mul (.rd (.var .jTemp)) (.num 96401946491474821 17)))),
  .set (.arr .jac 47) (.add (.rd (.arr .jac 47)) (.mul (.neg (.num 16873365478103853 15)) (.mul (.rd (.var .jTemp)) (.num 96401946491474821 17)))),
  .set (.arr .jac 48) (.add (.rd (.arr .jac 48)) (.mul (.num 17873365478103857 15) (.mul (.rd (.var .jTemp)) (.num 96401946491474821 17)))),
  .set (.arr .jac 49) (.add (.rd (.arr .jac 49)) (.mul (.neg (.num 32746730956207706 15)) (.mul (.rd (.var .jTemp)) (.num 96401946491474821 17)))),
  .set (.arr .jac 67) (.add (.rd (.arr .jac 67)) (.mul (.num 2 0) (.mul (.rd (.var .jTemp)) (.num 42886781649405936 17)))),
  .set (.arr .jac 68) (.add (.rd (.arr .jac 68)) (.mul (.neg (.num 10629986124479667 16)) (.mul (.rd (.var .jTemp)) (.num 42886781649405936 17)))),
  .set (.arr .jac 69) (.add (.rd (.arr .jac 69)) (.mul (.num 11259972248959336 16) (.mul (.rd (.var .jTemp)) (.num 42886781649405936 17)))),
  .set (.arr .jac 70) (.add (.rd (.arr .jac 70)) (.mul (.neg (.num 20629986124479669 16)) (.mul (.rd (.var .jTemp)) (.num 42886781649405936 17)))),
  .set (.arr .jac 88) (.add (.rd (.arr .jac 88)) (.sub (.mul (.rd (.var .jTemp)) (.neg (.num 14226436701188128 17))) (.mul (.rd (.var .kr)) (.rd (.arr .C 5))))),
  .set (.arr .jac 89) (.add (.rd (.arr .jac 89)) (.mul (.neg (.num 53149930622398334 17)) (.sub (.mul (.rd (.var .jTemp)) (.neg (.num 14226436701188128 17))) (.mul (.rd (.var .kr)) (.rd (.arr .C 5)))))),
  .set (.arr .jac 90) (.add (.rd (.arr .jac 90)) (.mul (.num 56299861244796678 17) (.sub (.mul (.rd (.var .jTemp)) (.neg (.num 14226436701188128 17))) (.mul (.rd (.var .kr)) (.rd (.arr .C 5)))))),
  .set (.arr .jac 91) (.add (.rd (.arr .jac 91)) (.mul (.neg (.num 10314993062239834 16)) (.sub (.mul (.rd (.var .jTemp)) (.neg (.num 14226436701188128 17))) (.mul (.rd (.var .kr)) (.rd (.arr .C 5)))))),
  .set (.arr .jac 109) (.add (.rd (.arr .jac 109)) (.mul (.num 18814700005997411 16) (.add (.mul (.rd (.var .jTemp)) (.num 39288728140880758 17)) (.mul (.rd (.var .kf)) (.rd (.arr .C 6)))))),
  .set (.arr .jac 110) (.add (.rd (.arr .jac 110)) (.neg (.add (.mul (.rd (.var .jTemp)) (.num 39288728140880758 17)) (.mul (.rd (.var .kf)) (.rd (.arr .C 6)))))),
  .set (.arr .jac 111) (.add (.rd (.arr .jac 111)) (.mul (.num 10592649997001296 16) (.add (.mul (.rd (.var .jTemp)) (.num 39288728140880758 17)) (.mul (.rd (.var .kf)) (.rd (.arr .C 6)))))),
  .set (.arr .jac 112) (.add (.rd (.arr .jac 112)) (.mul (.neg (.num 19407350002998707 16)) (.add (.mul (.rd (.var .jTemp)) (.num 39288728140880758 17)) (.mul (.rd (.var .kf)) (.rd (.arr .C 6)))))),
  .set (.arr .jac 130) (.add (.rd (.arr .jac 130)) (.mul (.num 17762033118552694 16) (.sub (.mul (.rd (.var .jTemp)) (.num 35690674632355568 17)) (.mul (.rd (.var .kr)) (.rd (.arr .C 3)))))),
  .set (.arr .jac 131) (.add (.rd (.arr .jac 131)) (.mul (.neg (.num 94405082796381734 17)) (.sub (.mul (.rd (.var .jTemp)) (.num 35690674632355568 17)) (.mul (.rd (.var .kr)) (.rd (.arr .C 3)))))),
  .set (.arr .jac 132) (.add (.rd (.arr .jac 132)) (.sub (.mul (.rd (.var .jTemp)) (.num 35690674632355568 17)) (.mul (.rd (.var .kr)) (.rd (.arr .C 3))))),
  .set (.arr .jac 133) (.add (.rd (.arr .jac 133)) (.mul (.neg (.num 1832152483891452 15)) (.sub (.mul (.rd (.var .jTemp)) (.num 35690674632355568 17)) (.mul (.rd (.var .kr)) (.rd (.arr .C 3)))))),
  .set (.arr .jac 151) (.add (.rd (.arr .jac 151)) (.mul (.num 96946260066883305 17) (.add (.mul (.rd (.var .jTemp)) (.neg (.num 17824490209713328 17))) (.mul (.rd (.var .kf)) (.rd (.arr .C 4)))))),
  .set (.arr .jac 152) (.add (.rd (.arr .jac 152)) (.mul (.neg (.num 51526869966558342 17)) (.add (.mul (.rd (.var .jTemp)) (.neg (.num 17824490209713328 17))) (.mul (.rd (.var .kf)) (.rd (.arr .C 4)))))),
  .set (.arr .jac 153) (.add (.rd (.arr .jac 153)) (.mul (.num 54580609899675037 17) (.add (.mul (.rd (.var .jTemp)) (.neg (.num 17824490209713328 17))) (.mul (.rd (.var .kf)) (.rd (.arr .C 4)))))),
  .set (.arr .jac 154) (.add (.rd (.arr .jac 154)) (.neg (.add (.mul (.rd (.var .jTemp)) (.neg (.num 17824490209713328 17))) (.mul (.rd (.var .kf)) (.rd (.arr .C 4)))))),
  .set (.arr .jac 172) (.add (.rd (.arr .jac 172)) (.mul (.num 22812485741661725 16) (.mul (.rd (.var .jTemp)) (.num 49928106040377707 17)))),
  .set (.arr .jac 173) (.add (.rd (.arr .jac 173)) (.mul (.neg (.num 12124820344937721 16)) (.mul (.rd (.var .jTemp)) (.num 49928106040377707 17)))),
  .set (.arr .jac 174) (.add (.rd (.arr .jac 174)) (.mul (.num 1284339781904458 15) (.mul (.rd (.var .jTemp)) (.num 49928106040377707 17)))),
  .set (.arr .jac 175) (.add (.rd (.arr .jac 175)) (.mul (.neg (.num 23531063215768584 16)) (.mul (.rd (.var .jTemp)) (.num 49928106040377707 17)))),
  .set (.arr .jac 193) (.add (.rd (.arr .jac 193)) (.mul (.num 22812485741661725 16) (.mul (.rd (.var .jTemp)) (.num 49928106040377707 17)))),
  .set (.arr .jac 194) (.add (.rd (.arr .jac 194)) (.mul (.neg (.num 12124820344937721 16)) (.mul (.rd (.var .jTemp)) (.num 49928106040377707 17)))),
  .set (.arr .jac 195) (.add (.rd (.arr .jac 195)) (.mul (.num 1284339781904458 15) (.mul (.rd (.var .jTemp)) (.num 49928106040377707 17)))),
  .set (.arr .jac 196) (.add (.rd (.arr .jac 196)) (.mul (.neg (.num 23531063215768584 16)) (.mul (.rd (.var .jTemp)) (.num 49928106040377707 17)))),
  .set (.arr .jac 214) (.add (.rd (.arr .jac 214)) (.mul (.num 21283128098640356 16) (.mul (.rd (.var .jTemp)) (.num 46330052531852528 17)))),
  .set (.arr .jac 215) (.add (.rd (.arr .jac 215)) (.mul (.neg (.num 11311967818703517 16)) (.mul (.rd (.var .jTemp)) (.num 46330052531852528 17)))),
  .set (.arr .jac 216) (.add (.rd (.arr .jac 216)) (.mul (.num 11982371588086855 16) (.mul (.rd (.var .jTemp)) (.num 46330052531852528 17)))),
  .set (.arr .jac 217) (.add (.rd (.arr .jac 217)) (.mul (.neg (.num 21953531868023695 16)) (.mul (.rd (.var .jTemp)) (.num 46330052531852528 17)))),
  .set (.arr .jac 235) (.add (.rd (.arr .jac 235)) (.mul (.num 19945944463421503 16) (.mul (.rd (.var .jTemp)) (.num 42731999023327338 17)))),
  .set (.arr .jac 236) (.add (.rd (.arr .jac 236)) (.mul (.neg (.num 10601255644290632 16)) (.mul (.rd (.var .jTemp)) (.num 42731999023327338 17)))),
  .set (.arr .jac 237) (.add (.rd (.arr .jac 237)) (.mul (.num 11229539056870512 16) (.mul (.rd (.var .jTemp)) (.num 42731999023327338 17)))),
  .set (.arr .jac 238) (.add (.rd (.arr .jac 238)) (.mul (.neg (.num 20574227876001383 16)) (.mul (.rd (.var .jTemp)) (.num 42731999023327338 17)))),
  .set (.arr .jac 256) (.add (.rd (.arr .jac 256)) (.mul (.num 11423899694399224 16) (.mul (.rd (.var .jTemp)) (.num 10994706834011048 20)))),
  .set (.arr .jac 257) (.add (.rd (.arr .jac 257)) (.mul (.neg (.num 60717947619455637 17)) (.mul (.rd (.var .jTemp)) (.num 10994706834011048 20)))),
  .set (.arr .jac 258) (.add (.rd (.arr .jac 258)) (.mul (.num 64316396766915152 17) (.mul (.rd (.var .jTemp)) (.num 10994706834011048 20)))),
  .set (.arr .jac 259) (.add (.rd (.arr .jac 259)) (.mul (.neg (.num 11783744609145177 16)) (.mul (.rd (.var .jTemp)) (.num 10994706834011048 20)))),
  .set (.arr .jac 277) (.add (.rd (.arr .jac 277)) (.mul (.num 72708351321751064 17) (.mul (.rd (.var .jTemp)) (.neg (.num 57102223643760053 17))))),
  .set (.arr .jac 278) (.add (.rd (.arr .jac 278)) (.mul (.neg (.num 38644438284200339 17)) (.mul (.rd (.var .jTemp)) (.neg (.num 57102223643760053 17))))),
  .set (.arr .jac 279) (.add (.rd (.arr .jac 279)) (.mul (.num 40934700907525146 17) (.mul (.rd (.var .jTemp)) (.neg (.num 57102223643760053 17))))),
  .set (.arr .jac 280) (.add (.rd (.arr .jac 280)) (.mul (.neg (.num 74998613945075876 17)) (.mul (.rd (.var .jTemp)) (.neg (.num 57102223643760053 17))))),
  .set (.arr .jac 298) (.add (.rd (.arr .jac 298)) (.mul (.num 11027095278365338 16) (.mul (.rd (.var .jTemp)) (.neg (.num 35870588016911675 18))))),
  .set (.arr .jac 299) (.add (.rd (.arr .jac 299)) (.mul (.neg (.num 58608934901169396 17)) (.mul (.rd (.var .jTemp)) (.neg (.num 35870588016911675 18))))),
  .set (.arr .jac 300) (.add (.rd (.arr .jac 300)) (.mul (.num 62082393410512116 17) (.mul (.rd (.var .jTemp)) (.neg (.num 35870588016911675 18))))),
  .set (.arr .jac 301) (.add (.rd (.arr .jac 301)) (.mul (.neg (.num 11374441129299608 16)) (.mul (.rd (.var .jTemp)) (.neg (.num 35870588016911675 18))))),
  .set (.arr .jac 319) (.add (.rd (.arr .jac 319)) (.mul (.num 10656931194939898 16) (.mul (.rd (.var .jTemp)) (.neg (.num 71851123102163683 18))))),
  .set (.arr .jac 320) (.add (.rd (.arr .jac 320)) (.mul (.neg (.num 5664151536587283 16)) (.mul (.rd (.var .jTemp)) (.neg (.num 71851123102163683 18))))),
  .set (.arr .jac 321) (.add (.rd (.arr .jac 321)) (.mul (.num 59998374757046158 17) (.mul (.rd (.var .jTemp)) (.neg (.num 71851123102163683 18))))),
  .set (.arr .jac 322) (.add (.rd (.arr .jac 322)) (.mul (.neg (.num 10992617134057232 16)) (.mul (.rd (.var .jTemp)) (.neg (.num 71851123102163683 18))))),
  .set (.arr .jac 340) (.add (.rd (.arr .jac 340)) (.mul (.num 10310811742650532 16) (.mul (.rd (.var .jTemp)) (.neg (.num 10783165818741525 17))))),
  .set (.arr .jac 341) (.add (.rd (.arr .jac 341)) (.mul (.neg (.num 54801892878248593 17)) (.mul (.rd (.var .jTemp)) (.neg (.num 10783165818741525 17))))),
  .set (.arr .jac 342) (.add (.rd (.arr .jac 342)) (.mul (.num 58049727043244526 17) (.mul (.rd (.var .jTemp)) (.neg (.num 10783165818741525 17))))),
  .set (.arr .jac 343) (.add (.rd (.arr .jac 343)) (.mul (.neg (.num 10635595159150126 16)) (.mul (.rd (.var .jTemp)) (.neg (.num 10783165818741525 17))))),
  .set (.arr .jac 361) (.add (.rd (.arr .jac 361)) (.mul (.num 11406242870830863 16) (.mul (.rd (.var .jTemp)) (.neg (.num 14378791924458678 19))))),
  .set (.arr .jac 362) (.add (.rd (.arr .jac 362)) (.mul (.neg (.num 60624101724688606 17)) (.mul (.rd (.var .jTemp)) (.neg (.num 14378791924458678 19))))),
  .set (.arr .jac 363) (.add (.rd (.arr .jac 363)) (.mul (.num 64216989095222898 17) (.mul (.rd (.var .jTemp)) (.neg (.num 14378791924458678 19))))),
  .set (.arr .jac 364) (.add (.rd (.arr .jac 364)) (.mul (.neg (.num 11765531607884292 16)) (.mul (.rd (.var .jTemp)) (.neg (.num 14378791924458678 19))))),
  .set (.arr .jac 382) (.add (.rd (.arr .jac 382)) (.mul (.num 11010642873610286 16) (.mul (.rd (.var .jTemp)) (.neg (.num 37418414277697654 18))))),
  .set (.arr .jac 383) (.add (.rd (.arr .jac 383)) (.mul (.neg (.num 58521490484039129 17)) (.mul (.rd (.var .jTemp)) (.neg (.num 37418414277697654 18))))),
  .set (.arr .jac 384) (.add (.rd (.arr .jac 384)) (.mul (.num 61989766600026841 17) (.mul (.rd (.var .jTemp)) (.neg (.num 37418414277697654 18))))),
  .set (.arr .jac 385) (.add (.rd (.arr .jac 385)) (.mul (.neg (.num 11357470485209056 16)) (.mul (.rd (.var .jTemp)) (.neg (.num 37418414277697654 18))))),
  .set (.arr .jac 403) (.add (.rd (.arr .jac 403)) (.mul (.num 10641564049320178 16) (.mul (.rd (.var .jTemp)) (.neg (.num 73398949362949439 18))))),
  .set (.arr .jac 404) (.add (.rd (.arr .jac 404)) (.mul (.neg (.num 56559839093517583 17)) (.mul (.rd (.var .jTemp)) (.neg (.num 73398949362949439 18))))),
  .set (.arr .jac 405) (.add (.rd (.arr .jac 405)) (.mul (.num 59911857940434277 17) (.mul (.rd (.var .jTemp)) (.neg (.num 73398949362949439 18))))),
  .set (.arr .jac 406) (.add (.rd (.arr .jac 406)) (.mul (.neg (.num 10976765934011847 16)) (.mul (.rd (.var .jTemp)) (.neg (.num 73398949362949439 18))))),
  .set (.arr .jac 424) (.add (.rd (.arr .jac 424)) (.mul (.num 80101131470912179 17) (.mul (.rd (.var .jTemp)) (.neg (.num 42602775520927771 17))))),
  .set (.arr .jac 425) (.add (.rd (.arr .jac 425)) (.mul (.neg (.num 42573695804545908 17)) (.mul (.rd (.var .jTemp)) (.neg (.num 42602775520927771 17))))),
  .set (.arr .jac 426) (.add (.rd (.arr .jac 426)) (.mul (.num 45096825873635726 17) (.mul (.rd (.var .jTemp)) (.neg (.num 42602775520927771 17))))),
  .set (.arr .jac 427) (.add (.rd (.arr .jac 427)) (.mul (.neg (.num 82624261540002009 17)) (.mul (.rd (.var .jTemp)) (.neg (.num 42602775520927771 17)))))]

/-- utilities/mechanisms/drm19/lib/src/jacobs/jacob_1.c:380-386 -/
def jacobT44 : List CStmt := [
  .set (.var .jTemp) (.mul (.mul (.div (.num 1 0) (.rd (.var .T))) (.sub (.mul (.rd (.arr .fwd 44)) (.neg (.num 1 0))) (.mul (.rd (.arr .rev 44)) (.add (.neg (.num 1 0)) (.mul (.neg (.rd (.var .T))) (.sub (.sub (.add (.rd (.arr .dBdT 14)) (.rd (.arr .dBdT 1))) (.rd (.arr .dBdT 7))) (.rd (.arr .dBdT 4)))))))) (.rd (.var .rhoInv))),
  .set (.arr .jac 2) (.add (.rd (.arr .jac 2)) (.mul (.rd (.var .jTemp)) (.num 10079400000000001 16))),
  .set (.arr .jac 5) (.add (.rd (.arr .jac 5)) (.mul (.neg (.rd (.var .jTemp))) (.num 17007339999999999 15))),
  .set (.arr .jac 15) (.add (.rd (.arr .jac 15)) (.mul (.rd (.var .jTemp)) (.num 3002628 5))),
  .set (.arr .jac 8) (.add (.rd (.arr .jac 8)) (.mul (.neg (.rd (.var .jTemp))) (.num 14026879999999998 15)))]

/-- utilities/mechanisms/drm19/lib/src/jacobs/jacob_1.c:387-478 -/
def jacobS44 : List CStmt := [
  .ite (.rd (.var .T)) (.num 1000 0) (.var .Kc) (.sub (.add (.add (.neg (.num 84150539499999955 17)) (.mul (.neg (.num 4609709500000001 16)) (.rd (.var .logT)))) (.mul (.rd (.var .T)) (.add (.neg (.num 42379441561473333 19)) (.mul (.rd (.var .T)) (.add (.num 49848606630006789 22) (.mul (.rd (.var .T)) (.add (.neg (.num 25163734364749319 25)) (.mul (.num 50628666545361342 29) (.rd (.var .T)))))))))) (.div (.neg (.num 38454417459999997 12)) (.rd (.var .T)))) (.sub (.add (.add (.num 42680494560000017 16) (.mul (.neg (.num 17062987100000002 16)) (.rd (.var .logT)))) (.mul (.rd (.var .T)) (.add (.num 24975890804578519 19) (.mul (.rd (.var .T)) (.add (.neg (.num 52335789530730089 23)) (.mul (.rd (.var .T)) (.add (.num 69514893488737301 27) (.mul (.neg (.num 40677022200901327 31)) (.rd (.var .T)))))))))) (.div (.neg (.num 38644433400000002 12)) (.rd (.var .T)))),
  .set (.var .Kc) (.exp (.rd (.var .Kc))),
  .set (.var .jTemp) (.mul (.mul (.neg (.rd (.var .mwAvg))) (.rd (.var .rhoInv))) (.sub (.mul (.num 2 0) (.rd (.arr .fwd 44))) (.mul (.num 2 0) (.rd (.arr .rev 44))))),
  .set (.var .kf) (.num 20000000000 0),
  .set (.var .kr) (.div (.rd (.var .kf)) (.rd (.var .Kc))),
  .set (.arr .jac 23) (.add (.rd (.arr .jac 23)) (.mul (.num 5 1) (.mul (.rd (.var .jTemp)) (.num 92803892982949643 17)))),
  .set (.arr .jac 26) (.add (.rd (.arr .jac 26)) (.mul (.neg (.num 84366827390519266 16)) (.mul (.rd (.var .jTemp)) (.num 92803892982949643 17)))),
  .set (.arr .jac 36) (.add (.rd (.arr .jac 36)) (.mul (.num 14894874694922317 15) (.mul (.rd (.var .jTemp)) (.num 92803892982949643 17)))),
  .set (.arr .jac 29) (.add (.rd (.arr .jac 29)) (.mul (.neg (.num 69581919558703875 16)) (.mul (.rd (.var .jTemp)) (.num 92803892982949643 17)))),
  .set (.arr .jac 44) (.add (.rd (.arr .jac 44)) (.sub (.mul (.rd (.var .jTemp)) (.num 96401946491474821 17)) (.mul (.rd (.var .kr)) (.rd (.arr .C 14))))),
  .set (.arr .jac 47) (.add (.rd (.arr .jac 47)) (.mul (.neg (.num 16873365478103853 15)) (.sub (.mul (.rd (.var .jTemp)) (.num 96401946491474821 17)) (.mul (.rd (.var .kr)) (.rd (.arr .C 14)))))),
  .set (.arr .jac 57) (.add (.rd (.arr .jac 57)) (.mul (.num 29789749389844633 15) (.sub (.mul (.rd (.var .jTemp)) (.num 96401946491474821 17)) (.mul (.rd (.var .kr)) (.rd (.arr .C 14)))))),
  .set (.arr .jac 50) (.add (.rd (.arr .jac 50)) (.mul (.neg (.num 13916383911740775 15)) (.sub (.mul (.rd (.var .jTemp)) (.num 96401946491474821 17)) (.mul (.rd (.var .kr)) (.rd (.arr .C 14)))))),
  .set (.arr .jac 65) (.add (.rd (.arr .jac 65)) (.mul (.num 62998612447966798 18) (.mul (.rd (.var .jTemp)) (.num 42886781649405936 17)))),
  .set (.arr .jac 68) (.add (.rd (.arr .jac 68)) (.mul (.neg (.num 10629986124479667 16)) (.mul (.rd (.var .jTemp)) (.num 42886781649405936 17)))),
  .set (.arr .jac 78) (.add (.rd (.arr .jac 78)) (.mul (.num 18767128767328776 16) (.mul (.rd (.var .jTemp)) (.num 42886781649405936 17)))),
  .set (.arr .jac 71) (.add (.rd (.arr .jac 71)) (.mul (.neg (.num 87671287673287746 17)) (.mul (.rd (.var .jTemp)) (.num 42886781649405936 17)))),
  .set (.arr .jac 86) (.add (.rd (.arr .jac 86)) (.mul (.num 31499306223983399 18) (.mul (.rd (.var .jTemp)) (.neg (.num 14226436701188128 17))))),
  .set (.arr .jac 89) (.add (.rd (.arr .jac 89)) (.mul (.neg (.num 53149930622398334 17)) (.mul (.rd (.var .jTemp)) (.neg (.num 14226436701188128 17))))),
  .set (.arr .jac 99) (.add (.rd (.arr .jac 99)) (.mul (.num 93835643836643878 17) (.mul (.rd (.var .jTemp)) (.neg (.num 14226436701188128 17))))),
  .set (.arr .jac 92) (.add (.rd (.arr .jac 92)) (.mul (.neg (.num 43835643836643873 17)) (.mul (.rd (.var .jTemp)) (.neg (.num 14226436701188128 17))))),
  .set (.arr .jac 107) (.add (.rd (.arr .jac 107)) (.mul (.num 59264999700129481 18) (.add (.mul (.rd (.var .jTemp)) (.num 39288728140880758 17)) (.mul (.rd (.var .kf)) (.rd (.arr .C 7)))))),
  .set (.arr .jac 110) (.add (.rd (.arr .jac 110)) (.neg (.add (.mul (.rd (.var .jTemp)) (.num 39288728140880758 17)) (.mul (.rd (.var .kf)) (.rd (.arr .C 7)))))),
  .set (.arr .jac 120) (.add (.rd (.arr .jac 120)) (.mul (.num 17654894886560744 16) (.add (.mul (.rd (.var .jTemp)) (.num 39288728140880758 17)) (.mul (.rd (.var .kf)) (.rd (.arr .C 7)))))),
  .set (.arr .jac 113) (.add (.rd (.arr .jac 113)) (.mul (.neg (.num 8247544883562038 16)) (.add (.mul (.rd (.var .jTemp)) (.num 39288728140880758 17)) (.mul (.rd (.var .kf)) (.rd (.arr .C 7)))))),
  .set (.arr .jac 128) (.add (.rd (.arr .jac 128)) (.mul (.num 55949172036182618 18) (.mul (.rd (.var .jTemp)) (.num 35690674632355568 17)))),
  .set (.arr .jac 131) (.add (.rd (.arr .jac 131)) (.mul (.neg (.num 94405082796381734 17)) (.mul (.rd (.var .jTemp)) (.num 35690674632355568 17)))),
  .set (.arr .jac 141) (.add (.rd (.arr .jac 141)) (.mul (.num 16667118135271835 16) (.mul (.rd (.var .jTemp)) (.num 35690674632355568 17)))),
  .set (.arr .jac 134) (.add (.rd (.arr .jac 134)) (.mul (.neg (.num 77861015759954877 17)) (.mul (.rd (.var .jTemp)) (.num 35690674632355568 17)))),
  .set (.arr .jac 149) (.add (.rd (.arr .jac 149)) (.mul (.num 3053739933116691 17) (.mul (.rd (.var .jTemp)) (.neg (.num 17824490209713328 17))))),
  .set (.arr .jac 152) (.add (.rd (.arr .jac 152)) (.mul (.neg (.num 51526869966558342 17)) (.mul (.rd (.var .jTemp)) (.neg (.num 17824490209713328 17))))),
  .set (.arr .jac 162) (.add (.rd (.arr .jac 162)) (.mul (.num 90970147309307126 17) (.mul (.rd (.var .jTemp)) (.neg (.num 17824490209713328 17))))),
  .set (.arr .jac 155) (.add (.rd (.arr .jac 155)) (.mul (.neg (.num 42497017275865467 17)) (.mul (.rd (.var .jTemp)) (.neg (.num 17824490209713328 17))))),
  .set (.arr .jac 170) (.add (.rd (.arr .jac 170)) (.mul (.num 71857747410685777 18) (.add (.mul (.rd (.var .jTemp)) (.num 49928106040377707 17)) (.mul (.rd (.var .kf)) (.rd (.arr .C 4)))))),
  .set (.arr .jac 173) (.add (.rd (.arr .jac 173)) (.mul (.neg (.num 12124820344937721 16)) (.add (.mul (.rd (.var .jTemp)) (.num 49928106040377707 17)) (.mul (.rd (.var .kf)) (.rd (.arr .C 4)))))),
  .set (.arr .jac 183) (.add (.rd (.arr .jac 183)) (.mul (.num 21406242870830865 16) (.add (.mul (.rd (.var .jTemp)) (.num 49928106040377707 17)) (.mul (.rd (.var .kf)) (.rd (.arr .C 4)))))),
  .set (.arr .jac 176) (.add (.rd (.arr .jac 176)) (.neg (.add (.mul (.rd (.var .jTemp)) (.num 49928106040377707 17)) (.mul (.rd (.var .kf)) (.rd (.arr .C 4)))))),
  .set (.arr .jac 191) (.add (.rd (.arr .jac 191)) (.mul (.num 71857747410685777 18) (.mul (.rd (.var .jTemp)) (.num 49928106040377707 17)))),
  .set (.arr .jac 194) (.add (.rd (.arr .jac 194)) (.mul (.neg (.num 12124820344937721 16)) (.mul (.rd (.var .jTemp)) (.num 49928106040377707 17)))),
  .set (.arr .jac 204) (.add (.rd (.arr .jac 204)) (.mul (.num 21406242870830865 16) (.mul (.rd (.var .jTemp)) (.num 49928106040377707 17)))),
  .set (.arr .jac 197) (.add (.rd (.arr .jac 197)) (.neg (.mul (.rd (.var .jTemp)) (.num 49928106040377707 17)))),
  .set (.arr .jac 212) (.add (.rd (.arr .jac 212)) (.mul (.num 67040376938333812 18) (.mul (.rd (.var .jTemp)) (.num 46330052531852528 17)))),
  .set (.arr .jac 215) (.add (.rd (.arr .jac 215)) (.mul (.neg (.num 11311967818703517 16)) (.mul (.rd (.var .jTemp)) (.num 46330052531852528 17)))),
  .set (.arr .jac 225) (.add (.rd (.arr .jac 225)) (.mul (.num 19971160279936839 16) (.mul (.rd (.var .jTemp)) (.num 46330052531852528 17)))),
  .set (.arr .jac 218) (.add (.rd (.arr .jac 218)) (.mul (.neg (.num 93295962306166613 17)) (.mul (.rd (.var .jTemp)) (.num 46330052531852528 17)))),
  .set (.arr .jac 233) (.add (.rd (.arr .jac 233)) (.mul (.num 6282834125798803 17) (.mul (.rd (.var .jTemp)) (.num 42731999023327338 17)))),
  .set (.arr .jac 236) (.add (.rd (.arr .jac 236)) (.mul (.neg (.num 10601255644290632 16)) (.mul (.rd (.var .jTemp)) (.num 42731999023327338 17)))),
  .set (.arr .jac 246) (.add (.rd (.arr .jac 246)) (.mul (.num 18716405406550991 16) (.mul (.rd (.var .jTemp)) (.num 42731999023327338 17)))),
  .set (.arr .jac 239) (.add (.rd (.arr .jac 239)) (.mul (.neg (.num 87434331748402383 17)) (.mul (.rd (.var .jTemp)) (.num 42731999023327338 17)))),
  .set (.arr .jac 254) (.add (.rd (.arr .jac 254)) (.mul (.num 35984491474595155 18) (.mul (.rd (.var .jTemp)) (.num 10994706834011048 20)))),
  .set (.arr .jac 257) (.add (.rd (.arr .jac 257)) (.mul (.neg (.num 60717947619455637 17)) (.mul (.rd (.var .jTemp)) (.num 10994706834011048 20)))),
  .set (.arr .jac 267) (.add (.rd (.arr .jac 267)) (.mul (.num 10719689829491903 16) (.mul (.rd (.var .jTemp)) (.num 10994706834011048 20)))),
  .set (.arr .jac 260) (.add (.rd (.arr .jac 260)) (.mul (.neg (.num 50077399822922919 17)) (.mul (.rd (.var .jTemp)) (.num 10994706834011048 20)))),
  .set (.arr .jac 275) (.add (.rd (.arr .jac 275)) (.mul (.num 22902626233248052 18) (.mul (.rd (.var .jTemp)) (.neg (.num 57102223643760053 17))))),
  .set (.arr .jac 278) (.add (.rd (.arr .jac 278)) (.mul (.neg (.num 38644438284200339 17)) (.mul (.rd (.var .jTemp)) (.neg (.num 57102223643760053 17))))),
  .set (.arr .jac 288) (.add (.rd (.arr .jac 288)) (.mul (.num 68226349585774082 17) (.mul (.rd (.var .jTemp)) (.neg (.num 57102223643760053 17))))),
  .set (.arr .jac 281) (.add (.rd (.arr .jac 281)) (.mul (.neg (.num 31872173924898545 17)) (.mul (.rd (.var .jTemp)) (.neg (.num 57102223643760053 17))))),
  .set (.arr .jac 296) (.add (.rd (.arr .jac 296)) (.mul (.num 34734585093427126 18) (.mul (.rd (.var .jTemp)) (.neg (.num 35870588016911675 18))))),
  .set (.arr .jac 299) (.add (.rd (.arr .jac 299)) (.mul (.neg (.num 58608934901169396 17)) (.mul (.rd (.var .jTemp)) (.neg (.num 35870588016911675 18))))),
  .set (.arr .jac 309) (.add (.rd (.arr .jac 309)) (.mul (.num 10347345850934271 16) (.mul (.rd (.var .jTemp)) (.neg (.num 35870588016911675 18))))),
  .set (.arr .jac 302) (.add (.rd (.arr .jac 302)) (.mul (.neg (.num 48337982117516021 17)) (.mul (.rd (.var .jTemp)) (.neg (.num 35870588016911675 18))))),
  .set (.arr .jac 317) (.add (.rd (.arr .jac 317)) (.mul (.num 33568593911733322 18) (.sub (.mul (.rd (.var .jTemp)) (.neg (.num 71851123102163683 18))) (.mul (.rd (.var .kr)) (.rd (.arr .C 1)))))),
  .set (.arr .jac 320) (.add (.rd (.arr .jac 320)) (.mul (.neg (.num 5664151536587283 16)) (.sub (.mul (.rd (.var .jTemp)) (.neg (.num 71851123102163683 18))) (.mul (.rd (.var .kr)) (.rd (.arr .C 1)))))),
  .set (.arr .jac 330) (.add (.rd (.arr .jac 330)) (.sub (.mul (.rd (.var .jTemp)) (.neg (.num 71851123102163683 18))) (.mul (.rd (.var .kr)) (.rd (.arr .C 1))))),
  .set (.arr .jac 323) (.add (.rd (.arr .jac 323)) (.mul (.neg (.num 46715344025300498 17)) (.sub (.mul (.rd (.var .jTemp)) (.neg (.num 71851123102163683 18))) (.mul (.rd (.var .kr)) (.rd (.arr .C 1)))))),
  .set (.arr .jac 338) (.add (.rd (.arr .jac 338)) (.mul (.num 32478341649959309 18) (.mul (.rd (.var .jTemp)) (.neg (.num 10783165818741525 17))))),
  .set (.arr .jac 341) (.add (.rd (.arr .jac 341)) (.mul (.neg (.num 54801892878248593 17)) (.mul (.rd (.var .jTemp)) (.neg (.num 10783165818741525 17))))),
  .set (.arr .jac 351) (.add (.rd (.arr .jac 351)) (.mul (.num 96752165835004078 17) (.mul (.rd (.var .jTemp)) (.neg (.num 10783165818741525 17))))),
  .set (.arr .jac 344) (.add (.rd (.arr .jac 344)) (.mul (.neg (.num 45198107121751407 17)) (.mul (.rd (.var .jTemp)) (.neg (.num 10783165818741525 17))))),
  .set (.arr .jac 359) (.add (.rd (.arr .jac 359)) (.mul (.num 35928873705342888 18) (.mul (.rd (.var .jTemp)) (.neg (.num 14378791924458678 19))))),
  .set (.arr .jac 362) (.add (.rd (.arr .jac 362)) (.mul (.neg (.num 60624101724688606 17)) (.mul (.rd (.var .jTemp)) (.neg (.num 14378791924458678 19))))),
  .set (.arr .jac 372) (.add (.rd (.arr .jac 372)) (.mul (.num 10703121435415432 16) (.mul (.rd (.var .jTemp)) (.neg (.num 14378791924458678 19))))),
  .set (.arr .jac 365) (.add (.rd (.arr .jac 365)) (.mul (.neg (.num 5 1)) (.mul (.rd (.var .jTemp)) (.neg (.num 14378791924458678 19))))),
  .set (.arr .jac 380) (.add (.rd (.arr .jac 380)) (.mul (.num 3468276115987709 17) (.mul (.rd (.var .jTemp)) (.neg (.num 37418414277697654 18))))),
  .set (.arr .jac 383) (.add (.rd (.arr .jac 383)) (.mul (.neg (.num 58521490484039129 17)) (.mul (.rd (.var .jTemp)) (.neg (.num 37418414277697654 18))))),
  .set (.arr .jac 393) (.add (.rd (.arr .jac 393)) (.mul (.num 10331907631005757 16) (.mul (.rd (.var .jTemp)) (.neg (.num 37418414277697654 18))))),
  .set (.arr .jac 386) (.add (.rd (.arr .jac 386)) (.mul (.neg (.num 48265861942006144 17)) (.mul (.rd (.var .jTemp)) (.neg (.num 37418414277697654 18))))),
  .set (.arr .jac 401) (.add (.rd (.arr .jac 401)) (.mul (.num 33520188469166906 18) (.mul (.rd (.var .jTemp)) (.neg (.num 73398949362949439 18))))),
  .set (.arr .jac 404) (.add (.rd (.arr .jac 404)) (.mul (.neg (.num 56559839093517583 17)) (.mul (.rd (.var .jTemp)) (.neg (.num 73398949362949439 18))))),
  .set (.arr .jac 414) (.add (.rd (.arr .jac 414)) (.mul (.num 99855801399684196 17) (.mul (.rd (.var .jTemp)) (.neg (.num 73398949362949439 18))))),
  .set (.arr .jac 407) (.add (.rd (.arr .jac 407)) (.mul (.neg (.num 46647981153083307 17)) (.mul (.rd (.var .jTemp)) (.neg (.num 73398949362949439 18))))),
  .set (.arr .jac 422) (.add (.rd (.arr .jac 422)) (.mul (.num 2523130069089817 17) (.mul (.rd (.var .jTemp)) (.neg (.num 42602775520927771 17))))),
  .set (.arr .jac 425) (.add (.rd (.arr .jac 425)) (.mul (.neg (.num 42573695804545908 17)) (.mul (.rd (.var .jTemp)) (.neg (.num 42602775520927771 17))))),
  .set (.arr .jac 435) (.add (.rd (.arr .jac 435)) (.mul (.num 75163412436167021 17) (.mul (.rd (.var .jTemp)) (.neg (.num 42602775520927771 17))))),
  .set (.arr .jac 428) (.add (.rd (.arr .jac 428)) (.mul (.neg (.num 3511284670071092 16)) (.mul (.rd (.var .jTemp)) (.neg (.num 42602775520927771 17)))))]

/-- utilities/mechanisms/drm19/lib/src/jacobs/jacob_1.c:479-485 -/
def jacobT45 : List CStmt := [
  .set (.var .jTemp) (.mul (.mul (.div (.num 1 0) (.rd (.var .T))) (.sub (.mul (.rd (.arr .fwd 45)) (.neg (.num 1 0))) (.mul (.rd (.arr .rev 45)) (.add (.neg (.num 1 0)) (.mul (.neg (.rd (.var .T))) (.sub (.sub (.add (.rd (.arr .dBdT 14)) (.rd (.arr .dBdT 1))) (.rd (.arr .dBdT 8))) (.rd (.arr .dBdT 4)))))))) (.rd (.var .rhoInv))),
  .set (.arr .jac 9) (.add (.rd (.arr .jac 9)) (.mul (.neg (.rd (.var .jTemp))) (.num 14026879999999998 15))),
  .set (.arr .jac 2) (.add (.rd (.arr .jac 2)) (.mul (.rd (.var .jTemp)) (.num 10079400000000001 16))),
  .set (.arr .jac 5) (.add (.rd (.arr .jac 5)) (.mul (.neg (.rd (.var .jTemp))) (.num 17007339999999999 15))),
  .set (.arr .jac 15) (.add (.rd (.arr .jac 15)) (.mul (.rd (.var .jTemp)) (.num 3002628 5)))]

/-- utilities/mechanisms/drm19/lib/src/jacobs/jacob_1.c:486-577 -/
def jacobS45 : List CStmt := [
  .ite (.rd (.var .T)) (.num 1000 0) (.var .Kc) (.sub (.add (.add (.num 19260708619999996 16) (.mul (.neg (.num 89689639000000021 17)) (.rd (.var .logT)))) (.mul (.rd (.var .T)) (.add (.neg (.num 25702009896473336 19)) (.mul (.rd (.var .T)) (.add (.num 40785166980006795 22) (.mul (.rd (.var .T)) (.add (.neg (.num 22799360798082651 25)) (.mul (.num 49350015645361341 29) (.rd (.var .T)))))))))) (.div (.neg (.num 42947193659999997 12)) (.rd (.var .T)))) (.sub (.add (.add (.num 12306782960000007 16) (.mul (.neg (.num 1124236 6)) (.rd (.var .logT)))) (.mul (.rd (.var .T)) (.add (.num 19978423554578512 19) (.mul (.rd (.var .T)) (.add (.neg (.num 42286231197396749 23)) (.mul (.rd (.var .T)) (.add (.num 56371022572070625 27) (.mul (.neg (.num 33077582300901327 31)) (.rd (.var .T)))))))))) (.div (.neg (.num 43306829100000003 12)) (.rd (.var .T)))),
  .set (.var .Kc) (.exp (.rd (.var .Kc))),
  .set (.var .jTemp) (.mul (.mul (.neg (.rd (.var .mwAvg))) (.rd (.var .rhoInv))) (.sub (.mul (.num 2 0) (.rd (.arr .fwd 45))) (.mul (.num 2 0) (.rd (.arr .rev 45))))),
  .set (.var .kf) (.num 30000000000 0),
  .set (.var .kr) (.div (.rd (.var .kf)) (.rd (.var .Kc))),
  .set (.arr .jac 30) (.add (.rd (.arr .jac 30)) (.mul (.neg (.num 69581919558703875 16)) (.mul (.rd (.var .jTemp)) (.num 92803892982949643 17)))),
  .set (.arr .jac 23) (.add (.rd (.arr .jac 23)) (.mul (.num 5 1) (.mul (.rd (.var .jTemp)) (.num 92803892982949643 17)))),
  .set (.arr .jac 26) (.add (.rd (.arr .jac 26)) (.mul (.neg (.num 84366827390519266 16)) (.mul (.rd (.var .jTemp)) (.num 92803892982949643 17)))),
  .set (.arr .jac 36) (.add (.rd (.arr .jac 36)) (.mul (.num 14894874694922317 15) (.mul (.rd (.var .jTemp)) (.num 92803892982949643 17)))),
  .set (.arr .jac 51) (.add (.rd (.arr .jac 51)) (.mul (.neg (.num 13916383911740775 15)) (.sub (.mul (.rd (.var .jTemp)) (.num 96401946491474821 17)) (.mul (.rd (.var .kr)) (.rd (.arr .C 14)))))),
  .set (.arr .jac 44) (.add (.rd (.arr .jac 44)) (.sub (.mul (.rd (.var .jTemp)) (.num 96401946491474821 17)) (.mul (.rd (.var .kr)) (.rd (.arr .C 14))))),
  .set (.arr .jac 47) (.add (.rd (.arr .jac 47)) (.mul (.neg (.num 16873365478103853 15)) (.sub (.mul (.rd (.var .jTemp)) (.num 96401946491474821 17)) (.mul (.rd (.var .kr)) (.rd (.arr .C 14)))))),
  .set (.arr .jac 57) (.add (.rd (.arr .jac 57)) (.mul (.num 29789749389844633 15) (.sub (.mul (.rd (.var .jTemp)) (.num 96401946491474821 17)) (.mul (.rd (.var .kr)) (.rd (.arr .C 14)))))),
  .set (.arr .jac 72) (.add (.rd (.arr .jac 72)) (.mul (.neg (.num 87671287673287746 17)) (.mul (.rd (.var .jTemp)) (.num 42886781649405936 17)))),
  .set (.arr .jac 65) (.add (.rd (.arr .jac 65)) (.mul (.num 62998612447966798 18) (.mul (.rd (.var .jTemp)) (.num 42886781649405936 17)))),
  .set (.arr .jac 68) (.add (.rd (.arr .jac 68)) (.mul (.neg (.num 10629986124479667 16)) (.mul (.rd (.var .jTemp)) (.num 42886781649405936 17)))),
  .set (.arr .jac 78) (.add (.rd (.arr .jac 78)) (.mul (.num 18767128767328776 16) (.mul (.rd (.var .jTemp)) (.num 42886781649405936 17)))),
  .set (.arr .jac 93) (.add (.rd (.arr .jac 93)) (.mul (.neg (.num 43835643836643873 17)) (.mul (.rd (.var .jTemp)) (.neg (.num 14226436701188128 17))))),
  .set (.arr .jac 86) (.add (.rd (.arr .jac 86)) (.mul (.num 31499306223983399 18) (.mul (.rd (.var .jTemp)) (.neg (.num 14226436701188128 17))))),
  .set (.arr .jac 89) (.add (.rd (.arr .jac 89)) (.mul (.neg (.num 53149930622398334 17)) (.mul (.rd (.var .jTemp)) (.neg (.num 14226436701188128 17))))),
  .set (.arr .jac 99) (.add (.rd (.arr .jac 99)) (.mul (.num 93835643836643878 17) (.mul (.rd (.var .jTemp)) (.neg (.num 14226436701188128 17))))),
  .set (.arr .jac 114) (.add (.rd (.arr .jac 114)) (.mul (.neg (.num 8247544883562038 16)) (.add (.mul (.rd (.var .jTemp)) (.num 39288728140880758 17)) (.mul (.rd (.var .kf)) (.rd (.arr .C 8)))))),
  .set (.arr .jac 107) (.add (.rd (.arr .jac 107)) (.mul (.num 59264999700129481 18) (.add (.mul (.rd (.var .jTemp)) (.num 39288728140880758 17)) (.mul (.rd (.var .kf)) (.rd (.arr .C 8)))))),
  .set (.arr .jac 110) (.add (.rd (.arr .jac 110)) (.neg (.add (.mul (.rd (.var .jTemp)) (.num 39288728140880758 17)) (.mul (.rd (.var .kf)) (.rd (.arr .C 8)))))),
  .set (.arr .jac 120) (.add (.rd (.arr .jac 120)) (.mul (.num 17654894886560744 16) (.add (.mul (.rd (.var .jTemp)) (.num 39288728140880758 17)) (.mul (.rd (.var .kf)) (.rd (.arr .C 8)))))),
  .set (.arr .jac 135) (.add (.rd (.arr .jac 135)) (.mul (.neg (.num 77861015759954877 17)) (.mul (.rd (.var .jTemp)) (.num 35690674632355568 17)))),
  .set (.arr .jac 128) (.add (.rd (.arr .jac 128)) (.mul (.num 55949172036182618 18) (.mul (.rd (.var .jTemp)) (.num 35690674632355568 17)))),
  .set (.arr .jac 131) (.add (.rd (.arr .jac 131)) (.mul (.neg (.num 94405082796381734 17)) (.mul (.rd (.var .jTemp)) (.num 35690674632355568 17)))),
  .set (.arr .jac 141) (.add (.rd (.arr .jac 141)) (.mul (.num 16667118135271835 16) (.mul (.rd (.var .jTemp)) (.num 35690674632355568 17)))),
  .set (.arr .jac 156) (.add (.rd (.arr .jac 156)) (.mul (.neg (.num 42497017275865467 17)) (.mul (.rd (.var .jTemp)) (.neg (.num 17824490209713328 17))))),
  .set (.arr .jac 149) (.add (.rd (.arr .jac 149)) (.mul (.num 3053739933116691 17) (.mul (.rd (.var .jTemp)) (.neg (.num 17824490209713328 17))))),
  .set (.arr .jac 152) (.add (.rd (.arr .jac 152)) (.mul (.neg (.num 51526869966558342 17)) (.mul (.rd (.var .jTemp)) (.neg (.num 17824490209713328 17))))),
  .set (.arr .jac 162) (.add (.rd (.arr .jac 162)) (.mul (.num 90970147309307126 17) (.mul (.rd (.var .jTemp)) (.neg (.num 17824490209713328 17))))),
  .set (.arr .jac 177) (.add (.rd (.arr .jac 177)) (.neg (.mul (.rd (.var .jTemp)) (.num 49928106040377707 17)))),
  .set (.arr .jac 170) (.add (.rd (.arr .jac 170)) (.mul (.num 71857747410685777 18) (.mul (.rd (.var .jTemp)) (.num 49928106040377707 17)))),
  .set (.arr .jac 173) (.add (.rd (.arr .jac 173)) (.mul (.neg (.num 12124820344937721 16)) (.mul (.rd (.var .jTemp)) (.num 49928106040377707 17)))),
  .set (.arr .jac 183) (.add (.rd (.arr .jac 183)) (.mul (.num 21406242870830865 16) (.mul (.rd (.var .jTemp)) (.num 49928106040377707 17)))),
  .set (.arr .jac 198) (.add (.rd (.arr .jac 198)) (.neg (.add (.mul (.rd (.var .jTemp)) (.num 49928106040377707 17)) (.mul (.rd (.var .kf)) (.rd (.arr .C 4)))))),
  .set (.arr .jac 191) (.add (.rd (.arr .jac 191)) (.mul (.num 71857747410685777 18) (.add (.mul (.rd (.var .jTemp)) (.num 49928106040377707 17)) (.mul (.rd (.var .kf)) (.rd (.arr .C 4)))))),
  .set (.arr .jac 194) (.add (.rd (.arr .jac 194)) (.mul (.neg (.num 12124820344937721 16)) (.add (.mul (.rd (.var .jTemp)) (.num 49928106040377707 17)) (.mul (.rd (.var .kf)) (.rd (.arr .C 4)))))),
  .set (.arr .jac 204) (.add (.rd (.arr .jac 204)) (.mul (.num 21406242870830865 16) (.add (.mul (.rd (.var .jTemp)) (.num 49928106040377707 17)) (.mul (.rd (.var .kf)) (.rd (.arr .C 4)))))),
  .set (.arr .jac 219) (.add (.rd (.arr .jac 219)) (.mul (.neg (.num 93295962306166613 17)) (.mul (.rd (.var .jTemp)) (.num 46330052531852528 17)))),
  .set (.arr .jac 212) (.add (.rd (.arr .jac 212)) (.mul (.num 67040376938333812 18) (.mul (.rd (.var .jTemp)) (.num 46330052531852528 17)))),
  .set (.arr .jac 215) (.add (.rd (.arr .jac 215)) (.mul (.neg (.num 11311967818703517 16)) (.mul (.rd (.var .jTemp)) (.num 46330052531852528 17)))),
  .set (.arr .jac 225) (.add (.rd (.arr .jac 225)) (.mul (.num 19971160279936839 16) (.mul (.rd (.var .jTemp)) (.num 46330052531852528 17)))),
  .set (.arr .jac 240) (.add (.rd (.arr .jac 240)) (.mul (.neg (.num 87434331748402383 17)) (.mul (.rd (.var .jTemp)) (.num 42731999023327338 17)))),
  .set (.arr .jac 233) (.add (.rd (.arr .jac 233)) (.mul (.num 6282834125798803 17) (.mul (.rd (.var .jTemp)) (.num 42731999023327338 17)))),
  .set (.arr .jac 236) (.add (.rd (.arr .jac 236)) (.mul (.neg (.num 10601255644290632 16)) (.mul (.rd (.var .jTemp)) (.num 42731999023327338 17)))),
  .set (.arr .jac 246) (.add (.rd (.arr .jac 246)) (.mul (.num 18716405406550991 16) (.mul (.rd (.var .jTemp)) (.num 42731999023327338 17)))),
  .set (.arr .jac 261) (.add (.rd (.arr .jac 261)) (.mul (.neg (.num 50077399822922919 17)) (.mul (.rd (.var .jTemp)) (.num 10994706834011048 20)))),
  .set (.arr .jac 254) (.add (.rd (.arr .jac 254)) (.mul (.num 35984491474595155 18) (.mul (.rd (.var .jTemp)) (.num 10994706834011048 20)))),
  .set (.arr .jac 257) (.add (.rd (.arr .jac 257)) (.mul (.neg (.num 60717947619455637 17)) (.mul (.rd (.var .jTemp)) (.num 10994706834011048 20)))),
  .set (.arr .jac 267) (.add (.rd (.arr .jac 267)) (.mul (.num 10719689829491903 16) (.mul (.rd (.var .jTemp)) (.num 10994706834011048 20)))),
  .set (.arr .jac 282) (.add (.rd (.arr .jac 282)) (.mul (.neg (.num 31872173924898545 17)) (.mul (.rd (.var .jTemp)) (.neg (.num 57102223643760053 17))))),
  .set (.arr .jac 275) (.add (.rd (.arr .jac 275)) (.mul (.num 22902626233248052 18) (.mul (.rd (.var .jTemp)) (.neg (.num 57102223643760053 17))))),
  .set (.arr .jac 278) (.add (.rd (.arr .jac 278)) (.mul (.neg (.num 38644438284200339 17)) (.mul (.rd (.var .jTemp)) (.neg (.num 57102223643760053 17))))),
  .set (.arr .jac 288) (.add (.rd (.arr .jac 288)) (.mul (.num 68226349585774082 17) (.mul (.rd (.var .jTemp)) (.neg (.num 57102223643760053 17))))),
  .set (.arr .jac 303) (.add (.rd (.arr .jac 303)) (.mul (.neg (.num 48337982117516021 17)) (.mul (.rd (.var .jTemp)) (.neg (.num 35870588016911675 18))))),
  .set (.arr .jac 296) (.add (.rd (.arr .jac 296)) (.mul (.num 34734585093427126 18) (.mul (.rd (.var .jTemp)) (.neg (.num 35870588016911675 18))))),
  .set (.arr .jac 299) (.add (.rd (.arr .jac 299)) (.mul (.neg (.num 58608934901169396 17)) (.mul (.rd (.var .jTemp)) (.neg (.num 35870588016911675 18))))),
  .set (.arr .jac 309) (.add (.rd (.arr .jac 309)) (.mul (.num 10347345850934271 16) (.mul (.rd (.var .jTemp)) (.neg (.num 35870588016911675 18))))),
  .set (.arr .jac 324) (.add (.rd (.arr .jac 324)) (.mul (.neg (.num 46715344025300498 17)) (.sub (.mul (.rd (.var .jTemp)) (.neg (.num 71851123102163683 18))) (.mul (.rd (.var .kr)) (.rd (.arr .C 1)))))),
  .set (.arr .jac 317) (.add (.rd (.arr .jac 317)) (.mul (.num 33568593911733322 18) (.sub (.mul (.rd (.var .jTemp)) (.neg (.num 71851123102163683 18))) (.mul (.rd (.var .kr)) (.rd (.arr .C 1)))))),
  .set (.arr .jac 320) (.add (.rd (.arr .jac 320)) (.mul (.neg (.num 5664151536587283 16)) (.sub (.mul (.rd (.var .jTemp)) (.neg (.num 71851123102163683 18))) (.mul (.rd (.var .kr)) (.rd (.arr .C 1)))))),
  .set (.arr .jac 330) (.add (.rd (.arr .jac 330)) (.sub (.mul (.rd (.var .jTemp)) (.neg (.num 71851123102163683 18))) (.mul (.rd (.var .kr)) (.rd (.arr .C 1))))),
  .set (.arr .jac 345) (.add (.rd (.arr .jac 345)) (.mul (.neg (.num 45198107121751407 17)) (.mul (.rd (.var .jTemp)) (.neg (.num 10783165818741525 17))))),
  .set (.arr .jac 338) (.add (.rd (.arr .jac 338)) (.mul (.num 32478341649959309 18) (.mul (.rd (.var .jTemp)) (.neg (.num 10783165818741525 17))))),
  .set (.arr .jac 341) (.add (.rd (.arr .jac 341)) (.mul (.neg (.num 54801892878248593 17)) (.mul (.rd (.var .jTemp)) (.neg (.num 10783165818741525 17))))),
  .set (.arr .jac 351) (.add (.rd (.arr .jac 351)) (.mul (.num 96752165835004078 17) (.mul (.rd (.var .jTemp)) (.neg (.num 10783165818741525 17))))),
  .set (.arr .jac 366) (.add (.rd (.arr .jac 366)) (.mul (.neg (.num 5 1)) (.mul (.rd (.var .jTemp)) (.neg (.num 14378791924458678 19))))),
  .set (.arr .jac 359) (.add (.rd (.arr .jac 359)) (.mul (.num 35928873705342888 18) (.mul (.rd (.var .jTemp)) (.neg (.num 14378791924458678 19))))),
  .set (.arr .jac 362) (.add (.rd (.arr .jac 362)) (.mul (.neg (.num 60624101724688606 17)) (.mul (.rd (.var .jTemp)) (.neg (.num 14378791924458678 19))))),
  .set (.arr .jac 372) (.add (.rd (.arr .jac 372)) (.mul (.num 10703121435415432 16) (.mul (.rd (.var .jTemp)) (.neg (.num 14378791924458678 19))))),
  .set (.arr .jac 387) (.add (.rd (.arr .jac 387)) (.mul (.neg (.num 48265861942006144 17)) (.mul (.rd (.var .jTemp)) (.neg (.num 37418414277697654 18))))),
  .set (.arr .jac 380) (.add (.rd (.arr .jac 380)) (.mul (.num 3468276115987709 17) (.mul (.rd (.var .jTemp)) (.neg (.num 37418414277697654 18))))),
  .set (.arr .jac 383) (.add (.rd (.arr .jac 383)) (.mul (.neg (.num 58521490484039129 17)) (.mul (.rd (.var .jTemp)) (.neg (.num 37418414277697654 18))))),
  .set (.arr .jac 393) (.add (.rd (.arr .jac 393)) (.mul (.num 10331907631005757 16) (.mul (.rd (.var .jTemp)) (.neg (.num 37418414277697654 18))))),
  .set (.arr .jac 408) (.add (.rd (.arr .jac 408)) (.mul (.neg (.num 46647981153083307 17)) (.mul (.rd (.var .jTemp)) (.neg (.num 73398949362949439 18))))),
  .set (.arr .jac 401) (.add (.rd (.arr .jac 401)) (.mul (.num 33520188469166906 18) (.mul (.rd (.var .jTemp)) (.neg (.num 73398949362949439 18))))),
  .set (.arr .jac 404) (.add (.rd (.arr .jac 404)) (.mul (.neg (.num 56559839093517583 17)) (.mul (.rd (.var .jTemp)) (.neg (.num 73398949362949439 18))))),
  .set (.arr .jac 414) (.add (.rd (.arr .jac 414)) (.mul (.num 99855801399684196 17) (.mul (.rd (.var .jTemp)) (.neg (.num 73398949362949439 18))))),
  .set (.arr .jac 429) (.add (.rd (.arr .jac 429)) (.mul (.neg (.num 3511284670071092 16)) (.mul (.rd (.var .jTemp)) (.neg (.num 42602775520927771 17))))),
  .set (.arr .jac 422) (.add (.rd (.arr .jac 422)) (.mul (.num 2523130069089817 17) (.mul (.rd (.var .jTemp)) (.neg (.num 42602775520927771 17))))),
  .set (.arr .jac 425) (.add (.rd (.arr .jac 425)) (.mul (.neg (.num 42573695804545908 17)) (.mul (.rd (.var .jTemp)) (.neg (.num 42602775520927771 17))))),
  .set (.arr .jac 435) (.add (.rd (.arr .jac 435)) (.mul (.num 75163412436167021 17) (.mul (.rd (.var .jTemp)) (.neg (.num 42602775520927771 17)))))]

/-- utilities/mechanisms/drm19/lib/src/jacobs/jacob_1.c:578-584 -/
def jacobT46 : List CStmt := [
  .set (.var .jTemp) (.mul (.mul (.div (.num 1 0) (.rd (.var .T))) (.sub (.add (.mul (.sub (.rd (.arr .fwd 46)) (.rd (.arr .rev 46))) (.add (.num 16000000000000001 16) (.div (.num 27274500415366615 13) (.rd (.var .T))))) (.mul (.rd (.arr .fwd 46)) (.neg (.num 1 0)))) (.mul (.rd (.arr .rev 46)) (.add (.neg (.num 1 0)) (.mul (.neg (.rd (.var .T))) (.sub (.sub (.add (.rd (.arr .dBdT 7)) (.rd (.arr .dBdT 5))) (.rd (.arr .dBdT 9))) (.rd (.arr .dBdT 4)))))))) (.rd (.var .rhoInv))),
  .set (.arr .jac 10) (.add (.rd (.arr .jac 10)) (.mul (.neg (.rd (.var .jTemp))) (.num 1503482 5))),
  .set (.arr .jac 5) (.add (.rd (.arr .jac 5)) (.mul (.neg (.rd (.var .jTemp))) (.num 17007339999999999 15))),
  .set (.arr .jac 6) (.add (.rd (.arr .jac 6)) (.mul (.rd (.var .jTemp)) (.num 18015280000000001 15))),
  .set (.arr .jac 8) (.add (.rd (.arr .jac 8)) (.mul (.rd (.var .jTemp)) (.num 14026879999999998 15)))]

/-- utilities/mechanisms/drm19/lib/src/jacobs/jacob_1.c:585-676 -/
def jacobS46 : List CStmt := [
  .ite (.rd (.var .T)) (.num 1000 0) (.var .Kc) (.sub (.add (.add (.neg (.num 10828526299999992 16)) (.mul (.num 2957133999999999 16) (.rd (.var .logT)))) (.mul (.rd (.var .T)) (.add (.neg (.num 33859809350000002 20)) (.mul (.rd (.var .T)) (.add (.neg (.num 17214274166666659 23)) (.mul (.rd (.var .T)) (.add (.num 11778545249999987 26) (.mul (.neg (.num 22428833999999994 30)) (.rd (.var .T)))))))))) (.div (.neg (.num 43497659600000043 13)) (.rd (.var .T)))) (.sub (.add (.add (.neg (.num 234829278 8)) (.mul (.num 52948823000000012 17) (.rd (.var .logT)))) (.mul (.rd (.var .T)) (.add (.neg (.num 97750956300000024 20)) (.mul (.rd (.var .T)) (.add (.num 21460329399999999 23) (.mul (.rd (.var .T)) (.add (.neg (.num 2871674386666667 26)) (.mul (.num 16510772149999999 31) (.rd (.var .T)))))))))) (.div (.neg (.num 43749343999999983 13)) (.rd (.var .T)))),
  .set (.var .Kc) (.exp (.rd (.var .Kc))),
  .set (.var .jTemp) (.mul (.mul (.neg (.rd (.var .mwAvg))) (.rd (.var .rhoInv))) (.sub (.mul (.num 2 0) (.rd (.arr .fwd 46))) (.mul (.num 2 0) (.rd (.arr .rev 46))))),
  .set (.var .kf) (.exp (.sub (.add (.num 10933106969717286 15) (.mul (.num 16 1) (.rd (.var .logT)))) (.div (.num 27274500415366615 13) (.rd (.var .T))))),
  .set (.var .kr) (.div (.rd (.var .kf)) (.rd (.var .Kc))),
  .set (.arr .jac 31) (.add (.rd (.arr .jac 31)) (.mul (.neg (.num 74581919558703884 16)) (.mul (.rd (.var .jTemp)) (.num 92803892982949643 17)))),
  .set (.arr .jac 26) (.add (.rd (.arr .jac 26)) (.mul (.neg (.num 84366827390519266 16)) (.mul (.rd (.var .jTemp)) (.num 92803892982949643 17)))),
  .set (.arr .jac 27) (.add (.rd (.arr .jac 27)) (.mul (.num 89366827390519283 16) (.mul (.rd (.var .jTemp)) (.num 92803892982949643 17)))),
  .set (.arr .jac 29) (.add (.rd (.arr .jac 29)) (.mul (.num 69581919558703875 16) (.mul (.rd (.var .jTemp)) (.num 92803892982949643 17)))),
  .set (.arr .jac 52) (.add (.rd (.arr .jac 52)) (.mul (.neg (.num 14916383911740777 15)) (.mul (.rd (.var .jTemp)) (.num 96401946491474821 17)))),
  .set (.arr .jac 47) (.add (.rd (.arr .jac 47)) (.mul (.neg (.num 16873365478103853 15)) (.mul (.rd (.var .jTemp)) (.num 96401946491474821 17)))),
  .set (.arr .jac 48) (.add (.rd (.arr .jac 48)) (.mul (.num 17873365478103857 15) (.mul (.rd (.var .jTemp)) (.num 96401946491474821 17)))),
  .set (.arr .jac 50) (.add (.rd (.arr .jac 50)) (.mul (.num 13916383911740775 15) (.mul (.rd (.var .jTemp)) (.num 96401946491474821 17)))),
  .set (.arr .jac 73) (.add (.rd (.arr .jac 73)) (.mul (.neg (.num 93971148918084424 17)) (.mul (.rd (.var .jTemp)) (.num 42886781649405936 17)))),
  .set (.arr .jac 68) (.add (.rd (.arr .jac 68)) (.mul (.neg (.num 10629986124479667 16)) (.mul (.rd (.var .jTemp)) (.num 42886781649405936 17)))),
  .set (.arr .jac 69) (.add (.rd (.arr .jac 69)) (.mul (.num 11259972248959336 16) (.mul (.rd (.var .jTemp)) (.num 42886781649405936 17)))),
  .set (.arr .jac 71) (.add (.rd (.arr .jac 71)) (.mul (.num 87671287673287746 17) (.mul (.rd (.var .jTemp)) (.num 42886781649405936 17)))),
  .set (.arr .jac 94) (.add (.rd (.arr .jac 94)) (.mul (.neg (.num 46985574459042212 17)) (.mul (.rd (.var .jTemp)) (.neg (.num 14226436701188128 17))))),
  .set (.arr .jac 89) (.add (.rd (.arr .jac 89)) (.mul (.neg (.num 53149930622398334 17)) (.mul (.rd (.var .jTemp)) (.neg (.num 14226436701188128 17))))),
  .set (.arr .jac 90) (.add (.rd (.arr .jac 90)) (.mul (.num 56299861244796678 17) (.mul (.rd (.var .jTemp)) (.neg (.num 14226436701188128 17))))),
  .set (.arr .jac 92) (.add (.rd (.arr .jac 92)) (.mul (.num 43835643836643873 17) (.mul (.rd (.var .jTemp)) (.neg (.num 14226436701188128 17))))),
  .set (.arr .jac 115) (.add (.rd (.arr .jac 115)) (.mul (.neg (.num 88401948805633335 17)) (.add (.mul (.rd (.var .jTemp)) (.num 39288728140880758 17)) (.mul (.rd (.var .kf)) (.rd (.arr .C 9)))))),
  .set (.arr .jac 110) (.add (.rd (.arr .jac 110)) (.neg (.add (.mul (.rd (.var .jTemp)) (.num 39288728140880758 17)) (.mul (.rd (.var .kf)) (.rd (.arr .C 9)))))),
  .set (.arr .jac 111) (.add (.rd (.arr .jac 111)) (.mul (.num 10592649997001296 16) (.add (.mul (.rd (.var .jTemp)) (.num 39288728140880758 17)) (.mul (.rd (.var .kf)) (.rd (.arr .C 9)))))),
  .set (.arr .jac 113) (.add (.rd (.arr .jac 113)) (.mul (.num 8247544883562038 16) (.add (.mul (.rd (.var .jTemp)) (.num 39288728140880758 17)) (.mul (.rd (.var .kf)) (.rd (.arr .C 9)))))),
  .set (.arr .jac 136) (.add (.rd (.arr .jac 136)) (.mul (.neg (.num 83455932963573143 17)) (.sub (.mul (.rd (.var .jTemp)) (.num 35690674632355568 17)) (.mul (.rd (.var .kr)) (.rd (.arr .C 7)))))),
  .set (.arr .jac 131) (.add (.rd (.arr .jac 131)) (.mul (.neg (.num 94405082796381734 17)) (.sub (.mul (.rd (.var .jTemp)) (.num 35690674632355568 17)) (.mul (.rd (.var .kr)) (.rd (.arr .C 7)))))),
  .set (.arr .jac 132) (.add (.rd (.arr .jac 132)) (.sub (.mul (.rd (.var .jTemp)) (.num 35690674632355568 17)) (.mul (.rd (.var .kr)) (.rd (.arr .C 7))))),
  .set (.arr .jac 134) (.add (.rd (.arr .jac 134)) (.mul (.num 77861015759954877 17) (.sub (.mul (.rd (.var .jTemp)) (.num 35690674632355568 17)) (.mul (.rd (.var .kr)) (.rd (.arr .C 7)))))),
  .set (.arr .jac 157) (.add (.rd (.arr .jac 157)) (.mul (.neg (.num 45550757208982162 17)) (.mul (.rd (.var .jTemp)) (.neg (.num 17824490209713328 17))))),
  .set (.arr .jac 152) (.add (.rd (.arr .jac 152)) (.mul (.neg (.num 51526869966558342 17)) (.mul (.rd (.var .jTemp)) (.neg (.num 17824490209713328 17))))),
  .set (.arr .jac 153) (.add (.rd (.arr .jac 153)) (.mul (.num 54580609899675037 17) (.mul (.rd (.var .jTemp)) (.neg (.num 17824490209713328 17))))),
  .set (.arr .jac 155) (.add (.rd (.arr .jac 155)) (.mul (.num 42497017275865467 17) (.mul (.rd (.var .jTemp)) (.neg (.num 17824490209713328 17))))),
  .set (.arr .jac 178) (.add (.rd (.arr .jac 178)) (.mul (.neg (.num 10718577474106858 16)) (.sub (.mul (.rd (.var .jTemp)) (.num 49928106040377707 17)) (.mul (.rd (.var .kr)) (.rd (.arr .C 5)))))),
  .set (.arr .jac 173) (.add (.rd (.arr .jac 173)) (.mul (.neg (.num 12124820344937721 16)) (.sub (.mul (.rd (.var .jTemp)) (.num 49928106040377707 17)) (.mul (.rd (.var .kr)) (.rd (.arr .C 5)))))),
  .set (.arr .jac 174) (.add (.rd (.arr .jac 174)) (.mul (.num 1284339781904458 15) (.sub (.mul (.rd (.var .jTemp)) (.num 49928106040377707 17)) (.mul (.rd (.var .kr)) (.rd (.arr .C 5)))))),
  .set (.arr .jac 176) (.add (.rd (.arr .jac 176)) (.sub (.mul (.rd (.var .jTemp)) (.num 49928106040377707 17)) (.mul (.rd (.var .kr)) (.rd (.arr .C 5))))),
  .set (.arr .jac 199) (.add (.rd (.arr .jac 199)) (.mul (.neg (.num 10718577474106858 16)) (.mul (.rd (.var .jTemp)) (.num 49928106040377707 17)))),
  .set (.arr .jac 194) (.add (.rd (.arr .jac 194)) (.mul (.neg (.num 12124820344937721 16)) (.mul (.rd (.var .jTemp)) (.num 49928106040377707 17)))),
  .set (.arr .jac 195) (.add (.rd (.arr .jac 195)) (.mul (.num 1284339781904458 15) (.mul (.rd (.var .jTemp)) (.num 49928106040377707 17)))),
  .set (.arr .jac 197) (.add (.rd (.arr .jac 197)) (.mul (.rd (.var .jTemp)) (.num 49928106040377707 17))),
  .set (.arr .jac 220) (.add (.rd (.arr .jac 220)) (.neg (.add (.mul (.rd (.var .jTemp)) (.num 46330052531852528 17)) (.mul (.rd (.var .kf)) (.rd (.arr .C 4)))))),
  .set (.arr .jac 215) (.add (.rd (.arr .jac 215)) (.mul (.neg (.num 11311967818703517 16)) (.add (.mul (.rd (.var .jTemp)) (.num 46330052531852528 17)) (.mul (.rd (.var .kf)) (.rd (.arr .C 4)))))),
  .set (.arr .jac 216) (.add (.rd (.arr .jac 216)) (.mul (.num 11982371588086855 16) (.add (.mul (.rd (.var .jTemp)) (.num 46330052531852528 17)) (.mul (.rd (.var .kf)) (.rd (.arr .C 4)))))),
  .set (.arr .jac 218) (.add (.rd (.arr .jac 218)) (.mul (.num 93295962306166613 17) (.add (.mul (.rd (.var .jTemp)) (.num 46330052531852528 17)) (.mul (.rd (.var .kf)) (.rd (.arr .C 4)))))),
  .set (.arr .jac 241) (.add (.rd (.arr .jac 241)) (.mul (.neg (.num 93717165874201191 17)) (.mul (.rd (.var .jTemp)) (.num 42731999023327338 17)))),
  .set (.arr .jac 236) (.add (.rd (.arr .jac 236)) (.mul (.neg (.num 10601255644290632 16)) (.mul (.rd (.var .jTemp)) (.num 42731999023327338 17)))),
  .set (.arr .jac 237) (.add (.rd (.arr .jac 237)) (.mul (.num 11229539056870512 16) (.mul (.rd (.var .jTemp)) (.num 42731999023327338 17)))),
  .set (.arr .jac 239) (.add (.rd (.arr .jac 239)) (.mul (.num 87434331748402383 17) (.mul (.rd (.var .jTemp)) (.num 42731999023327338 17)))),
  .set (.arr .jac 262) (.add (.rd (.arr .jac 262)) (.mul (.neg (.num 53675848970382434 17)) (.mul (.rd (.var .jTemp)) (.num 10994706834011048 20)))),
  .set (.arr .jac 257) (.add (.rd (.arr .jac 257)) (.mul (.neg (.num 60717947619455637 17)) (.mul (.rd (.var .jTemp)) (.num 10994706834011048 20)))),
  .set (.arr .jac 258) (.add (.rd (.arr .jac 258)) (.mul (.num 64316396766915152 17) (.mul (.rd (.var .jTemp)) (.num 10994706834011048 20)))),
  .set (.arr .jac 260) (.add (.rd (.arr .jac 260)) (.mul (.num 50077399822922919 17) (.mul (.rd (.var .jTemp)) (.num 10994706834011048 20)))),
  .set (.arr .jac 283) (.add (.rd (.arr .jac 283)) (.mul (.neg (.num 34162436548223352 17)) (.mul (.rd (.var .jTemp)) (.neg (.num 57102223643760053 17))))),
  .set (.arr .jac 278) (.add (.rd (.arr .jac 278)) (.mul (.neg (.num 38644438284200339 17)) (.mul (.rd (.var .jTemp)) (.neg (.num 57102223643760053 17))))),
  .set (.arr .jac 279) (.add (.rd (.arr .jac 279)) (.mul (.num 40934700907525146 17) (.mul (.rd (.var .jTemp)) (.neg (.num 57102223643760053 17))))),
  .set (.arr .jac 281) (.add (.rd (.arr .jac 281)) (.mul (.num 31872173924898545 17) (.mul (.rd (.var .jTemp)) (.neg (.num 57102223643760053 17))))),
  .set (.arr .jac 304) (.add (.rd (.arr .jac 304)) (.mul (.neg (.num 5181144062685874 16)) (.mul (.rd (.var .jTemp)) (.neg (.num 35870588016911675 18))))),
  .set (.arr .jac 299) (.add (.rd (.arr .jac 299)) (.mul (.neg (.num 58608934901169396 17)) (.mul (.rd (.var .jTemp)) (.neg (.num 35870588016911675 18))))),
  .set (.arr .jac 300) (.add (.rd (.arr .jac 300)) (.mul (.num 62082393410512116 17) (.mul (.rd (.var .jTemp)) (.neg (.num 35870588016911675 18))))),
  .set (.arr .jac 302) (.add (.rd (.arr .jac 302)) (.mul (.num 48337982117516021 17) (.mul (.rd (.var .jTemp)) (.neg (.num 35870588016911675 18))))),
  .set (.arr .jac 325) (.add (.rd (.arr .jac 325)) (.mul (.neg (.num 50072203416473837 17)) (.mul (.rd (.var .jTemp)) (.neg (.num 71851123102163683 18))))),
  .set (.arr .jac 320) (.add (.rd (.arr .jac 320)) (.mul (.neg (.num 5664151536587283 16)) (.mul (.rd (.var .jTemp)) (.neg (.num 71851123102163683 18))))),
  .set (.arr .jac 321) (.add (.rd (.arr .jac 321)) (.mul (.num 59998374757046158 17) (.mul (.rd (.var .jTemp)) (.neg (.num 71851123102163683 18))))),
  .set (.arr .jac 323) (.add (.rd (.arr .jac 323)) (.mul (.num 46715344025300498 17) (.mul (.rd (.var .jTemp)) (.neg (.num 71851123102163683 18))))),
  .set (.arr .jac 346) (.add (.rd (.arr .jac 346)) (.mul (.neg (.num 4844594128674734 16)) (.mul (.rd (.var .jTemp)) (.neg (.num 10783165818741525 17))))),
  .set (.arr .jac 341) (.add (.rd (.arr .jac 341)) (.mul (.neg (.num 54801892878248593 17)) (.mul (.rd (.var .jTemp)) (.neg (.num 10783165818741525 17))))),
  .set (.arr .jac 342) (.add (.rd (.arr .jac 342)) (.mul (.num 58049727043244526 17) (.mul (.rd (.var .jTemp)) (.neg (.num 10783165818741525 17))))),
  .set (.arr .jac 344) (.add (.rd (.arr .jac 344)) (.mul (.num 45198107121751407 17) (.mul (.rd (.var .jTemp)) (.neg (.num 10783165818741525 17))))),
  .set (.arr .jac 367) (.add (.rd (.arr .jac 367)) (.mul (.neg (.num 53592887370534292 17)) (.mul (.rd (.var .jTemp)) (.neg (.num 14378791924458678 19))))),
  .set (.arr .jac 362) (.add (.rd (.arr .jac 362)) (.mul (.neg (.num 60624101724688606 17)) (.mul (.rd (.var .jTemp)) (.neg (.num 14378791924458678 19))))),
  .set (.arr .jac 363) (.add (.rd (.arr .jac 363)) (.mul (.num 64216989095222898 17) (.mul (.rd (.var .jTemp)) (.neg (.num 14378791924458678 19))))),
  .set (.arr .jac 365) (.add (.rd (.arr .jac 365)) (.mul (.num 5 1) (.mul (.rd (.var .jTemp)) (.neg (.num 14378791924458678 19))))),
  .set (.arr .jac 388) (.add (.rd (.arr .jac 388)) (.mul (.neg (.num 51734138057993861 17)) (.mul (.rd (.var .jTemp)) (.neg (.num 37418414277697654 18))))),
  .set (.arr .jac 383) (.add (.rd (.arr .jac 383)) (.mul (.neg (.num 58521490484039129 17)) (.mul (.rd (.var .jTemp)) (.neg (.num 37418414277697654 18))))),
  .set (.arr .jac 384) (.add (.rd (.arr .jac 384)) (.mul (.num 61989766600026841 17) (.mul (.rd (.var .jTemp)) (.neg (.num 37418414277697654 18))))),
  .set (.arr .jac 386) (.add (.rd (.arr .jac 386)) (.mul (.num 48265861942006144 17) (.mul (.rd (.var .jTemp)) (.neg (.num 37418414277697654 18))))),
  .set (.arr .jac 409) (.add (.rd (.arr .jac 409)) (.mul (.neg (.num 5 1)) (.mul (.rd (.var .jTemp)) (.neg (.num 73398949362949439 18))))),
  .set (.arr .jac 404) (.add (.rd (.arr .jac 404)) (.mul (.neg (.num 56559839093517583 17)) (.mul (.rd (.var .jTemp)) (.neg (.num 73398949362949439 18))))),
  .set (.arr .jac 405) (.add (.rd (.arr .jac 405)) (.mul (.num 59911857940434277 17) (.mul (.rd (.var .jTemp)) (.neg (.num 73398949362949439 18))))),
  .set (.arr .jac 407) (.add (.rd (.arr .jac 407)) (.mul (.num 46647981153083307 17) (.mul (.rd (.var .jTemp)) (.neg (.num 73398949362949439 18))))),
  .set (.arr .jac 430) (.add (.rd (.arr .jac 430)) (.mul (.neg (.num 37635976769800739 17)) (.mul (.rd (.var .jTemp)) (.neg (.num 42602775520927771 17))))),
  .set (.arr .jac 425) (.add (.rd (.arr .jac 425)) (.mul (.neg (.num 42573695804545908 17)) (.mul (.rd (.var .jTemp)) (.neg (.num 42602775520927771 17))))),
  .set (.arr .jac 426) (.add (.rd (.arr .jac 426)) (.mul (.num 45096825873635726 17) (.mul (.rd (.var .jTemp)) (.neg (.num 42602775520927771 17))))),
  .set (.arr .jac 428) (.add (.rd (.arr .jac 428)) (.mul (.num 3511284670071092 16) (.mul (.rd (.var .jTemp)) (.neg (.num 42602775520927771 17)))))]

/-- utilities/mechanisms/drm19/lib/src/jacobs/jacob_1.c:677-683 -/
def jacobT47 : List CStmt := [
  .set (.var .jTemp) (.mul (.mul (.div (.num 1 0) (.rd (.var .T))) (.sub (.mul (.rd (.arr .fwd 47)) (.neg (.num 1 0))) (.mul (.rd (.arr .rev 47)) (.add (.neg (.num 1 0)) (.mul (.neg (.rd (.var .T))) (.sub (.sub (.add (.rd (.arr .dBdT 8)) (.rd (.arr .dBdT 5))) (.rd (.arr .dBdT 9))) (.rd (.arr .dBdT 4)))))))) (.rd (.var .rhoInv))),
  .set (.arr .jac 9) (.add (.rd (.arr .jac 9)) (.mul (.rd (.var .jTemp)) (.num 14026879999999998 15))),
  .set (.arr .jac 10) (.add (.rd (.arr .jac 10)) (.mul (.neg (.rd (.var .jTemp))) (.num 1503482 5))),
  .set (.arr .jac 5) (.add (.rd (.arr .jac 5)) (.mul (.neg (.rd (.var .jTemp))) (.num 17007339999999999 15))),
  .set (.arr .jac 6) (.add (.rd (.arr .jac 6)) (.mul (.rd (.var .jTemp)) (.num 18015280000000001 15)))]

/-- utilities/mechanisms/drm19/lib/src/jacobs/jacob_1.c:684-775 -/
def jacobS47 : List CStmt := [
  .ite (.rd (.var .T)) (.num 1000 0) (.var .Kc) (.sub (.add (.add (.neg (.num 38504288869999992 16)) (.mul (.num 73163884000000001 17) (.rd (.var .logT)))) (.mul (.rd (.var .T)) (.add (.neg (.num 20063412599999999 19)) (.mul (.rd (.var .T)) (.add (.num 73420122333333318 23) (.mul (.rd (.var .T)) (.add (.neg (.num 11865190416666677 26)) (.mul (.neg (.num 96423250000000015 31)) (.rd (.var .T)))))))))) (.div (.num 14301023999999961 14) (.rd (.var .T)))) (.sub (.add (.add (.num 68907837999999932 17) (.mul (.neg (.num 5257448000000009 17)) (.rd (.var .logT)))) (.mul (.rd (.var .T)) (.add (.neg (.num 47776283799999997 20)) (.mul (.rd (.var .T)) (.add (.num 11410771066666668 23) (.mul (.rd (.var .T)) (.add (.neg (.num 15572872949999997 27)) (.mul (.num 89113322500000016 32) (.rd (.var .T)))))))))) (.div (.num 28746129999999903 14) (.rd (.var .T)))),
  .set (.var .Kc) (.exp (.rd (.var .Kc))),
  .set (.var .jTemp) (.mul (.mul (.neg (.rd (.var .mwAvg))) (.rd (.var .rhoInv))) (.sub (.mul (.num 2 0) (.rd (.arr .fwd 47))) (.mul (.num 2 0) (.rd (.arr .rev 47))))),
  .set (.var .kf) (.num 25010000000 0),
  .set (.var .kr) (.div (.rd (.var .kf)) (.rd (.var .Kc))),
  .set (.arr .jac 30) (.add (.rd (.arr .jac 30)) (.mul (.num 69581919558703875 16) (.mul (.rd (.var .jTemp)) (.num 92803892982949643 17)))),
  .set (.arr .jac 31) (.add (.rd (.arr .jac 31)) (.mul (.neg (.num 74581919558703884 16)) (.mul (.rd (.var .jTemp)) (.num 92803892982949643 17)))),
  .set (.arr .jac 26) (.add (.rd (.arr .jac 26)) (.mul (.neg (.num 84366827390519266 16)) (.mul (.rd (.var .jTemp)) (.num 92803892982949643 17)))),
  .set (.arr .jac 27) (.add (.rd (.arr .jac 27)) (.mul (.num 89366827390519283 16) (.mul (.rd (.var .jTemp)) (.num 92803892982949643 17)))),
  .set (.arr .jac 51) (.add (.rd (.arr .jac 51)) (.mul (.num 13916383911740775 15) (.mul (.rd (.var .jTemp)) (.num 96401946491474821 17)))),
  .set (.arr .jac 52) (.add (.rd (.arr .jac 52)) (.mul (.neg (.num 14916383911740777 15)) (.mul (.rd (.var .jTemp)) (.num 96401946491474821 17)))),
  .set (.arr .jac 47) (.add (.rd (.arr .jac 47)) (.mul (.neg (.num 16873365478103853 15)) (.mul (.rd (.var .jTemp)) (.num 96401946491474821 17)))),
  .set (.arr .jac 48) (.add (.rd (.arr .jac 48)) (.mul (.num 17873365478103857 15) (.mul (.rd (.var .jTemp)) (.num 96401946491474821 17)))),
  .set (.arr .jac 72) (.add (.rd (.arr .jac 72)) (.mul (.num 87671287673287746 17) (.mul (.rd (.var .jTemp)) (.num 42886781649405936 17)))),
  .set (.arr .jac 73) (.add (.rd (.arr .jac 73)) (.mul (.neg (.num 93971148918084424 17)) (.mul (.rd (.var .jTemp)) (.num 42886781649405936 17)))),
  .set (.arr .jac 68) (.add (.rd (.arr .jac 68)) (.mul (.neg (.num 10629986124479667 16)) (.mul (.rd (.var .jTemp)) (.num 42886781649405936 17)))),
  .set (.arr .jac 69) (.add (.rd (.arr .jac 69)) (.mul (.num 11259972248959336 16) (.mul (.rd (.var .jTemp)) (.num 42886781649405936 17)))),
  .set (.arr .jac 93) (.add (.rd (.arr .jac 93)) (.mul (.num 43835643836643873 17) (.mul (.rd (.var .jTemp)) (.neg (.num 14226436701188128 17))))),
  .set (.arr .jac 94) (.add (.rd (.arr .jac 94)) (.mul (.neg (.num 46985574459042212 17)) (.mul (.rd (.var .jTemp)) (.neg (.num 14226436701188128 17))))),
  .set (.arr .jac 89) (.add (.rd (.arr .jac 89)) (.mul (.neg (.num 53149930622398334 17)) (.mul (.rd (.var .jTemp)) (.neg (.num 14226436701188128 17))))),
  .set (.arr .jac 90) (.add (.rd (.arr .jac 90)) (.mul (.num 56299861244796678 17) (.mul (.rd (.var .jTemp)) (.neg (.num 14226436701188128 17))))),
  .set (.arr .jac 114) (.add (.rd (.arr .jac 114)) (.mul (.num 8247544883562038 16) (.add (.mul (.rd (.var .jTemp)) (.num 39288728140880758 17)) (.mul (.rd (.var .kf)) (.rd (.arr .C 9)))))),
  .set (.arr .jac 115) (.add (.rd (.arr .jac 115)) (.mul (.neg (.num 88401948805633335 17)) (.add (.mul (.rd (.var .jTemp)) (.num 39288728140880758 17)) (.mul (.rd (.var .kf)) (.rd (.arr .C 9)))))),
  .set (.arr .jac 110) (.add (.rd (.arr .jac 110)) (.neg (.add (.mul (.rd (.var .jTemp)) (.num 39288728140880758 17)) (.mul (.rd (.var .kf)) (.rd (.arr .C 9)))))),
  .set (.arr .jac 111) (.add (.rd (.arr .jac 111)) (.mul (.num 10592649997001296 16) (.add (.mul (.rd (.var .jTemp)) (.num 39288728140880758 17)) (.mul (.rd (.var .kf)) (.rd (.arr .C 9)))))),
  .set (.arr .jac 135) (.add (.rd (.arr .jac 135)) (.mul (.num 77861015759954877 17) (.sub (.mul (.rd (.var .jTemp)) (.num 35690674632355568 17)) (.mul (.rd (.var .kr)) (.rd (.arr .C 8)))))),
  .set (.arr .jac 136) (.add (.rd (.arr .jac 136)) (.mul (.neg (.num 83455932963573143 17)) (.sub (.mul (.rd (.var .jTemp)) (.num 35690674632355568 17)) (.mul (.rd (.var .kr)) (.rd (.arr .C 8)))))),
  .set (.arr .jac 131) (.add (.rd (.arr .jac 131)) (.mul (.neg (.num 94405082796381734 17)) (.sub (.mul (.rd (.var .jTemp)) (.num 35690674632355568 17)) (.mul (.rd (.var .kr)) (.rd (.arr .C 8)))))),
  .set (.arr .jac 132) (.add (.rd (.arr .jac 132)) (.sub (.mul (.rd (.var .jTemp)) (.num 35690674632355568 17)) (.mul (.rd (.var .kr)) (.rd (.arr .C 8))))),
  .set (.arr .jac 156) (.add (.rd (.arr .jac 156)) (.mul (.num 42497017275865467 17) (.mul (.rd (.var .jTemp)) (.neg (.num 17824490209713328 17))))),
  .set (.arr .jac 157) (.add (.rd (.arr .jac 157)) (.mul (.neg (.num 45550757208982162 17)) (.mul (.rd (.var .jTemp)) (.neg (.num 17824490209713328 17))))),
  .set (.arr .jac 152) (.add (.rd (.arr .jac 152)) (.mul (.neg (.num 51526869966558342 17)) (.mul (.rd (.var .jTemp)) (.neg (.num 17824490209713328 17))))),
  .set (.arr .jac 153) (.add (.rd (.arr .jac 153)) (.mul (.num 54580609899675037 17) (.mul (.rd (.var .jTemp)) (.neg (.num 17824490209713328 17))))),
  .set (.arr .jac 177) (.add (.rd (.arr .jac 177)) (.mul (.rd (.var .jTemp)) (.num 49928106040377707 17))),
  .set (.arr .jac 178) (.add (.rd (.arr .jac 178)) (.mul (.neg (.num 10718577474106858 16)) (.mul (.rd (.var .jTemp)) (.num 49928106040377707 17)))),
  .set (.arr .jac 173) (.add (.rd (.arr .jac 173)) (.mul (.neg (.num 12124820344937721 16)) (.mul (.rd (.var .jTemp)) (.num 49928106040377707 17)))),
  .set (.arr .jac 174) (.add (.rd (.arr .jac 174)) (.mul (.num 1284339781904458 15) (.mul (.rd (.var .jTemp)) (.num 49928106040377707 17)))),
  .set (.arr .jac 198) (.add (.rd (.arr .jac 198)) (.sub (.mul (.rd (.var .jTemp)) (.num 49928106040377707 17)) (.mul (.rd (.var .kr)) (.rd (.arr .C 5))))),
  .set (.arr .jac 199) (.add (.rd (.arr .jac 199)) (.mul (.neg (.num 10718577474106858 16)) (.sub (.mul (.rd (.var .jTemp)) (.num 49928106040377707 17)) (.mul (.rd (.var .kr)) (.rd (.arr .C 5)))))),
  .set (.arr .jac 194) (.add (.rd (.arr .jac 194)) (.mul (.neg (.num 12124820344937721 16)) (.sub (.mul (.rd (.var .jTemp)) (.num 49928106040377707 17)) (.mul (.rd (.var .kr)) (.rd (.arr .C 5)))))),
  .set (.arr .jac 195) (.add (.rd (.arr .jac 195)) (.mul (.num 1284339781904458 15) (.sub (.mul (.rd (.var .jTemp)) (.num 49928106040377707 17)) (.mul (.rd (.var .kr)) (.rd (.arr .C 5)))))),
  .set (.arr .jac 219) (.add (.rd (.arr .jac 219)) (.mul (.num 93295962306166613 17) (.add (.mul (.rd (.var .jTemp)) (.num 46330052531852528 17)) (.mul (.rd (.var .kf)) (.rd (.arr .C 4)))))),
  .set (.arr .jac 220) (.add (.rd (.arr .jac 220)) (.neg (.add (.mul (.rd (.var .jTemp)) (.num 46330052531852528 17)) (.mul (.rd (.var .kf)) (.rd (.arr .C 4)))))),
  .set (.arr .jac 215) (.add (.rd (.arr .jac 215)) (.mul (.neg (.num 11311967818703517 16)) (.add (.mul (.rd (.var .jTemp)) (.num 46330052531852528 17)) (.mul (.rd (.var .kf)) (.rd (.arr .C 4)))))),
  .set (.arr .jac 216) (.add (.rd (.arr .jac 216)) (.mul (.num 11982371588086855 16) (.add (.mul (.rd (.var .jTemp)) (.num 46330052531852528 17)) (.mul (.rd (.var .kf)) (.rd (.arr .C 4)))))),
  .set (.arr .jac 240) (.add (.rd (.arr .jac 240)) (.mul (.num 87434331748402383 17) (.mul (.rd (.var .jTemp)) (.num 42731999023327338 17)))),
  .set (.arr .jac 241) (.add (.rd (.arr .jac 241)) (.mul (.neg (.num 93717165874201191 17)) (.mul (.rd (.var .jTemp)) (.num 42731999023327338 17)))),
  .set (.arr .jac 236) (.add (.rd (.arr .jac 236)) (.mul (.neg (.num 10601255644290632 16)) (.mul (.rd (.var .jTemp)) (.num 42731999023327338 17)))),
  .set (.arr .jac 237) (.add (.rd (.arr .jac 237)) (.mul (.num 11229539056870512 16) (.mul (.rd (.var .jTemp)) (.num 42731999023327338 17)))),
  .set (.arr .jac 261) (.add (.rd (.arr .jac 261)) (.mul (.num 50077399822922919 17) (.mul (.rd (.var .jTemp)) (.num 10994706834011048 20)))),
  .set (.arr .jac 262) (.add (.rd (.arr .jac 262)) (.mul (.neg (.num 53675848970382434 17)) (.mul (.rd (.var .jTemp)) (.num 10994706834011048 20)))),
  .set (.arr .jac 257) (.add (.rd (.arr .jac 257)) (.mul (.neg (.num 60717947619455637 17)) (.mul (.rd (.var .jTemp)) (.num 10994706834011048 20)))),
  .set (.arr .jac 258) (.add (.rd (.arr .jac 258)) (.mul (.num 64316396766915152 17) (.mul (.rd (.var .jTemp)) (.num 10994706834011048 20)))),
  .set (.arr .jac 282) (.add (.rd (.arr .jac 282)) (.mul (.num 31872173924898545 17) (.mul (.rd (.var .jTemp)) (.neg (.num 57102223643760053 17))))),
  .set (.arr .jac 283) (.add (.rd (.arr .jac 283)) (.mul (.neg (.num 34162436548223352 17)) (.mul (.rd (.var .jTemp)) (.neg (.num 57102223643760053 17))))),
  .set (.arr .jac 278) (.add (.rd (.arr .jac 278)) (.mul (.neg (.num 38644438284200339 17)) (.mul (.rd (.var .jTemp)) (.neg (.num 57102223643760053 17))))),
  .set (.arr .jac 279) (.add (.rd (.arr .jac 279)) (.mul (.num 40934700907525146 17) (.mul (.rd (.var .jTemp)) (.neg (.num 57102223643760053 17))))),
  .set (.arr .jac 303) (.add (.rd (.arr .jac 303)) (.mul (.num 48337982117516021 17) (.mul (.rd (.var .jTemp)) (.neg (.num 35870588016911675 18))))),
  .set (.arr .jac 304) (.add (.rd (.arr .jac 304)) (.mul (.neg (.num 5181144062685874 16)) (.mul (.rd (.var .jTemp)) (.neg (.num 35870588016911675 18))))),
  .set (.arr .jac 299) (.add (.rd (.arr .jac 299)) (.mul (.neg (.num 58608934901169396 17)) (.mul (.rd (.var .jTemp)) (.neg (.num 35870588016911675 18))))),
  .set (.arr .jac 300) (.add (.rd (.arr .jac 300)) (.mul (.num 62082393410512116 17) (.mul (.rd (.var .jTemp)) (.neg (.num 35870588016911675 18))))),
  .set (.arr .jac 324) (.add (.rd (.arr .jac 324)) (.mul (.num 46715344025300498 17) (.mul (.rd (.var .jTemp)) (.neg (.num 71851123102163683 18))))),
  .set (.arr .jac 325) (.add (.rd (.arr .jac 325)) (.mul (.neg (.num 50072203416473837 17)) (.mul (.rd (.var .jTemp)) (.neg (.num 71851123102163683 18))))),
  .set (.arr .jac 320) (.add (.rd (.arr .jac 320)) (.mul (.neg (.num 5664151536587283 16)) (.mul (.rd (.var .jTemp)) (.neg (.num 71851123102163683 18))))),
  .set (.arr .jac 321) (.add (.rd (.arr .jac 321)) (.mul (.num 59998374757046158 17) (.mul (.rd (.var .jTemp)) (.neg (.num 71851123102163683 18))))),
  .set (.arr .jac 345) (.add (.rd (.arr .jac 345)) (.mul (.num 45198107121751407 17) (.mul (.rd (.var .jTemp)) (.neg (.num 10783165818741525 17))))),
  .set (.arr .jac 346) (.add (.rd (.arr .jac 346)) (.mul (.neg (.num 4844594128674734 16)) (.mul (.rd (.var .jTemp)) (.neg (.num 10783165818741525 17))))),
  .set (.arr .jac 341) (.add (.rd (.arr .jac 341)) (.mul (.neg (.num 54801892878248593 17)) (.mul (.rd (.var .jTemp)) (.neg (.num 10783165818741525 17))))),
  .set (.arr .jac 342) (.add (.rd (.arr .jac 342)) (.mul (.num 58049727043244526 17) (.mul (.rd (.var .jTemp)) (.neg (.num 10783165818741525 17))))),
  .set (.arr .jac 366) (.add (.rd (.arr .jac 366)) (.mul (.num 5 1) (.mul (.rd (.var .jTemp)) (.neg (.num 14378791924458678 19))))),
  .set (.arr .jac 367) (.add (.rd (.arr .jac 367)) (.mul (.neg (.num 53592887370534292 17)) (.mul (.rd (.var .jTemp)) (.neg (.num 14378791924458678 19))))),
  .set (.arr .jac 362) (.add (.rd (.arr .jac 362)) (.mul (.neg (.num 60624101724688606 17)) (.mul (.rd (.var .jTemp)) (.neg (.num 14378791924458678 19))))),
  .set (.arr .jac 363) (.add (.rd (.arr .jac 363)) (.mul (.num 64216989095222898 17) (.mul (.rd (.var .jTemp)) (.neg (.num 14378791924458678 19))))),
  .set (.arr .jac 387) (.add (.rd (.arr .jac 387)) (.mul (.num 48265861942006144 17) (.mul (.rd (.var .jTemp)) (.neg (.num 37418414277697654 18))))),
  .set (.arr .jac 388) (.add (.rd (.arr .jac 388)) (.mul (.neg (.num 51734138057993861 17)) (.mul (.rd (.var .jTemp)) (.neg (.num 37418414277697654 18))))),
  .set (.arr .jac 383) (.add (.rd (.arr .jac 383)) (.mul (.neg (.num 58521490484039129 17)) (.mul (.rd (.var .jTemp)) (.neg (.num 37418414277697654 18))))),
  .set (.arr .jac 384) (.add (.rd (.arr .jac 384)) (.mul (.num 61989766600026841 17) (.mul (.rd (.var .jTemp)) (.neg (.num 37418414277697654 18))))),
  .set (.arr .jac 408) (.add (.rd (.arr .jac 408)) (.mul (.num 46647981153083307 17) (.mul (.rd (.var .jTemp)) (.neg (.num 73398949362949439 18))))),
  .set (.arr .jac 409) (.add (.rd (.arr .jac 409)) (.mul (.neg (.num 5 1)) (.mul (.rd (.var .jTemp)) (.neg (.num 73398949362949439 18))))),
  .set (.arr .jac 404) (.add (.rd (.arr .jac 404)) (.mul (.neg (.num 56559839093517583 17)) (.mul (.rd (.var .jTemp)) (.neg (.num 73398949362949439 18))))),
  .set (.arr .jac 405) (.add (.rd (.arr .jac 405)) (.mul (.num 59911857940434277 17) (.mul (.rd (.var .jTemp)) (.neg (.num 73398949362949439 18))))),
  .set (.arr .jac 429) (.add (.rd (.arr .jac 429)) (.mul (.num 3511284670071092 16) (.mul (.rd (.var .jTemp)) (.neg (.num 42602775520927771 17))))),
  .set (.arr .jac 430) (.add (.rd (.arr .jac 430)) (.mul (.neg (.num 37635976769800739 17)) (.mul (.rd (.var .jTemp)) (.neg (.num 42602775520927771 17))))),
  .set (.arr .jac 425) (.add (.rd (.arr .jac 425)) (.mul (.neg (.num 42573695804545908 17)) (.mul (.rd (.var .jTemp)) (.neg (.num 42602775520927771 17))))),
  .set (.arr .jac 426) (.add (.rd (.arr .jac 426)) (.mul (.num 45096825873635726 17) (.mul (.rd (.var .jTemp)) (.neg (.num 42602775520927771 17)))))]

/-- utilities/mechanisms/drm19/lib/src/jacobs/jacob_1.c:776-782 -/
def jacobT48 : List CStmt := [
  .set (.var .jTemp) (.mul (.mul (.div (.num 1 0) (.rd (.var .T))) (.sub (.add (.mul (.sub (.rd (.arr .fwd 48)) (.rd (.arr .rev 48))) (.add (.num 16000000000000001 16) (.div (.num 15700450423605873 13) (.rd (.var .T))))) (.mul (.rd (.arr .fwd 48)) (.neg (.num 1 0)))) (.mul (.rd (.arr .rev 48)) (.add (.neg (.num 1 0)) (.mul (.neg (.rd (.var .T))) (.sub (.sub (.add (.rd (.arr .dBdT 5)) (.rd (.arr .dBdT 9))) (.rd (.arr .dBdT 10))) (.rd (.arr .dBdT 4)))))))) (.rd (.var .rhoInv))),
  .set (.arr .jac 10) (.add (.rd (.arr .jac 10)) (.mul (.rd (.var .jTemp)) (.num 1503482 5))),
  .set (.arr .jac 11) (.add (.rd (.arr .jac 11)) (.mul (.neg (.rd (.var .jTemp))) (.num 16042760000000001 15))),
  .set (.arr .jac 5) (.add (.rd (.arr .jac 5)) (.mul (.neg (.rd (.var .jTemp))) (.num 17007339999999999 15))),
  .set (.arr .jac 6) (.add (.rd (.arr .jac 6)) (.mul (.rd (.var .jTemp)) (.num 18015280000000001 15)))]

/-- utilities/mechanisms/drm19/lib/src/jacobs/jacob_1.c:783-874 -/
def jacobS48 : List CStmt := [
  .ite (.rd (.var .T)) (.num 1000 0) (.var .Kc) (.sub (.add (.add (.num 67704219400000003 16) (.mul (.neg (.num 1269660599999999 15)) (.rd (.var .logT)))) (.mul (.rd (.var .T)) (.add (.num 80234069850000003 19) (.mul (.rd (.var .T)) (.add (.neg (.num 69245629400000004 22)) (.mul (.rd (.var .T)) (.add (.num 33330242550000002 25) (.mul (.neg (.num 68588373949999998 29)) (.rd (.var .T)))))))))) (.div (.neg (.num 72171608599999963 13)) (.rd (.var .T)))) (.sub (.add (.add (.neg (.num 11619143255000001 15)) (.mul (.num 21519710450000002 16) (.rd (.var .logT)))) (.mul (.rd (.var .T)) (.add (.neg (.num 22612790030000001 19)) (.mul (.rd (.var .T)) (.add (.num 40918947733333328 23) (.mul (.rd (.var .T)) (.add (.neg (.num 53028044783333331 27)) (.mul (.num 30089326100000001 31) (.rd (.var .T)))))))))) (.div (.neg (.num 76190252099999998 13)) (.rd (.var .T)))),
  .set (.var .Kc) (.exp (.rd (.var .Kc))),
  .set (.var .jTemp) (.mul (.mul (.neg (.rd (.var .mwAvg))) (.rd (.var .rhoInv))) (.sub (.mul (.num 2 0) (.rd (.arr .fwd 48))) (.mul (.num 2 0) (.rd (.arr .rev 48))))),
  .set (.var .kf) (.exp (.sub (.add (.num 11512925464970229 15) (.mul (.num 16 1) (.rd (.var .logT)))) (.div (.num 15700450423605873 13) (.rd (.var .T))))),
  .set (.var .kr) (.div (.rd (.var .kf)) (.rd (.var .Kc))),
  .set (.arr .jac 31) (.add (.rd (.arr .jac 31)) (.mul (.num 74581919558703884 16) (.mul (.rd (.var .jTemp)) (.num 92803892982949643 17)))),
  .set (.arr .jac 32) (.add (.rd (.arr .jac 32)) (.mul (.neg (.num 79581919558703893 16)) (.mul (.rd (.var .jTemp)) (.num 92803892982949643 17)))),
  .set (.arr .jac 26) (.add (.rd (.arr .jac 26)) (.mul (.neg (.num 84366827390519266 16)) (.mul (.rd (.var .jTemp)) (.num 92803892982949643 17)))),
  .set (.arr .jac 27) (.add (.rd (.arr .jac 27)) (.mul (.num 89366827390519283 16) (.mul (.rd (.var .jTemp)) (.num 92803892982949643 17)))),
  .set (.arr .jac 52) (.add (.rd (.arr .jac 52)) (.mul (.num 14916383911740777 15) (.mul (.rd (.var .jTemp)) (.num 96401946491474821 17)))),
  .set (.arr .jac 53) (.add (.rd (.arr .jac 53)) (.mul (.neg (.num 15916383911740779 15)) (.mul (.rd (.var .jTemp)) (.num 96401946491474821 17)))),
  .set (.arr .jac 47) (.add (.rd (.arr .jac 47)) (.mul (.neg (.num 16873365478103853 15)) (.mul (.rd (.var .jTemp)) (.num 96401946491474821 17)))),
  .set (.arr .jac 48) (.add (.rd (.arr .jac 48)) (.mul (.num 17873365478103857 15) (.mul (.rd (.var .jTemp)) (.num 96401946491474821 17)))),
  .set (.arr .jac 73) (.add (.rd (.arr .jac 73)) (.mul (.num 93971148918084424 17) (.mul (.rd (.var .jTemp)) (.num 42886781649405936 17)))),
  .set (.arr .jac 74) (.add (.rd (.arr .jac 74)) (.mul (.neg (.num 10027101016288111 16)) (.mul (.rd (.var .jTemp)) (.num 42886781649405936 17)))),
  .set (.arr .jac 68) (.add (.rd (.arr .jac 68)) (.mul (.neg (.num 10629986124479667 16)) (.mul (.rd (.var .jTemp)) (.num 42886781649405936 17)))),
  .set (.arr .jac 69) (.add (.rd (.arr .jac 69)) (.mul (.num 11259972248959336 16) (.mul (.rd (.var .jTemp)) (.num 42886781649405936 17)))),
  .set (.arr .jac 94) (.add (.rd (.arr .jac 94)) (.mul (.num 46985574459042212 17) (.mul (.rd (.var .jTemp)) (.neg (.num 14226436701188128 17))))),
  .set (.arr .jac 95) (.add (.rd (.arr .jac 95)) (.mul (.neg (.num 50135505081440557 17)) (.mul (.rd (.var .jTemp)) (.neg (.num 14226436701188128 17))))),
  .set (.arr .jac 89) (.add (.rd (.arr .jac 89)) (.mul (.neg (.num 53149930622398334 17)) (.mul (.rd (.var .jTemp)) (.neg (.num 14226436701188128 17))))),
  .set (.arr .jac 90) (.add (.rd (.arr .jac 90)) (.mul (.num 56299861244796678 17) (.mul (.rd (.var .jTemp)) (.neg (.num 14226436701188128 17))))),
  .set (.arr .jac 115) (.add (.rd (.arr .jac 115)) (.mul (.num 88401948805633335 17) (.add (.mul (.rd (.var .jTemp)) (.num 39288728140880758 17)) (.mul (.rd (.var .kf)) (.rd (.arr .C 10)))))),
  .set (.arr .jac 116) (.add (.rd (.arr .jac 116)) (.mul (.neg (.num 9432844877564629 16)) (.add (.mul (.rd (.var .jTemp)) (.num 39288728140880758 17)) (.mul (.rd (.var .kf)) (.rd (.arr .C 10)))))),
  .set (.arr .jac 110) (.add (.rd (.arr .jac 110)) (.neg (.add (.mul (.rd (.var .jTemp)) (.num 39288728140880758 17)) (.mul (.rd (.var .kf)) (.rd (.arr .C 10)))))),
  .set (.arr .jac 111) (.add (.rd (.arr .jac 111)) (.mul (.num 10592649997001296 16) (.add (.mul (.rd (.var .jTemp)) (.num 39288728140880758 17)) (.mul (.rd (.var .kf)) (.rd (.arr .C 10)))))),
  .set (.arr .jac 136) (.add (.rd (.arr .jac 136)) (.mul (.num 83455932963573143 17) (.sub (.mul (.rd (.var .jTemp)) (.num 35690674632355568 17)) (.mul (.rd (.var .kr)) (.rd (.arr .C 9)))))),
  .set (.arr .jac 137) (.add (.rd (.arr .jac 137)) (.mul (.neg (.num 89050850167191409 17)) (.sub (.mul (.rd (.var .jTemp)) (.num 35690674632355568 17)) (.mul (.rd (.var .kr)) (.rd (.arr .C 9)))))),
  .set (.arr .jac 131) (.add (.rd (.arr .jac 131)) (.mul (.neg (.num 94405082796381734 17)) (.sub (.mul (.rd (.var .jTemp)) (.num 35690674632355568 17)) (.mul (.rd (.var .kr)) (.rd (.arr .C 9)))))),
  .set (.arr .jac 132) (.add (.rd (.arr .jac 132)) (.sub (.mul (.rd (.var .jTemp)) (.num 35690674632355568 17)) (.mul (.rd (.var .kr)) (.rd (.arr .C 9))))),
  .set (.arr .jac 157) (.add (.rd (.arr .jac 157)) (.mul (.num 45550757208982162 17) (.mul (.rd (.var .jTemp)) (.neg (.num 17824490209713328 17))))),
  .set (.arr .jac 158) (.add (.rd (.arr .jac 158)) (.mul (.neg (.num 48604497142098857 17)) (.mul (.rd (.var .jTemp)) (.neg (.num 17824490209713328 17))))),
  .set (.arr .jac 152) (.add (.rd (.arr .jac 152)) (.mul (.neg (.num 51526869966558342 17)) (.mul (.rd (.var .jTemp)) (.neg (.num 17824490209713328 17))))),
  .set (.arr .jac 153) (.add (.rd (.arr .jac 153)) (.mul (.num 54580609899675037 17) (.mul (.rd (.var .jTemp)) (.neg (.num 17824490209713328 17))))),
  .set (.arr .jac 178) (.add (.rd (.arr .jac 178)) (.mul (.num 10718577474106858 16) (.mul (.rd (.var .jTemp)) (.num 49928106040377707 17)))),
  .set (.arr .jac 179) (.add (.rd (.arr .jac 179)) (.mul (.neg (.num 11437154948213717 16)) (.mul (.rd (.var .jTemp)) (.num 49928106040377707 17)))),
  .set (.arr .jac 173) (.add (.rd (.arr .jac 173)) (.mul (.neg (.num 12124820344937721 16)) (.mul (.rd (.var .jTemp)) (.num 49928106040377707 17)))),
  .set (.arr .jac 174) (.add (.rd (.arr .jac 174)) (.mul (.num 1284339781904458 15) (.mul (.rd (.var .jTemp)) (.num 49928106040377707 17)))),
  .set (.arr .jac 199) (.add (.rd (.arr .jac 199)) (.mul (.num 10718577474106858 16) (.mul (.rd (.var .jTemp)) (.num 49928106040377707 17)))),
  .set (.arr .jac 200) (.add (.rd (.arr .jac 200)) (.mul (.neg (.num 11437154948213717 16)) (.mul (.rd (.var .jTemp)) (.num 49928106040377707 17)))),
  .set (.arr .jac 194) (.add (.rd (.arr .jac 194)) (.mul (.neg (.num 12124820344937721 16)) (.mul (.rd (.var .jTemp)) (.num 49928106040377707 17)))),
  .set (.arr .jac 195) (.add (.rd (.arr .jac 195)) (.mul (.num 1284339781904458 15) (.mul (.rd (.var .jTemp)) (.num 49928106040377707 17)))),
  .set (.arr .jac 220) (.add (.rd (.arr .jac 220)) (.sub (.mul (.rd (.var .jTemp)) (.num 46330052531852528 17)) (.mul (.rd (.var .kr)) (.rd (.arr .C 5))))),
  .set (.arr .jac 221) (.add (.rd (.arr .jac 221)) (.mul (.neg (.num 10670403769383339 16)) (.sub (.mul (.rd (.var .jTemp)) (.num 46330052531852528 17)) (.mul (.rd (.var .kr)) (.rd (.arr .C 5)))))),
  .set (.arr .jac 215) (.add (.rd (.arr .jac 215)) (.mul (.neg (.num 11311967818703517 16)) (.sub (.mul (.rd (.var .jTemp)) (.num 46330052531852528 17)) (.mul (.rd (.var .kr)) (.rd (.arr .C 5)))))),
  .set (.arr .jac 216) (.add (.rd (.arr .jac 216)) (.mul (.num 11982371588086855 16) (.sub (.mul (.rd (.var .jTemp)) (.num 46330052531852528 17)) (.mul (.rd (.var .kr)) (.rd (.arr .C 5)))))),
  .set (.arr .jac 241) (.add (.rd (.arr .jac 241)) (.mul (.num 93717165874201191 17) (.add (.mul (.rd (.var .jTemp)) (.num 42731999023327338 17)) (.mul (.rd (.var .kf)) (.rd (.arr .C 4)))))),
  .set (.arr .jac 242) (.add (.rd (.arr .jac 242)) (.neg (.add (.mul (.rd (.var .jTemp)) (.num 42731999023327338 17)) (.mul (.rd (.var .kf)) (.rd (.arr .C 4)))))),
  .set (.arr .jac 236) (.add (.rd (.arr .jac 236)) (.mul (.neg (.num 10601255644290632 16)) (.add (.mul (.rd (.var .jTemp)) (.num 42731999023327338 17)) (.mul (.rd (.var .kf)) (.rd (.arr .C 4)))))),
  .set (.arr .jac 237) (.add (.rd (.arr .jac 237)) (.mul (.num 11229539056870512 16) (.add (.mul (.rd (.var .jTemp)) (.num 42731999023327338 17)) (.mul (.rd (.var .kf)) (.rd (.arr .C 4)))))),
  .set (.arr .jac 262) (.add (.rd (.arr .jac 262)) (.mul (.num 53675848970382434 17) (.mul (.rd (.var .jTemp)) (.num 10994706834011048 20)))),
  .set (.arr .jac 263) (.add (.rd (.arr .jac 263)) (.mul (.neg (.num 5727429811784196 16)) (.mul (.rd (.var .jTemp)) (.num 10994706834011048 20)))),
  .set (.arr .jac 257) (.add (.rd (.arr .jac 257)) (.mul (.neg (.num 60717947619455637 17)) (.mul (.rd (.var .jTemp)) (.num 10994706834011048 20)))),
  .set (.arr .jac 258) (.add (.rd (.arr .jac 258)) (.mul (.num 64316396766915152 17) (.mul (.rd (.var .jTemp)) (.num 10994706834011048 20)))),
  .set (.arr .jac 283) (.add (.rd (.arr .jac 283)) (.mul (.num 34162436548223352 17) (.mul (.rd (.var .jTemp)) (.neg (.num 57102223643760053 17))))),
  .set (.arr .jac 284) (.add (.rd (.arr .jac 284)) (.mul (.neg (.num 36452699171548159 17)) (.mul (.rd (.var .jTemp)) (.neg (.num 57102223643760053 17))))),
  .set (.arr .jac 278) (.add (.rd (.arr .jac 278)) (.mul (.neg (.num 38644438284200339 17)) (.mul (.rd (.var .jTemp)) (.neg (.num 57102223643760053 17))))),
  .set (.arr .jac 279) (.add (.rd (.arr .jac 279)) (.mul (.num 40934700907525146 17) (.mul (.rd (.var .jTemp)) (.neg (.num 57102223643760053 17))))),
  .set (.arr .jac 304) (.add (.rd (.arr .jac 304)) (.mul (.num 5181144062685874 16) (.mul (.rd (.var .jTemp)) (.neg (.num 35870588016911675 18))))),
  .set (.arr .jac 305) (.add (.rd (.arr .jac 305)) (.mul (.neg (.num 5528489913620146 16)) (.mul (.rd (.var .jTemp)) (.neg (.num 35870588016911675 18))))),
  .set (.arr .jac 299) (.add (.rd (.arr .jac 299)) (.mul (.neg (.num 58608934901169396 17)) (.mul (.rd (.var .jTemp)) (.neg (.num 35870588016911675 18))))),
  .set (.arr .jac 300) (.add (.rd (.arr .jac 300)) (.mul (.num 62082393410512116 17) (.mul (.rd (.var .jTemp)) (.neg (.num 35870588016911675 18))))),
  .set (.arr .jac 325) (.add (.rd (.arr .jac 325)) (.mul (.num 50072203416473837 17) (.mul (.rd (.var .jTemp)) (.neg (.num 71851123102163683 18))))),
  .set (.arr .jac 326) (.add (.rd (.arr .jac 326)) (.mul (.neg (.num 53429062807647176 17)) (.mul (.rd (.var .jTemp)) (.neg (.num 71851123102163683 18))))),
  .set (.arr .jac 320) (.add (.rd (.arr .jac 320)) (.mul (.neg (.num 5664151536587283 16)) (.mul (.rd (.var .jTemp)) (.neg (.num 71851123102163683 18))))),
  .set (.arr .jac 321) (.add (.rd (.arr .jac 321)) (.mul (.num 59998374757046158 17) (.mul (.rd (.var .jTemp)) (.neg (.num 71851123102163683 18))))),
  .set (.arr .jac 346) (.add (.rd (.arr .jac 346)) (.mul (.num 4844594128674734 16) (.mul (.rd (.var .jTemp)) (.neg (.num 10783165818741525 17))))),
  .set (.arr .jac 347) (.add (.rd (.arr .jac 347)) (.mul (.neg (.num 51693775451743273 17)) (.mul (.rd (.var .jTemp)) (.neg (.num 10783165818741525 17))))),
  .set (.arr .jac 341) (.add (.rd (.arr .jac 341)) (.mul (.neg (.num 54801892878248593 17)) (.mul (.rd (.var .jTemp)) (.neg (.num 10783165818741525 17))))),
  .set (.arr .jac 342) (.add (.rd (.arr .jac 342)) (.mul (.num 58049727043244526 17) (.mul (.rd (.var .jTemp)) (.neg (.num 10783165818741525 17))))),
  .set (.arr .jac 367) (.add (.rd (.arr .jac 367)) (.mul (.num 53592887370534292 17) (.mul (.rd (.var .jTemp)) (.neg (.num 14378791924458678 19))))),
  .set (.arr .jac 368) (.add (.rd (.arr .jac 368)) (.mul (.neg (.num 57185774741068585 17)) (.mul (.rd (.var .jTemp)) (.neg (.num 14378791924458678 19))))),
  .set (.arr .jac 362) (.add (.rd (.arr .jac 362)) (.mul (.neg (.num 60624101724688606 17)) (.mul (.rd (.var .jTemp)) (.neg (.num 14378791924458678 19))))),
  .set (.arr .jac 363) (.add (.rd (.arr .jac 363)) (.mul (.num 64216989095222898 17) (.mul (.rd (.var .jTemp)) (.neg (.num 14378791924458678 19))))),
  .set (.arr .jac 388) (.add (.rd (.arr .jac 388)) (.mul (.num 51734138057993861 17) (.mul (.rd (.var .jTemp)) (.neg (.num 37418414277697654 18))))),
  .set (.arr .jac 389) (.add (.rd (.arr .jac 389)) (.mul (.neg (.num 55202414173981573 17)) (.mul (.rd (.var .jTemp)) (.neg (.num 37418414277697654 18))))),
  .set (.arr .jac 383) (.add (.rd (.arr .jac 383)) (.mul (.neg (.num 58521490484039129 17)) (.mul (.rd (.var .jTemp)) (.neg (.num 37418414277697654 18))))),
  .set (.arr .jac 384) (.add (.rd (.arr .jac 384)) (.mul (.num 61989766600026841 17) (.mul (.rd (.var .jTemp)) (.neg (.num 37418414277697654 18))))),
  .set (.arr .jac 409) (.add (.rd (.arr .jac 409)) (.mul (.num 5 1) (.mul (.rd (.var .jTemp)) (.neg (.num 73398949362949439 18))))),
  .set (.arr .jac 410) (.add (.rd (.arr .jac 410)) (.mul (.neg (.num 53352018846916693 17)) (.mul (.rd (.var .jTemp)) (.neg (.num 73398949362949439 18))))),
  .set (.arr .jac 404) (.add (.rd (.arr .jac 404)) (.mul (.neg (.num 56559839093517583 17)) (.mul (.rd (.var .jTemp)) (.neg (.num 73398949362949439 18))))),
  .set (.arr .jac 405) (.add (.rd (.arr .jac 405)) (.mul (.num 59911857940434277 17) (.mul (.rd (.var .jTemp)) (.neg (.num 73398949362949439 18))))),
  .set (.arr .jac 430) (.add (.rd (.arr .jac 430)) (.mul (.num 37635976769800739 17) (.mul (.rd (.var .jTemp)) (.neg (.num 42602775520927771 17))))),
  .set (.arr .jac 431) (.add (.rd (.arr .jac 431)) (.mul (.neg (.num 40159106838890563 17)) (.mul (.rd (.var .jTemp)) (.neg (.num 42602775520927771 17))))),
  .set (.arr .jac 425) (.add (.rd (.arr .jac 425)) (.mul (.neg (.num 42573695804545908 17)) (.mul (.rd (.var .jTemp)) (.neg (.num 42602775520927771 17))))),
  .set (.arr .jac 426) (.add (.rd (.arr .jac 426)) (.mul (.num 45096825873635726 17) (.mul (.rd (.var .jTemp)) (.neg (.num 42602775520927771 17)))))]

/-- utilities/mechanisms/drm19/lib/src/jacobs/jacob_1.c:875-881 -/
def jacobT49 : List CStmt := [
  .set (.var .jTemp) (.mul (.mul (.div (.num 1 0) (.rd (.var .T))) (.sub (.add (.mul (.sub (.rd (.arr .fwd 49)) (.rd (.arr .rev 49))) (.add (.num 1228 3) (.div (.num 35225369540141386 15) (.rd (.var .T))))) (.mul (.rd (.arr .fwd 49)) (.neg (.num 1 0)))) (.mul (.rd (.arr .rev 49)) (.add (.neg (.num 1 0)) (.mul (.neg (.rd (.var .T))) (.sub (.sub (.add (.rd (.arr .dBdT 1)) (.rd (.arr .dBdT 12))) (.rd (.arr .dBdT 11))) (.rd (.arr .dBdT 4)))))))) (.rd (.var .rhoInv))),
  .set (.arr .jac 2) (.add (.rd (.arr .jac 2)) (.mul (.rd (.var .jTemp)) (.num 10079400000000001 16))),
  .set (.arr .jac 12) (.add (.rd (.arr .jac 12)) (.mul (.neg (.rd (.var .jTemp))) (.num 28010399999999997 15))),
  .set (.arr .jac 5) (.add (.rd (.arr .jac 5)) (.mul (.neg (.rd (.var .jTemp))) (.num 17007339999999999 15))),
  .set (.arr .jac 13) (.add (.rd (.arr .jac 13)) (.mul (.rd (.var .jTemp)) (.num 44009799999999998 15)))]

/-- utilities/mechanisms/drm19/lib/src/jacobs/jacob_1.c:882-973 -/
def jacobS49 : List CStmt := [
  .ite (.rd (.var .T)) (.num 1000 0) (.var .Kc) (.sub (.add (.add (.num 87646609250000012 16) (.mul (.neg (.num 27147753799999998 16)) (.rd (.var .logT)))) (.mul (.rd (.var .T)) (.add (.num 59981339853526668 19) (.mul (.rd (.var .T)) (.add (.neg (.num 21263859053326532 22)) (.mul (.rd (.var .T)) (.add (.num 45277647235840138 26) (.mul (.neg (.num 30169487496386619 30)) (.rd (.var .T)))))))))) (.div (.neg (.num 12169304360000009 12)) (.rd (.var .T)))) (.sub (.add (.add (.neg (.num 11019815694 9)) (.mul (.num 54938702000000017 17) (.rd (.var .logT)))) (.mul (.rd (.var .T)) (.add (.num 90170654545785114 20) (.mul (.rd (.var .T)) (.add (.neg (.num 22374891347396753 23)) (.mul (.rd (.var .T)) (.add (.num 31781944238737311 27) (.mul (.neg (.num 19292440950901319 31)) (.rd (.var .T)))))))))) (.div (.neg (.num 12992290699999998 12)) (.rd (.var .T)))),
  .set (.var .Kc) (.exp (.rd (.var .Kc))),
  .set (.var .jTemp) (.mul (.mul (.neg (.rd (.var .mwAvg))) (.rd (.var .rhoInv))) (.sub (.mul (.num 2 0) (.rd (.arr .fwd 49))) (.mul (.num 2 0) (.rd (.arr .rev 49))))),
  .set (.var .kf) (.exp (.sub (.add (.num 10770588040219511 15) (.mul (.num 1228 3) (.rd (.var .logT)))) (.div (.num 35225369540141386 15) (.rd (.var .T))))),
  .set (.var .kr) (.div (.rd (.var .kf)) (.rd (.var .Kc))),
  .set (.arr .jac 23) (.add (.rd (.arr .jac 23)) (.mul (.num 5 1) (.mul (.rd (.var .jTemp)) (.num 92803892982949643 17)))),
  .set (.arr .jac 33) (.add (.rd (.arr .jac 33)) (.mul (.neg (.num 13894874694922315 15)) (.mul (.rd (.var .jTemp)) (.num 92803892982949643 17)))),
  .set (.arr .jac 26) (.add (.rd (.arr .jac 26)) (.mul (.neg (.num 84366827390519266 16)) (.mul (.rd (.var .jTemp)) (.num 92803892982949643 17)))),
  .set (.arr .jac 34) (.add (.rd (.arr .jac 34)) (.mul (.num 21831557433974243 15) (.mul (.rd (.var .jTemp)) (.num 92803892982949643 17)))),
  .set (.arr .jac 44) (.add (.rd (.arr .jac 44)) (.sub (.mul (.rd (.var .jTemp)) (.num 96401946491474821 17)) (.mul (.rd (.var .kr)) (.rd (.arr .C 12))))),
  .set (.arr .jac 54) (.add (.rd (.arr .jac 54)) (.mul (.neg (.num 2778974938984463 14)) (.sub (.mul (.rd (.var .jTemp)) (.num 96401946491474821 17)) (.mul (.rd (.var .kr)) (.rd (.arr .C 12)))))),
  .set (.arr .jac 47) (.add (.rd (.arr .jac 47)) (.mul (.neg (.num 16873365478103853 15)) (.sub (.mul (.rd (.var .jTemp)) (.num 96401946491474821 17)) (.mul (.rd (.var .kr)) (.rd (.arr .C 12)))))),
  .set (.arr .jac 55) (.add (.rd (.arr .jac 55)) (.mul (.num 43663114867948487 15) (.sub (.mul (.rd (.var .jTemp)) (.num 96401946491474821 17)) (.mul (.rd (.var .kr)) (.rd (.arr .C 12)))))),
  .set (.arr .jac 65) (.add (.rd (.arr .jac 65)) (.mul (.num 62998612447966798 18) (.mul (.rd (.var .jTemp)) (.num 42886781649405936 17)))),
  .set (.arr .jac 75) (.add (.rd (.arr .jac 75)) (.mul (.neg (.num 17507156518369438 16)) (.mul (.rd (.var .jTemp)) (.num 42886781649405936 17)))),
  .set (.arr .jac 68) (.add (.rd (.arr .jac 68)) (.mul (.neg (.num 10629986124479667 16)) (.mul (.rd (.var .jTemp)) (.num 42886781649405936 17)))),
  .set (.arr .jac 76) (.add (.rd (.arr .jac 76)) (.mul (.num 2750715651836944 15) (.mul (.rd (.var .jTemp)) (.num 42886781649405936 17)))),
  .set (.arr .jac 86) (.add (.rd (.arr .jac 86)) (.mul (.num 31499306223983399 18) (.mul (.rd (.var .jTemp)) (.neg (.num 14226436701188128 17))))),
  .set (.arr .jac 96) (.add (.rd (.arr .jac 96)) (.mul (.neg (.num 87535782591847189 17)) (.mul (.rd (.var .jTemp)) (.neg (.num 14226436701188128 17))))),
  .set (.arr .jac 89) (.add (.rd (.arr .jac 89)) (.mul (.neg (.num 53149930622398334 17)) (.mul (.rd (.var .jTemp)) (.neg (.num 14226436701188128 17))))),
  .set (.arr .jac 97) (.add (.rd (.arr .jac 97)) (.mul (.num 1375357825918472 15) (.mul (.rd (.var .jTemp)) (.neg (.num 14226436701188128 17))))),
  .set (.arr .jac 107) (.add (.rd (.arr .jac 107)) (.mul (.num 59264999700129481 18) (.add (.mul (.rd (.var .jTemp)) (.num 39288728140880758 17)) (.mul (.rd (.var .kf)) (.rd (.arr .C 11)))))),
  .set (.arr .jac 117) (.add (.rd (.arr .jac 117)) (.mul (.neg (.num 16469594892558153 16)) (.add (.mul (.rd (.var .jTemp)) (.num 39288728140880758 17)) (.mul (.rd (.var .kf)) (.rd (.arr .C 11)))))),
  .set (.arr .jac 110) (.add (.rd (.arr .jac 110)) (.neg (.add (.mul (.rd (.var .jTemp)) (.num 39288728140880758 17)) (.mul (.rd (.var .kf)) (.rd (.arr .C 11)))))),
  .set (.arr .jac 118) (.add (.rd (.arr .jac 118)) (.mul (.num 25876944895556862 16) (.add (.mul (.rd (.var .jTemp)) (.num 39288728140880758 17)) (.mul (.rd (.var .kf)) (.rd (.arr .C 11)))))),
  .set (.arr .jac 128) (.add (.rd (.arr .jac 128)) (.mul (.num 55949172036182618 18) (.mul (.rd (.var .jTemp)) (.num 35690674632355568 17)))),
  .set (.arr .jac 138) (.add (.rd (.arr .jac 138)) (.mul (.neg (.num 15548134694548181 16)) (.mul (.rd (.var .jTemp)) (.num 35690674632355568 17)))),
  .set (.arr .jac 131) (.add (.rd (.arr .jac 131)) (.mul (.neg (.num 94405082796381734 17)) (.mul (.rd (.var .jTemp)) (.num 35690674632355568 17)))),
  .set (.arr .jac 139) (.add (.rd (.arr .jac 139)) (.mul (.num 2442915125382453 15) (.mul (.rd (.var .jTemp)) (.num 35690674632355568 17)))),
  .set (.arr .jac 149) (.add (.rd (.arr .jac 149)) (.mul (.num 3053739933116691 17) (.mul (.rd (.var .jTemp)) (.neg (.num 17824490209713328 17))))),
  .set (.arr .jac 159) (.add (.rd (.arr .jac 159)) (.mul (.neg (.num 84862667443073736 17)) (.mul (.rd (.var .jTemp)) (.neg (.num 17824490209713328 17))))),
  .set (.arr .jac 152) (.add (.rd (.arr .jac 152)) (.mul (.neg (.num 51526869966558342 17)) (.mul (.rd (.var .jTemp)) (.neg (.num 17824490209713328 17))))),
  .set (.arr .jac 160) (.add (.rd (.arr .jac 160)) (.mul (.num 13333579747651541 16) (.mul (.rd (.var .jTemp)) (.neg (.num 17824490209713328 17))))),
  .set (.arr .jac 170) (.add (.rd (.arr .jac 170)) (.mul (.num 71857747410685777 18) (.mul (.rd (.var .jTemp)) (.num 49928106040377707 17)))),
  .set (.arr .jac 180) (.add (.rd (.arr .jac 180)) (.mul (.neg (.num 19969087922617146 16)) (.mul (.rd (.var .jTemp)) (.num 49928106040377707 17)))),
  .set (.arr .jac 173) (.add (.rd (.arr .jac 173)) (.mul (.neg (.num 12124820344937721 16)) (.mul (.rd (.var .jTemp)) (.num 49928106040377707 17)))),
  .set (.arr .jac 181) (.add (.rd (.arr .jac 181)) (.mul (.num 31375330793448009 16) (.mul (.rd (.var .jTemp)) (.num 49928106040377707 17)))),
  .set (.arr .jac 191) (.add (.rd (.arr .jac 191)) (.mul (.num 71857747410685777 18) (.mul (.rd (.var .jTemp)) (.num 49928106040377707 17)))),
  .set (.arr .jac 201) (.add (.rd (.arr .jac 201)) (.mul (.neg (.num 19969087922617146 16)) (.mul (.rd (.var .jTemp)) (.num 49928106040377707 17)))),
  .set (.arr .jac 194) (.add (.rd (.arr .jac 194)) (.mul (.neg (.num 12124820344937721 16)) (.mul (.rd (.var .jTemp)) (.num 49928106040377707 17)))),
  .set (.arr .jac 202) (.add (.rd (.arr .jac 202)) (.mul (.num 31375330793448009 16) (.mul (.rd (.var .jTemp)) (.num 49928106040377707 17)))),
  .set (.arr .jac 212) (.add (.rd (.arr .jac 212)) (.mul (.num 67040376938333812 18) (.mul (.rd (.var .jTemp)) (.num 46330052531852528 17)))),
  .set (.arr .jac 222) (.add (.rd (.arr .jac 222)) (.mul (.neg (.num 18630352741170162 16)) (.mul (.rd (.var .jTemp)) (.num 46330052531852528 17)))),
  .set (.arr .jac 215) (.add (.rd (.arr .jac 215)) (.mul (.neg (.num 11311967818703517 16)) (.mul (.rd (.var .jTemp)) (.num 46330052531852528 17)))),
  .set (.arr .jac 223) (.add (.rd (.arr .jac 223)) (.mul (.num 2927191679049034 15) (.mul (.rd (.var .jTemp)) (.num 46330052531852528 17)))),
  .set (.arr .jac 233) (.add (.rd (.arr .jac 233)) (.mul (.num 6282834125798803 17) (.mul (.rd (.var .jTemp)) (.num 42731999023327338 17)))),
  .set (.arr .jac 243) (.add (.rd (.arr .jac 243)) (.mul (.neg (.num 17459838581391229 16)) (.mul (.rd (.var .jTemp)) (.num 42731999023327338 17)))),
  .set (.arr .jac 236) (.add (.rd (.arr .jac 236)) (.mul (.neg (.num 10601255644290632 16)) (.mul (.rd (.var .jTemp)) (.num 42731999023327338 17)))),
  .set (.arr .jac 244) (.add (.rd (.arr .jac 244)) (.mul (.num 27432810813101982 16) (.mul (.rd (.var .jTemp)) (.num 42731999023327338 17)))),
  .set (.arr .jac 254) (.add (.rd (.arr .jac 254)) (.mul (.num 35984491474595155 18) (.add (.mul (.rd (.var .jTemp)) (.num 10994706834011048 20)) (.mul (.rd (.var .kf)) (.rd (.arr .C 4)))))),
  .set (.arr .jac 264) (.add (.rd (.arr .jac 264)) (.neg (.add (.mul (.rd (.var .jTemp)) (.num 10994706834011048 20)) (.mul (.rd (.var .kf)) (.rd (.arr .C 4)))))),
  .set (.arr .jac 257) (.add (.rd (.arr .jac 257)) (.mul (.neg (.num 60717947619455637 17)) (.add (.mul (.rd (.var .jTemp)) (.num 10994706834011048 20)) (.mul (.rd (.var .kf)) (.rd (.arr .C 4)))))),
  .set (.arr .jac 265) (.add (.rd (.arr .jac 265)) (.mul (.num 15711949847199613 16) (.add (.mul (.rd (.var .jTemp)) (.num 10994706834011048 20)) (.mul (.rd (.var .kf)) (.rd (.arr .C 4)))))),
  .set (.arr .jac 275) (.add (.rd (.arr .jac 275)) (.mul (.num 22902626233248052 18) (.sub (.mul (.rd (.var .jTemp)) (.neg (.num 57102223643760053 17))) (.mul (.rd (.var .kr)) (.rd (.arr .C 1)))))),
  .set (.arr .jac 285) (.add (.rd (.arr .jac 285)) (.mul (.neg (.num 63645824339124468 17)) (.sub (.mul (.rd (.var .jTemp)) (.neg (.num 57102223643760053 17))) (.mul (.rd (.var .kr)) (.rd (.arr .C 1)))))),
  .set (.arr .jac 278) (.add (.rd (.arr .jac 278)) (.mul (.neg (.num 38644438284200339 17)) (.sub (.mul (.rd (.var .jTemp)) (.neg (.num 57102223643760053 17))) (.mul (.rd (.var .kr)) (.rd (.arr .C 1)))))),
  .set (.arr .jac 286) (.add (.rd (.arr .jac 286)) (.sub (.mul (.rd (.var .jTemp)) (.neg (.num 57102223643760053 17))) (.mul (.rd (.var .kr)) (.rd (.arr .C 1))))),
  .set (.arr .jac 296) (.add (.rd (.arr .jac 296)) (.mul (.num 34734585093427126 18) (.mul (.rd (.var .jTemp)) (.neg (.num 35870588016911675 18))))),
  .set (.arr .jac 306) (.add (.rd (.arr .jac 306)) (.mul (.neg (.num 96526541490657281 17)) (.mul (.rd (.var .jTemp)) (.neg (.num 35870588016911675 18))))),
  .set (.arr .jac 299) (.add (.rd (.arr .jac 299)) (.mul (.neg (.num 58608934901169396 17)) (.mul (.rd (.var .jTemp)) (.neg (.num 35870588016911675 18))))),
  .set (.arr .jac 307) (.add (.rd (.arr .jac 307)) (.mul (.num 15166201788248397 16) (.mul (.rd (.var .jTemp)) (.neg (.num 35870588016911675 18))))),
  .set (.arr .jac 317) (.add (.rd (.arr .jac 317)) (.mul (.num 33568593911733322 18) (.mul (.rd (.var .jTemp)) (.neg (.num 71851123102163683 18))))),
  .set (.arr .jac 327) (.add (.rd (.arr .jac 327)) (.mul (.neg (.num 93286281217653322 17)) (.mul (.rd (.var .jTemp)) (.neg (.num 71851123102163683 18))))),
  .set (.arr .jac 320) (.add (.rd (.arr .jac 320)) (.mul (.neg (.num 5664151536587283 16)) (.mul (.rd (.var .jTemp)) (.neg (.num 71851123102163683 18))))),
  .set (.arr .jac 328) (.add (.rd (.arr .jac 328)) (.mul (.num 14657093719235283 16) (.mul (.rd (.var .jTemp)) (.neg (.num 71851123102163683 18))))),
  .set (.arr .jac 338) (.add (.rd (.arr .jac 338)) (.mul (.num 32478341649959309 18) (.mul (.rd (.var .jTemp)) (.neg (.num 10783165818741525 17))))),
  .set (.arr .jac 348) (.add (.rd (.arr .jac 348)) (.mul (.neg (.num 90256497505012201 17)) (.mul (.rd (.var .jTemp)) (.neg (.num 10783165818741525 17))))),
  .set (.arr .jac 341) (.add (.rd (.arr .jac 341)) (.mul (.neg (.num 54801892878248593 17)) (.mul (.rd (.var .jTemp)) (.neg (.num 10783165818741525 17))))),
  .set (.arr .jac 349) (.add (.rd (.arr .jac 349)) (.mul (.num 14181055621826488 16) (.mul (.rd (.var .jTemp)) (.neg (.num 10783165818741525 17))))),
  .set (.arr .jac 359) (.add (.rd (.arr .jac 359)) (.mul (.num 35928873705342888 18) (.mul (.rd (.var .jTemp)) (.neg (.num 14378791924458678 19))))),
  .set (.arr .jac 369) (.add (.rd (.arr .jac 369)) (.mul (.neg (.num 99845439613085729 17)) (.mul (.rd (.var .jTemp)) (.neg (.num 14378791924458678 19))))),
  .set (.arr .jac 362) (.add (.rd (.arr .jac 362)) (.mul (.neg (.num 60624101724688606 17)) (.mul (.rd (.var .jTemp)) (.neg (.num 14378791924458678 19))))),
  .set (.arr .jac 370) (.add (.rd (.arr .jac 370)) (.mul (.num 15687665396724004 16) (.mul (.rd (.var .jTemp)) (.neg (.num 14378791924458678 19))))),
  .set (.arr .jac 380) (.add (.rd (.arr .jac 380)) (.mul (.num 3468276115987709 17) (.mul (.rd (.var .jTemp)) (.neg (.num 37418414277697654 18))))),
  .set (.arr .jac 390) (.add (.rd (.arr .jac 390)) (.mul (.neg (.num 96382524078082144 17)) (.mul (.rd (.var .jTemp)) (.neg (.num 37418414277697654 18))))),
  .set (.arr .jac 383) (.add (.rd (.arr .jac 383)) (.mul (.neg (.num 58521490484039129 17)) (.mul (.rd (.var .jTemp)) (.neg (.num 37418414277697654 18))))),
  .set (.arr .jac 391) (.add (.rd (.arr .jac 391)) (.mul (.num 15143573844613358 16) (.mul (.rd (.var .jTemp)) (.neg (.num 37418414277697654 18))))),
  .set (.arr .jac 401) (.add (.rd (.arr .jac 401)) (.mul (.num 33520188469166906 18) (.mul (.rd (.var .jTemp)) (.neg (.num 73398949362949439 18))))),
  .set (.arr .jac 411) (.add (.rd (.arr .jac 411)) (.mul (.neg (.num 9315176370585081 16)) (.mul (.rd (.var .jTemp)) (.neg (.num 73398949362949439 18))))),
  .set (.arr .jac 404) (.add (.rd (.arr .jac 404)) (.mul (.neg (.num 56559839093517583 17)) (.mul (.rd (.var .jTemp)) (.neg (.num 73398949362949439 18))))),
  .set (.arr .jac 412) (.add (.rd (.arr .jac 412)) (.mul (.num 1463595839524517 15) (.mul (.rd (.var .jTemp)) (.neg (.num 73398949362949439 18))))),
  .set (.arr .jac 422) (.add (.rd (.arr .jac 422)) (.mul (.num 2523130069089817 17) (.mul (.rd (.var .jTemp)) (.neg (.num 42602775520927771 17))))),
  .set (.arr .jac 432) (.add (.rd (.arr .jac 432)) (.mul (.neg (.num 70117152297987373 17)) (.mul (.rd (.var .jTemp)) (.neg (.num 42602775520927771 17))))),
  .set (.arr .jac 425) (.add (.rd (.arr .jac 425)) (.mul (.neg (.num 42573695804545908 17)) (.mul (.rd (.var .jTemp)) (.neg (.num 42602775520927771 17))))),
  .set (.arr .jac 433) (.add (.rd (.arr .jac 433)) (.mul (.num 11016771803344347 16) (.mul (.rd (.var .jTemp)) (.neg (.num 42602775520927771 17)))))]

/-- utilities/mechanisms/drm19/lib/src/jacobs/jacob_1.c:974-980 -/
def jacobT50 : List CStmt := [
  .set (.var .jTemp) (.mul (.mul (.div (.num 1 0) (.rd (.var .T))) (.sub (.mul (.rd (.arr .fwd 50)) (.neg (.num 1 0))) (.mul (.rd (.arr .rev 50)) (.add (.neg (.num 1 0)) (.mul (.neg (.rd (.var .T))) (.sub (.sub (.add (.rd (.arr .dBdT 5)) (.rd (.arr .dBdT 11))) (.rd (.arr .dBdT 13))) (.rd (.arr .dBdT 4)))))))) (.rd (.var .rhoInv))),
  .set (.arr .jac 12) (.add (.rd (.arr .jac 12)) (.mul (.rd (.var .jTemp)) (.num 28010399999999997 15))),
  .set (.arr .jac 5) (.add (.rd (.arr .jac 5)) (.mul (.neg (.rd (.var .jTemp))) (.num 17007339999999999 15))),
  .set (.arr .jac 14) (.add (.rd (.arr .jac 14)) (.mul (.neg (.rd (.var .jTemp))) (.num 29018339999999998 15))),
  .set (.arr .jac 6) (.add (.rd (.arr .jac 6)) (.mul (.rd (.var .jTemp)) (.num 18015280000000001 15)))]

/-- utilities/mechanisms/drm19/lib/src/jacobs/jacob_1.c:981-1072 -/
def jacobS50 : List CStmt := [
  .ite (.rd (.var .T)) (.num 1000 0) (.var .Kc) (.sub (.add (.add (.neg (.num 19604265999999981 17)) (.mul (.neg (.num 43502724000000015 17)) (.rd (.var .logT)))) (.mul (.rd (.var .T)) (.add (.num 14992275299999999 19) (.mul (.rd (.var .T)) (.add (.neg (.num 18101110950000002 22)) (.mul (.rd (.var .T)) (.add (.num 10512148244999999 25) (.mul (.neg (.num 24171248394999997 29)) (.rd (.var .T)))))))))) (.div (.neg (.num 5209245822 5)) (.rd (.var .T)))) (.sub (.add (.add (.neg (.num 137369925 8)) (.mul (.neg (.num 11588395000000018 17)) (.rd (.var .logT)))) (.mul (.rd (.var .T)) (.add (.neg (.num 63296975299999953 20)) (.mul (.rd (.var .T)) (.add (.num 1991754355 16) (.mul (.rd (.var .T)) (.add (.neg (.num 30683716783333336 27)) (.mul (.num 19032480549999999 31) (.rd (.var .T)))))))))) (.div (.neg (.num 52026744650000001 12)) (.rd (.var .T)))),
  .set (.var .Kc) (.exp (.rd (.var .Kc))),
  .set (.var .jTemp) (.mul (.mul (.neg (.rd (.var .mwAvg))) (.rd (.var .rhoInv))) (.sub (.mul (.num 2 0) (.rd (.arr .fwd 50))) (.mul (.num 2 0) (.rd (.arr .rev 50))))),
  .set (.var .kf) (.num 50000000000 0),
  .set (.var .kr) (.div (.rd (.var .kf)) (.rd (.var .Kc))),
  .set (.arr .jac 33) (.add (.rd (.arr .jac 33)) (.mul (.num 13894874694922315 15) (.mul (.rd (.var .jTemp)) (.num 92803892982949643 17)))),
  .set (.arr .jac 26) (.add (.rd (.arr .jac 26)) (.mul (.neg (.num 84366827390519266 16)) (.mul (.rd (.var .jTemp)) (.num 92803892982949643 17)))),
  .set (.arr .jac 35) (.add (.rd (.arr .jac 35)) (.mul (.neg (.num 14394874694922315 15)) (.mul (.rd (.var .jTemp)) (.num 92803892982949643 17)))),
  .set (.arr .jac 27) (.add (.rd (.arr .jac 27)) (.mul (.num 89366827390519283 16) (.mul (.rd (.var .jTemp)) (.num 92803892982949643 17)))),
  .set (.arr .jac 54) (.add (.rd (.arr .jac 54)) (.mul (.num 2778974938984463 14) (.mul (.rd (.var .jTemp)) (.num 96401946491474821 17)))),
  .set (.arr .jac 47) (.add (.rd (.arr .jac 47)) (.mul (.neg (.num 16873365478103853 15)) (.mul (.rd (.var .jTemp)) (.num 96401946491474821 17)))),
  .set (.arr .jac 56) (.add (.rd (.arr .jac 56)) (.mul (.neg (.num 2878974938984463 14)) (.mul (.rd (.var .jTemp)) (.num 96401946491474821 17)))),
  .set (.arr .jac 48) (.add (.rd (.arr .jac 48)) (.mul (.num 17873365478103857 15) (.mul (.rd (.var .jTemp)) (.num 96401946491474821 17)))),
  .set (.arr .jac 75) (.add (.rd (.arr .jac 75)) (.mul (.num 17507156518369438 16) (.mul (.rd (.var .jTemp)) (.num 42886781649405936 17)))),
  .set (.arr .jac 68) (.add (.rd (.arr .jac 68)) (.mul (.neg (.num 10629986124479667 16)) (.mul (.rd (.var .jTemp)) (.num 42886781649405936 17)))),
  .set (.arr .jac 77) (.add (.rd (.arr .jac 77)) (.mul (.neg (.num 18137142642849107 16)) (.mul (.rd (.var .jTemp)) (.num 42886781649405936 17)))),
  .set (.arr .jac 69) (.add (.rd (.arr .jac 69)) (.mul (.num 11259972248959336 16) (.mul (.rd (.var .jTemp)) (.num 42886781649405936 17)))),
  .set (.arr .jac 96) (.add (.rd (.arr .jac 96)) (.mul (.num 87535782591847189 17) (.mul (.rd (.var .jTemp)) (.neg (.num 14226436701188128 17))))),
  .set (.arr .jac 89) (.add (.rd (.arr .jac 89)) (.mul (.neg (.num 53149930622398334 17)) (.mul (.rd (.var .jTemp)) (.neg (.num 14226436701188128 17))))),
  .set (.arr .jac 98) (.add (.rd (.arr .jac 98)) (.mul (.neg (.num 90685713214245534 17)) (.mul (.rd (.var .jTemp)) (.neg (.num 14226436701188128 17))))),
  .set (.arr .jac 90) (.add (.rd (.arr .jac 90)) (.mul (.num 56299861244796678 17) (.mul (.rd (.var .jTemp)) (.neg (.num 14226436701188128 17))))),
  .set (.arr .jac 117) (.add (.rd (.arr .jac 117)) (.mul (.num 16469594892558153 16) (.add (.mul (.rd (.var .jTemp)) (.num 39288728140880758 17)) (.mul (.rd (.var .kf)) (.rd (.arr .C 13)))))),
  .set (.arr .jac 110) (.add (.rd (.arr .jac 110)) (.neg (.add (.mul (.rd (.var .jTemp)) (.num 39288728140880758 17)) (.mul (.rd (.var .kf)) (.rd (.arr .C 13)))))),
  .set (.arr .jac 119) (.add (.rd (.arr .jac 119)) (.mul (.neg (.num 17062244889559448 16)) (.add (.mul (.rd (.var .jTemp)) (.num 39288728140880758 17)) (.mul (.rd (.var .kf)) (.rd (.arr .C 13)))))),
  .set (.arr .jac 111) (.add (.rd (.arr .jac 111)) (.mul (.num 10592649997001296 16) (.add (.mul (.rd (.var .jTemp)) (.num 39288728140880758 17)) (.mul (.rd (.var .kf)) (.rd (.arr .C 13)))))),
  .set (.arr .jac 138) (.add (.rd (.arr .jac 138)) (.mul (.num 15548134694548181 16) (.sub (.mul (.rd (.var .jTemp)) (.num 35690674632355568 17)) (.mul (.rd (.var .kr)) (.rd (.arr .C 11)))))),
  .set (.arr .jac 131) (.add (.rd (.arr .jac 131)) (.mul (.neg (.num 94405082796381734 17)) (.sub (.mul (.rd (.var .jTemp)) (.num 35690674632355568 17)) (.mul (.rd (.var .kr)) (.rd (.arr .C 11)))))),
  .set (.arr .jac 140) (.add (.rd (.arr .jac 140)) (.mul (.neg (.num 16107626414910008 16)) (.sub (.mul (.rd (.var .jTemp)) (.num 35690674632355568 17)) (.mul (.rd (.var .kr)) (.rd (.arr .C 11)))))),
  .set (.arr .jac 132) (.add (.rd (.arr .jac 132)) (.sub (.mul (.rd (.var .jTemp)) (.num 35690674632355568 17)) (.mul (.rd (.var .kr)) (.rd (.arr .C 11))))),
  .set (.arr .jac 159) (.add (.rd (.arr .jac 159)) (.mul (.num 84862667443073736 17) (.mul (.rd (.var .jTemp)) (.neg (.num 17824490209713328 17))))),
  .set (.arr .jac 152) (.add (.rd (.arr .jac 152)) (.mul (.neg (.num 51526869966558342 17)) (.mul (.rd (.var .jTemp)) (.neg (.num 17824490209713328 17))))),
  .set (.arr .jac 161) (.add (.rd (.arr .jac 161)) (.mul (.neg (.num 87916407376190431 17)) (.mul (.rd (.var .jTemp)) (.neg (.num 17824490209713328 17))))),
  .set (.arr .jac 153) (.add (.rd (.arr .jac 153)) (.mul (.num 54580609899675037 17) (.mul (.rd (.var .jTemp)) (.neg (.num 17824490209713328 17))))),
  .set (.arr .jac 180) (.add (.rd (.arr .jac 180)) (.mul (.num 19969087922617146 16) (.mul (.rd (.var .jTemp)) (.num 49928106040377707 17)))),
  .set (.arr .jac 173) (.add (.rd (.arr .jac 173)) (.mul (.neg (.num 12124820344937721 16)) (.mul (.rd (.var .jTemp)) (.num 49928106040377707 17)))),
  .set (.arr .jac 182) (.add (.rd (.arr .jac 182)) (.mul (.neg (.num 20687665396724007 16)) (.mul (.rd (.var .jTemp)) (.num 49928106040377707 17)))),
  .set (.arr .jac 174) (.add (.rd (.arr .jac 174)) (.mul (.num 1284339781904458 15) (.mul (.rd (.var .jTemp)) (.num 49928106040377707 17)))),
  .set (.arr .jac 201) (.add (.rd (.arr .jac 201)) (.mul (.num 19969087922617146 16) (.mul (.rd (.var .jTemp)) (.num 49928106040377707 17)))),
  .set (.arr .jac 194) (.add (.rd (.arr .jac 194)) (.mul (.neg (.num 12124820344937721 16)) (.mul (.rd (.var .jTemp)) (.num 49928106040377707 17)))),
  .set (.arr .jac 203) (.add (.rd (.arr .jac 203)) (.mul (.neg (.num 20687665396724007 16)) (.mul (.rd (.var .jTemp)) (.num 49928106040377707 17)))),
  .set (.arr .jac 195) (.add (.rd (.arr .jac 195)) (.mul (.num 1284339781904458 15) (.mul (.rd (.var .jTemp)) (.num 49928106040377707 17)))),
  .set (.arr .jac 222) (.add (.rd (.arr .jac 222)) (.mul (.num 18630352741170162 16) (.mul (.rd (.var .jTemp)) (.num 46330052531852528 17)))),
  .set (.arr .jac 215) (.add (.rd (.arr .jac 215)) (.mul (.neg (.num 11311967818703517 16)) (.mul (.rd (.var .jTemp)) (.num 46330052531852528 17)))),
  .set (.arr .jac 224) (.add (.rd (.arr .jac 224)) (.mul (.neg (.num 19300756510553501 16)) (.mul (.rd (.var .jTemp)) (.num 46330052531852528 17)))),
  .set (.arr .jac 216) (.add (.rd (.arr .jac 216)) (.mul (.num 11982371588086855 16) (.mul (.rd (.var .jTemp)) (.num 46330052531852528 17)))),
  .set (.arr .jac 243) (.add (.rd (.arr .jac 243)) (.mul (.num 17459838581391229 16) (.mul (.rd (.var .jTemp)) (.num 42731999023327338 17)))),
  .set (.arr .jac 236) (.add (.rd (.arr .jac 236)) (.mul (.neg (.num 10601255644290632 16)) (.mul (.rd (.var .jTemp)) (.num 42731999023327338 17)))),
  .set (.arr .jac 245) (.add (.rd (.arr .jac 245)) (.mul (.neg (.num 18088121993971109 16)) (.mul (.rd (.var .jTemp)) (.num 42731999023327338 17)))),
  .set (.arr .jac 237) (.add (.rd (.arr .jac 237)) (.mul (.num 11229539056870512 16) (.mul (.rd (.var .jTemp)) (.num 42731999023327338 17)))),
  .set (.arr .jac 264) (.add (.rd (.arr .jac 264)) (.sub (.mul (.rd (.var .jTemp)) (.num 10994706834011048 20)) (.mul (.rd (.var .kr)) (.rd (.arr .C 5))))),
  .set (.arr .jac 257) (.add (.rd (.arr .jac 257)) (.mul (.neg (.num 60717947619455637 17)) (.sub (.mul (.rd (.var .jTemp)) (.num 10994706834011048 20)) (.mul (.rd (.var .kr)) (.rd (.arr .C 5)))))),
  .set (.arr .jac 266) (.add (.rd (.arr .jac 266)) (.mul (.neg (.num 10359844914745953 16)) (.sub (.mul (.rd (.var .jTemp)) (.num 10994706834011048 20)) (.mul (.rd (.var .kr)) (.rd (.arr .C 5)))))),
  .set (.arr .jac 258) (.add (.rd (.arr .jac 258)) (.mul (.num 64316396766915152 17) (.sub (.mul (.rd (.var .jTemp)) (.num 10994706834011048 20)) (.mul (.rd (.var .kr)) (.rd (.arr .C 5)))))),
  .set (.arr .jac 285) (.add (.rd (.arr .jac 285)) (.mul (.num 63645824339124468 17) (.mul (.rd (.var .jTemp)) (.neg (.num 57102223643760053 17))))),
  .set (.arr .jac 278) (.add (.rd (.arr .jac 278)) (.mul (.neg (.num 38644438284200339 17)) (.mul (.rd (.var .jTemp)) (.neg (.num 57102223643760053 17))))),
  .set (.arr .jac 287) (.add (.rd (.arr .jac 287)) (.mul (.neg (.num 6593608696244927 16)) (.mul (.rd (.var .jTemp)) (.neg (.num 57102223643760053 17))))),
  .set (.arr .jac 279) (.add (.rd (.arr .jac 279)) (.mul (.num 40934700907525146 17) (.mul (.rd (.var .jTemp)) (.neg (.num 57102223643760053 17))))),
  .set (.arr .jac 306) (.add (.rd (.arr .jac 306)) (.mul (.num 96526541490657281 17) (.add (.mul (.rd (.var .jTemp)) (.neg (.num 35870588016911675 18))) (.mul (.rd (.var .kf)) (.rd (.arr .C 4)))))),
  .set (.arr .jac 299) (.add (.rd (.arr .jac 299)) (.mul (.neg (.num 58608934901169396 17)) (.add (.mul (.rd (.var .jTemp)) (.neg (.num 35870588016911675 18))) (.mul (.rd (.var .kf)) (.rd (.arr .C 4)))))),
  .set (.arr .jac 308) (.add (.rd (.arr .jac 308)) (.neg (.add (.mul (.rd (.var .jTemp)) (.neg (.num 35870588016911675 18))) (.mul (.rd (.var .kf)) (.rd (.arr .C 4)))))),
  .set (.arr .jac 300) (.add (.rd (.arr .jac 300)) (.mul (.num 62082393410512116 17) (.add (.mul (.rd (.var .jTemp)) (.neg (.num 35870588016911675 18))) (.mul (.rd (.var .kf)) (.rd (.arr .C 4)))))),
  .set (.arr .jac 327) (.add (.rd (.arr .jac 327)) (.mul (.num 93286281217653322 17) (.mul (.rd (.var .jTemp)) (.neg (.num 71851123102163683 18))))),
  .set (.arr .jac 320) (.add (.rd (.arr .jac 320)) (.mul (.neg (.num 5664151536587283 16)) (.mul (.rd (.var .jTemp)) (.neg (.num 71851123102163683 18))))),
  .set (.arr .jac 329) (.add (.rd (.arr .jac 329)) (.mul (.neg (.num 96643140608826661 17)) (.mul (.rd (.var .jTemp)) (.neg (.num 71851123102163683 18))))),
  .set (.arr .jac 321) (.add (.rd (.arr .jac 321)) (.mul (.num 59998374757046158 17) (.mul (.rd (.var .jTemp)) (.neg (.num 71851123102163683 18))))),
  .set (.arr .jac 348) (.add (.rd (.arr .jac 348)) (.mul (.num 90256497505012201 17) (.mul (.rd (.var .jTemp)) (.neg (.num 10783165818741525 17))))),
  .set (.arr .jac 341) (.add (.rd (.arr .jac 341)) (.mul (.neg (.num 54801892878248593 17)) (.mul (.rd (.var .jTemp)) (.neg (.num 10783165818741525 17))))),
  .set (.arr .jac 350) (.add (.rd (.arr .jac 350)) (.mul (.neg (.num 93504331670008145 17)) (.mul (.rd (.var .jTemp)) (.neg (.num 10783165818741525 17))))),
  .set (.arr .jac 342) (.add (.rd (.arr .jac 342)) (.mul (.num 58049727043244526 17) (.mul (.rd (.var .jTemp)) (.neg (.num 10783165818741525 17))))),
  .set (.arr .jac 369) (.add (.rd (.arr .jac 369)) (.mul (.num 99845439613085729 17) (.mul (.rd (.var .jTemp)) (.neg (.num 14378791924458678 19))))),
  .set (.arr .jac 362) (.add (.rd (.arr .jac 362)) (.mul (.neg (.num 60624101724688606 17)) (.mul (.rd (.var .jTemp)) (.neg (.num 14378791924458678 19))))),
  .set (.arr .jac 371) (.add (.rd (.arr .jac 371)) (.mul (.neg (.num 10343832698362003 16)) (.mul (.rd (.var .jTemp)) (.neg (.num 14378791924458678 19))))),
  .set (.arr .jac 363) (.add (.rd (.arr .jac 363)) (.mul (.num 64216989095222898 17) (.mul (.rd (.var .jTemp)) (.neg (.num 14378791924458678 19))))),
  .set (.arr .jac 390) (.add (.rd (.arr .jac 390)) (.mul (.num 96382524078082144 17) (.mul (.rd (.var .jTemp)) (.neg (.num 37418414277697654 18))))),
  .set (.arr .jac 383) (.add (.rd (.arr .jac 383)) (.mul (.neg (.num 58521490484039129 17)) (.mul (.rd (.var .jTemp)) (.neg (.num 37418414277697654 18))))),
  .set (.arr .jac 392) (.add (.rd (.arr .jac 392)) (.mul (.neg (.num 99850800194069855 17)) (.mul (.rd (.var .jTemp)) (.neg (.num 37418414277697654 18))))),
  .set (.arr .jac 384) (.add (.rd (.arr .jac 384)) (.mul (.num 61989766600026841 17) (.mul (.rd (.var .jTemp)) (.neg (.num 37418414277697654 18))))),
  .set (.arr .jac 411) (.add (.rd (.arr .jac 411)) (.mul (.num 9315176370585081 16) (.mul (.rd (.var .jTemp)) (.neg (.num 73398949362949439 18))))),
  .set (.arr .jac 404) (.add (.rd (.arr .jac 404)) (.mul (.neg (.num 56559839093517583 17)) (.mul (.rd (.var .jTemp)) (.neg (.num 73398949362949439 18))))),
  .set (.arr .jac 413) (.add (.rd (.arr .jac 413)) (.mul (.neg (.num 96503782552767503 17)) (.mul (.rd (.var .jTemp)) (.neg (.num 73398949362949439 18))))),
  .set (.arr .jac 405) (.add (.rd (.arr .jac 405)) (.mul (.num 59911857940434277 17) (.mul (.rd (.var .jTemp)) (.neg (.num 73398949362949439 18))))),
  .set (.arr .jac 432) (.add (.rd (.arr .jac 432)) (.mul (.num 70117152297987373 17) (.mul (.rd (.var .jTemp)) (.neg (.num 42602775520927771 17))))),
  .set (.arr .jac 425) (.add (.rd (.arr .jac 425)) (.mul (.neg (.num 42573695804545908 17)) (.mul (.rd (.var .jTemp)) (.neg (.num 42602775520927771 17))))),
  .set (.arr .jac 434) (.add (.rd (.arr .jac 434)) (.mul (.neg (.num 72640282367077191 17)) (.mul (.rd (.var .jTemp)) (.neg (.num 42602775520927771 17))))),
  .set (.arr .jac 426) (.add (.rd (.arr .jac 426)) (.mul (.num 45096825873635726 17) (.mul (.rd (.var .jTemp)) (.neg (.num 42602775520927771 17)))))]

/-- utilities/mechanisms/drm19/lib/src/jacobs/jacob_1.c:1073-1079 -/
def jacobT51 : List CStmt := [
  .set (.var .jTemp) (.mul (.mul (.div (.num 1 0) (.rd (.var .T))) (.sub (.add (.mul (.sub (.rd (.arr .fwd 51)) (.rd (.arr .rev 51))) (.add (.num 11799999999999999 16) (.div (.neg (.num 2249391454920457 13)) (.rd (.var .T))))) (.mul (.rd (.arr .fwd 51)) (.neg (.num 1 0)))) (.mul (.rd (.arr .rev 51)) (.add (.neg (.num 1 0)) (.mul (.neg (.rd (.var .T))) (.sub (.sub (.add (.rd (.arr .dBdT 5)) (.rd (.arr .dBdT 13))) (.rd (.arr .dBdT 14))) (.rd (.arr .dBdT 4)))))))) (.rd (.var .rhoInv))),
  .set (.arr .jac 5) (.add (.rd (.arr .jac 5)) (.mul (.neg (.rd (.var .jTemp))) (.num 17007339999999999 15))),
  .set (.arr .jac 6) (.add (.rd (.arr .jac 6)) (.mul (.rd (.var .jTemp)) (.num 18015280000000001 15))),
  .set (.arr .jac 15) (.add (.rd (.arr .jac 15)) (.mul (.neg (.rd (.var .jTemp))) (.num 3002628 5))),
  .set (.arr .jac 14) (.add (.rd (.arr .jac 14)) (.mul (.rd (.var .jTemp)) (.num 29018339999999998 15)))]

/-- utilities/mechanisms/drm19/lib/src/jacobs/jacob_1.c:1080-1171 -/
def jacobS51 : List CStmt := [
  .ite (.rd (.var .T)) (.num 1000 0) (.var .Kc) (.sub (.add (.add (.num 24123649600000001 16) (.mul (.neg (.num 36591217999999914 17)) (.rd (.var .logT)))) (.mul (.rd (.var .T)) (.add (.num 35146458949999997 19) (.mul (.rd (.var .T)) (.add (.neg (.num 36065987499999994 22)) (.mul (.rd (.var .T)) (.add (.num 19172732924999999 25) (.mul (.neg (.num 42158565400000001 29)) (.rd (.var .T)))))))))) (.div (.neg (.num 15760285599999999 12)) (.rd (.var .T)))) (.sub (.add (.add (.neg (.num 43204932000000005 16)) (.mul (.num 95258912000000007 17) (.rd (.var .logT)))) (.mul (.rd (.var .T)) (.add (.neg (.num 1307278618 12)) (.mul (.rd (.var .T)) (.add (.num 27459237566666661 23) (.mul (.rd (.var .T)) (.add (.neg (.num 35528847783333325 27)) (.mul (.num 20056777250000003 31) (.rd (.var .T)))))))))) (.div (.neg (.num 15855203650000001 12)) (.rd (.var .T)))),
  .set (.var .Kc) (.exp (.rd (.var .Kc))),
  .set (.var .jTemp) (.mul (.mul (.neg (.rd (.var .mwAvg))) (.rd (.var .rhoInv))) (.sub (.mul (.num 2 0) (.rd (.arr .fwd 51))) (.mul (.num 2 0) (.rd (.arr .rev 51))))),
  .set (.var .kf) (.exp (.sub (.add (.num 15048070819142122 15) (.mul (.num 118 2) (.rd (.var .logT)))) (.div (.neg (.num 2249391454920457 13)) (.rd (.var .T))))),
  .set (.var .kr) (.div (.rd (.var .kf)) (.rd (.var .Kc))),
  .set (.arr .jac 26) (.add (.rd (.arr .jac 26)) (.mul (.neg (.num 84366827390519266 16)) (.mul (.rd (.var .jTemp)) (.num 92803892982949643 17)))),
  .set (.arr .jac 27) (.add (.rd (.arr .jac 27)) (.mul (.num 89366827390519283 16) (.mul (.rd (.var .jTemp)) (.num 92803892982949643 17)))),
  .set (.arr .jac 36) (.add (.rd (.arr .jac 36)) (.mul (.neg (.num 14894874694922317 15)) (.mul (.rd (.var .jTemp)) (.num 92803892982949643 17)))),
  .set (.arr .jac 35) (.add (.rd (.arr .jac 35)) (.mul (.num 14394874694922315 15) (.mul (.rd (.var .jTemp)) (.num 92803892982949643 17)))),
  .set (.arr .jac 47) (.add (.rd (.arr .jac 47)) (.mul (.neg (.num 16873365478103853 15)) (.mul (.rd (.var .jTemp)) (.num 96401946491474821 17)))),
  .set (.arr .jac 48) (.add (.rd (.arr .jac 48)) (.mul (.num 17873365478103857 15) (.mul (.rd (.var .jTemp)) (.num 96401946491474821 17)))),
  .set (.arr .jac 57) (.add (.rd (.arr .jac 57)) (.mul (.neg (.num 29789749389844633 15)) (.mul (.rd (.var .jTemp)) (.num 96401946491474821 17)))),
  .set (.arr .jac 56) (.add (.rd (.arr .jac 56)) (.mul (.num 2878974938984463 14) (.mul (.rd (.var .jTemp)) (.num 96401946491474821 17)))),
  .set (.arr .jac 68) (.add (.rd (.arr .jac 68)) (.mul (.neg (.num 10629986124479667 16)) (.mul (.rd (.var .jTemp)) (.num 42886781649405936 17)))),
  .set (.arr .jac 69) (.add (.rd (.arr .jac 69)) (.mul (.num 11259972248959336 16) (.mul (.rd (.var .jTemp)) (.num 42886781649405936 17)))),
  .set (.arr .jac 78) (.add (.rd (.arr .jac 78)) (.mul (.neg (.num 18767128767328776 16)) (.mul (.rd (.var .jTemp)) (.num 42886781649405936 17)))),
  .set (.arr .jac 77) (.add (.rd (.arr .jac 77)) (.mul (.num 18137142642849107 16) (.mul (.rd (.var .jTemp)) (.num 42886781649405936 17)))),
  .set (.arr .jac 89) (.add (.rd (.arr .jac 89)) (.mul (.neg (.num 53149930622398334 17)) (.mul (.rd (.var .jTemp)) (.neg (.num 14226436701188128 17))))),
  .set (.arr .jac 90) (.add (.rd (.arr .jac 90)) (.mul (.num 56299861244796678 17) (.mul (.rd (.var .jTemp)) (.neg (.num 14226436701188128 17))))),
  .set (.arr .jac 99) (.add (.rd (.arr .jac 99)) (.mul (.neg (.num 93835643836643878 17)) (.mul (.rd (.var .jTemp)) (.neg (.num 14226436701188128 17))))),
  .set (.arr .jac 98) (.add (.rd (.arr .jac 98)) (.mul (.num 90685713214245534 17) (.mul (.rd (.var .jTemp)) (.neg (.num 14226436701188128 17))))),
  .set (.arr .jac 110) (.add (.rd (.arr .jac 110)) (.neg (.add (.mul (.rd (.var .jTemp)) (.num 39288728140880758 17)) (.mul (.rd (.var .kf)) (.rd (.arr .C 14)))))),
  .set (.arr .jac 111) (.add (.rd (.arr .jac 111)) (.mul (.num 10592649997001296 16) (.add (.mul (.rd (.var .jTemp)) (.num 39288728140880758 17)) (.mul (.rd (.var .kf)) (.rd (.arr .C 14)))))),
  .set (.arr .jac 120) (.add (.rd (.arr .jac 120)) (.mul (.neg (.num 17654894886560744 16)) (.add (.mul (.rd (.var .jTemp)) (.num 39288728140880758 17)) (.mul (.rd (.var .kf)) (.rd (.arr .C 14)))))),
  .set (.arr .jac 119) (.add (.rd (.arr .jac 119)) (.mul (.num 17062244889559448 16) (.add (.mul (.rd (.var .jTemp)) (.num 39288728140880758 17)) (.mul (.rd (.var .kf)) (.rd (.arr .C 14)))))),
  .set (.arr .jac 131) (.add (.rd (.arr .jac 131)) (.mul (.neg (.num 94405082796381734 17)) (.sub (.mul (.rd (.var .jTemp)) (.num 35690674632355568 17)) (.mul (.rd (.var .kr)) (.rd (.arr .C 13)))))),
  .set (.arr .jac 132) (.add (.rd (.arr .jac 132)) (.sub (.mul (.rd (.var .jTemp)) (.num 35690674632355568 17)) (.mul (.rd (.var .kr)) (.rd (.arr .C 13))))),
  .set (.arr .jac 141) (.add (.rd (.arr .jac 141)) (.mul (.neg (.num 16667118135271835 16)) (.sub (.mul (.rd (.var .jTemp)) (.num 35690674632355568 17)) (.mul (.rd (.var .kr)) (.rd (.arr .C 13)))))),
  .set (.arr .jac 140) (.add (.rd (.arr .jac 140)) (.mul (.num 16107626414910008 16) (.sub (.mul (.rd (.var .jTemp)) (.num 35690674632355568 17)) (.mul (.rd (.var .kr)) (.rd (.arr .C 13)))))),
  .set (.arr .jac 152) (.add (.rd (.arr .jac 152)) (.mul (.neg (.num 51526869966558342 17)) (.mul (.rd (.var .jTemp)) (.neg (.num 17824490209713328 17))))),
  .set (.arr .jac 153) (.add (.rd (.arr .jac 153)) (.mul (.num 54580609899675037 17) (.mul (.rd (.var .jTemp)) (.neg (.num 17824490209713328 17))))),
  .set (.arr .jac 162) (.add (.rd (.arr .jac 162)) (.mul (.neg (.num 90970147309307126 17)) (.mul (.rd (.var .jTemp)) (.neg (.num 17824490209713328 17))))),
  .set (.arr .jac 161) (.add (.rd (.arr .jac 161)) (.mul (.num 87916407376190431 17) (.mul (.rd (.var .jTemp)) (.neg (.num 17824490209713328 17))))),
  .set (.arr .jac 173) (.add (.rd (.arr .jac 173)) (.mul (.neg (.num 12124820344937721 16)) (.mul (.rd (.var .jTemp)) (.num 49928106040377707 17)))),
  .set (.arr .jac 174) (.add (.rd (.arr .jac 174)) (.mul (.num 1284339781904458 15) (.mul (.rd (.var .jTemp)) (.num 49928106040377707 17)))),
  .set (.arr .jac 183) (.add (.rd (.arr .jac 183)) (.mul (.neg (.num 21406242870830865 16)) (.mul (.rd (.var .jTemp)) (.num 49928106040377707 17)))),
  .set (.arr .jac 182) (.add (.rd (.arr .jac 182)) (.mul (.num 20687665396724007 16) (.mul (.rd (.var .jTemp)) (.num 49928106040377707 17)))),
  .set (.arr .jac 194) (.add (.rd (.arr .jac 194)) (.mul (.neg (.num 12124820344937721 16)) (.mul (.rd (.var .jTemp)) (.num 49928106040377707 17)))),
  .set (.arr .jac 195) (.add (.rd (.arr .jac 195)) (.mul (.num 1284339781904458 15) (.mul (.rd (.var .jTemp)) (.num 49928106040377707 17)))),
  .set (.arr .jac 204) (.add (.rd (.arr .jac 204)) (.mul (.neg (.num 21406242870830865 16)) (.mul (.rd (.var .jTemp)) (.num 49928106040377707 17)))),
  .set (.arr .jac 203) (.add (.rd (.arr .jac 203)) (.mul (.num 20687665396724007 16) (.mul (.rd (.var .jTemp)) (.num 49928106040377707 17)))),
  .set (.arr .jac 215) (.add (.rd (.arr .jac 215)) (.mul (.neg (.num 11311967818703517 16)) (.mul (.rd (.var .jTemp)) (.num 46330052531852528 17)))),
  .set (.arr .jac 216) (.add (.rd (.arr .jac 216)) (.mul (.num 11982371588086855 16) (.mul (.rd (.var .jTemp)) (.num 46330052531852528 17)))),
  .set (.arr .jac 225) (.add (.rd (.arr .jac 225)) (.mul (.neg (.num 19971160279936839 16)) (.mul (.rd (.var .jTemp)) (.num 46330052531852528 17)))),
  .set (.arr .jac 224) (.add (.rd (.arr .jac 224)) (.mul (.num 19300756510553501 16) (.mul (.rd (.var .jTemp)) (.num 46330052531852528 17)))),
  .set (.arr .jac 236) (.add (.rd (.arr .jac 236)) (.mul (.neg (.num 10601255644290632 16)) (.mul (.rd (.var .jTemp)) (.num 42731999023327338 17)))),
  .set (.arr .jac 237) (.add (.rd (.arr .jac 237)) (.mul (.num 11229539056870512 16) (.mul (.rd (.var .jTemp)) (.num 42731999023327338 17)))),
  .set (.arr .jac 246) (.add (.rd (.arr .jac 246)) (.mul (.neg (.num 18716405406550991 16)) (.mul (.rd (.var .jTemp)) (.num 42731999023327338 17)))),
  .set (.arr .jac 245) (.add (.rd (.arr .jac 245)) (.mul (.num 18088121993971109 16) (.mul (.rd (.var .jTemp)) (.num 42731999023327338 17)))),
  .set (.arr .jac 257) (.add (.rd (.arr .jac 257)) (.mul (.neg (.num 60717947619455637 17)) (.mul (.rd (.var .jTemp)) (.num 10994706834011048 20)))),
  .set (.arr .jac 258) (.add (.rd (.arr .jac 258)) (.mul (.num 64316396766915152 17) (.mul (.rd (.var .jTemp)) (.num 10994706834011048 20)))),
  .set (.arr .jac 267) (.add (.rd (.arr .jac 267)) (.mul (.neg (.num 10719689829491903 16)) (.mul (.rd (.var .jTemp)) (.num 10994706834011048 20)))),
  .set (.arr .jac 266) (.add (.rd (.arr .jac 266)) (.mul (.num 10359844914745953 16) (.mul (.rd (.var .jTemp)) (.num 10994706834011048 20)))),
  .set (.arr .jac 278) (.add (.rd (.arr .jac 278)) (.mul (.neg (.num 38644438284200339 17)) (.mul (.rd (.var .jTemp)) (.neg (.num 57102223643760053 17))))),
  .set (.arr .jac 279) (.add (.rd (.arr .jac 279)) (.mul (.num 40934700907525146 17) (.mul (.rd (.var .jTemp)) (.neg (.num 57102223643760053 17))))),
  .set (.arr .jac 288) (.add (.rd (.arr .jac 288)) (.mul (.neg (.num 68226349585774082 17)) (.mul (.rd (.var .jTemp)) (.neg (.num 57102223643760053 17))))),
  .set (.arr .jac 287) (.add (.rd (.arr .jac 287)) (.mul (.num 6593608696244927 16) (.mul (.rd (.var .jTemp)) (.neg (.num 57102223643760053 17))))),
  .set (.arr .jac 299) (.add (.rd (.arr .jac 299)) (.mul (.neg (.num 58608934901169396 17)) (.sub (.mul (.rd (.var .jTemp)) (.neg (.num 35870588016911675 18))) (.mul (.rd (.var .kr)) (.rd (.arr .C 5)))))),
  .set (.arr .jac 300) (.add (.rd (.arr .jac 300)) (.mul (.num 62082393410512116 17) (.sub (.mul (.rd (.var .jTemp)) (.neg (.num 35870588016911675 18))) (.mul (.rd (.var .kr)) (.rd (.arr .C 5)))))),
  .set (.arr .jac 309) (.add (.rd (.arr .jac 309)) (.mul (.neg (.num 10347345850934271 16)) (.sub (.mul (.rd (.var .jTemp)) (.neg (.num 35870588016911675 18))) (.mul (.rd (.var .kr)) (.rd (.arr .C 5)))))),
  .set (.arr .jac 308) (.add (.rd (.arr .jac 308)) (.sub (.mul (.rd (.var .jTemp)) (.neg (.num 35870588016911675 18))) (.mul (.rd (.var .kr)) (.rd (.arr .C 5))))),
  .set (.arr .jac 320) (.add (.rd (.arr .jac 320)) (.mul (.neg (.num 5664151536587283 16)) (.add (.mul (.rd (.var .jTemp)) (.neg (.num 71851123102163683 18))) (.mul (.rd (.var .kf)) (.rd (.arr .C 4)))))),
  .set (.arr .jac 321) (.add (.rd (.arr .jac 321)) (.mul (.num 59998374757046158 17) (.add (.mul (.rd (.var .jTemp)) (.neg (.num 71851123102163683 18))) (.mul (.rd (.var .kf)) (.rd (.arr .C 4)))))),
  .set (.arr .jac 330) (.add (.rd (.arr .jac 330)) (.neg (.add (.mul (.rd (.var .jTemp)) (.neg (.num 71851123102163683 18))) (.mul (.rd (.var .kf)) (.rd (.arr .C 4)))))),
  .set (.arr .jac 329) (.add (.rd (.arr .jac 329)) (.mul (.num 96643140608826661 17) (.add (.mul (.rd (.var .jTemp)) (.neg (.num 71851123102163683 18))) (.mul (.rd (.var .kf)) (.rd (.arr .C 4)))))),
  .set (.arr .jac 341) (.add (.rd (.arr .jac 341)) (.mul (.neg (.num 54801892878248593 17)) (.mul (.rd (.var .jTemp)) (.neg (.num 10783165818741525 17))))),
  .set (.arr .jac 342) (.add (.rd (.arr .jac 342)) (.mul (.num 58049727043244526 17) (.mul (.rd (.var .jTemp)) (.neg (.num 10783165818741525 17))))),
  .set (.arr .jac 351) (.add (.rd (.arr .jac 351)) (.mul (.neg (.num 96752165835004078 17)) (.mul (.rd (.var .jTemp)) (.neg (.num 10783165818741525 17))))),
  .set (.arr .jac 350) (.add (.rd (.arr .jac 350)) (.mul (.num 93504331670008145 17) (.mul (.rd (.var .jTemp)) (.neg (.num 10783165818741525 17))))),
  .set (.arr .jac 362) (.add (.rd (.arr .jac 362)) (.mul (.neg (.num 60624101724688606 17)) (.mul (.rd (.var .jTemp)) (.neg (.num 14378791924458678 19))))),
  .set (.arr .jac 363) (.add (.rd (.arr .jac 363)) (.mul (.num 64216989095222898 17) (.mul (.rd (.var .jTemp)) (.neg (.num 14378791924458678 19))))),
  .set (.arr .jac 372) (.add (.rd (.arr .jac 372)) (.mul (.neg (.num 10703121435415432 16)) (.mul (.rd (.var .jTemp)) (.neg (.num 14378791924458678 19))))),
  .set (.arr .jac 371) (.add (.rd (.arr .jac 371)) (.mul (.num 10343832698362003 16) (.mul (.rd (.var .jTemp)) (.neg (.num 14378791924458678 19))))),
  .set (.arr .jac 383) (.add (.rd (.arr .jac 383)) (.mul (.neg (.num 58521490484039129 17)) (.mul (.rd (.var .jTemp)) (.neg (.num 37418414277697654 18))))),
  .set (.arr .jac 384) (.add (.rd (.arr .jac 384)) (.mul (.num 61989766600026841 17) (.mul (.rd (.var .jTemp)) (.neg (.num 37418414277697654 18))))),
  .set (.arr .jac 393) (.add (.rd (.arr .jac 393)) (.mul (.neg (.num 10331907631005757 16)) (.mul (.rd (.var .jTemp)) (.neg (.num 37418414277697654 18))))),
  .set (.arr .jac 392) (.add (.rd (.arr .jac 392)) (.mul (.num 99850800194069855 17) (.mul (.rd (.var .jTemp)) (.neg (.num 37418414277697654 18))))),
  .set (.arr .jac 404) (.add (.rd (.arr .jac 404)) (.mul (.neg (.num 56559839093517583 17)) (.mul (.rd (.var .jTemp)) (.neg (.num 73398949362949439 18))))),
  .set (.arr .jac 405) (.add (.rd (.arr .jac 405)) (.mul (.num 59911857940434277 17) (.mul (.rd (.var .jTemp)) (.neg (.num 73398949362949439 18))))),
  .set (.arr .jac 414) (.add (.rd (.arr .jac 414)) (.mul (.neg (.num 99855801399684196 17)) (.mul (.rd (.var .jTemp)) (.neg (.num 73398949362949439 18))))),
  .set (.arr .jac 413) (.add (.rd (.arr .jac 413)) (.mul (.num 96503782552767503 17) (.mul (.rd (.var .jTemp)) (.neg (.num 73398949362949439 18))))),
  .set (.arr .jac 425) (.add (.rd (.arr .jac 425)) (.mul (.neg (.num 42573695804545908 17)) (.mul (.rd (.var .jTemp)) (.neg (.num 42602775520927771 17))))),
  .set (.arr .jac 426) (.add (.rd (.arr .jac 426)) (.mul (.num 45096825873635726 17) (.mul (.rd (.var .jTemp)) (.neg (.num 42602775520927771 17))))),
  .set (.arr .jac 435) (.add (.rd (.arr .jac 435)) (.mul (.neg (.num 75163412436167021 17)) (.mul (.rd (.var .jTemp)) (.neg (.num 42602775520927771 17))))),
  .set (.arr .jac 434) (.add (.rd (.arr .jac 434)) (.mul (.num 72640282367077191 17) (.mul (.rd (.var .jTemp)) (.neg (.num 42602775520927771 17)))))]

/-- utilities/mechanisms/drm19/lib/src/jacobs/jacob_1.c:1172-1178 -/
def jacobT52 : List CStmt := [
  .set (.var .jTemp) (.mul (.mul (.div (.num 1 0) (.rd (.var .T))) (.sub (.add (.mul (.sub (.rd (.arr .fwd 52)) (.rd (.arr .rev 52))) (.add (.num 21200000000000001 16) (.div (.num 43780102142747148 14) (.rd (.var .T))))) (.mul (.rd (.arr .fwd 52)) (.neg (.num 1 0)))) (.mul (.rd (.arr .rev 52)) (.add (.neg (.num 1 0)) (.mul (.neg (.rd (.var .T))) (.sub (.sub (.add (.rd (.arr .dBdT 17)) (.rd (.arr .dBdT 5))) (.rd (.arr .dBdT 18))) (.rd (.arr .dBdT 4)))))))) (.rd (.var .rhoInv))),
  .set (.arr .jac 18) (.add (.rd (.arr .jac 18)) (.mul (.rd (.var .jTemp)) (.num 29061699999999998 15))),
  .set (.arr .jac 19) (.add (.rd (.arr .jac 19)) (.mul (.neg (.rd (.var .jTemp))) (.num 3006964 5))),
  .set (.arr .jac 5) (.add (.rd (.arr .jac 5)) (.mul (.neg (.rd (.var .jTemp))) (.num 17007339999999999 15))),
  .set (.arr .jac 6) (.add (.rd (.arr .jac 6)) (.mul (.rd (.var .jTemp)) (.num 18015280000000001 15)))]

/-- utilities/mechanisms/drm19/lib/src/jacobs/jacob_1.c:1179-1270 -/
def jacobS52 : List CStmt := [
  .ite (.rd (.var .T)) (.num 1000 0) (.var .Kc) (.sub (.add (.add (.num 10736134400000008 16) (.mul (.num 22166589000000014 17) (.rd (.var .logT)))) (.mul (.rd (.var .T)) (.add (.num 8399185999999996 19) (.mul (.rd (.var .T)) (.add (.neg (.num 13878474000000007 22)) (.mul (.rd (.var .T)) (.add (.num 77726088416666741 26) (.mul (.neg (.num 17049066149999997 29)) (.rd (.var .T)))))))))) (.div (.neg (.num 95449752599999956 13)) (.rd (.var .T)))) (.sub (.add (.add (.neg (.num 19869821400000007 16)) (.mul (.num 82387974000000019 17) (.rd (.var .logT)))) (.mul (.rd (.var .T)) (.add (.neg (.num 13297535879999995 19)) (.mul (.rd (.var .T)) (.add (.num 29216037899999999 23) (.mul (.rd (.var .T)) (.add (.neg (.num 39253245950000001 27)) (.mul (.num 22720087799999998 31) (.rd (.var .T)))))))))) (.div (.neg (.num 95790408999999963 13)) (.rd (.var .T)))),
  .set (.var .Kc) (.exp (.rd (.var .Kc))),
  .set (.var .jTemp) (.mul (.mul (.neg (.rd (.var .mwAvg))) (.rd (.var .rhoInv))) (.sub (.mul (.num 2 0) (.rd (.arr .fwd 52))) (.mul (.num 2 0) (.rd (.arr .rev 52))))),
  .set (.var .kf) (.exp (.sub (.add (.num 81718820061278201 16) (.mul (.num 212 2) (.rd (.var .logT)))) (.div (.num 43780102142747148 14) (.rd (.var .T))))),
  .set (.var .kr) (.div (.rd (.var .kf)) (.rd (.var .Kc))),
  .set (.arr .jac 39) (.add (.rd (.arr .jac 39)) (.mul (.num 14416383911740777 15) (.mul (.rd (.var .jTemp)) (.num 92803892982949643 17)))),
  .set (.arr .jac 40) (.add (.rd (.arr .jac 40)) (.mul (.neg (.num 14916383911740777 15)) (.mul (.rd (.var .jTemp)) (.num 92803892982949643 17)))),
  .set (.arr .jac 26) (.add (.rd (.arr .jac 26)) (.mul (.neg (.num 84366827390519266 16)) (.mul (.rd (.var .jTemp)) (.num 92803892982949643 17)))),
  .set (.arr .jac 27) (.add (.rd (.arr .jac 27)) (.mul (.num 89366827390519283 16) (.mul (.rd (.var .jTemp)) (.num 92803892982949643 17)))),
  .set (.arr .jac 60) (.add (.rd (.arr .jac 60)) (.mul (.num 28832767823481554 15) (.mul (.rd (.var .jTemp)) (.num 96401946491474821 17)))),
  .set (.arr .jac 61) (.add (.rd (.arr .jac 61)) (.mul (.neg (.num 29832767823481554 15)) (.mul (.rd (.var .jTemp)) (.num 96401946491474821 17)))),
  .set (.arr .jac 47) (.add (.rd (.arr .jac 47)) (.mul (.neg (.num 16873365478103853 15)) (.mul (.rd (.var .jTemp)) (.num 96401946491474821 17)))),
  .set (.arr .jac 48) (.add (.rd (.arr .jac 48)) (.mul (.num 17873365478103857 15) (.mul (.rd (.var .jTemp)) (.num 96401946491474821 17)))),
  .set (.arr .jac 81) (.add (.rd (.arr .jac 81)) (.mul (.num 18164243659137218 16) (.mul (.rd (.var .jTemp)) (.num 42886781649405936 17)))),
  .set (.arr .jac 82) (.add (.rd (.arr .jac 82)) (.mul (.neg (.num 18794229783616885 16)) (.mul (.rd (.var .jTemp)) (.num 42886781649405936 17)))),
  .set (.arr .jac 68) (.add (.rd (.arr .jac 68)) (.mul (.neg (.num 10629986124479667 16)) (.mul (.rd (.var .jTemp)) (.num 42886781649405936 17)))),
  .set (.arr .jac 69) (.add (.rd (.arr .jac 69)) (.mul (.num 11259972248959336 16) (.mul (.rd (.var .jTemp)) (.num 42886781649405936 17)))),
  .set (.arr .jac 102) (.add (.rd (.arr .jac 102)) (.mul (.num 9082121829568609 16) (.mul (.rd (.var .jTemp)) (.neg (.num 14226436701188128 17))))),
  .set (.arr .jac 103) (.add (.rd (.arr .jac 103)) (.mul (.neg (.num 93971148918084424 17)) (.mul (.rd (.var .jTemp)) (.neg (.num 14226436701188128 17))))),
  .set (.arr .jac 89) (.add (.rd (.arr .jac 89)) (.mul (.neg (.num 53149930622398334 17)) (.mul (.rd (.var .jTemp)) (.neg (.num 14226436701188128 17))))),
  .set (.arr .jac 90) (.add (.rd (.arr .jac 90)) (.mul (.num 56299861244796678 17) (.mul (.rd (.var .jTemp)) (.neg (.num 14226436701188128 17))))),
  .set (.arr .jac 123) (.add (.rd (.arr .jac 123)) (.mul (.num 17087739764125371 16) (.add (.mul (.rd (.var .jTemp)) (.num 39288728140880758 17)) (.mul (.rd (.var .kf)) (.rd (.arr .C 18)))))),
  .set (.arr .jac 124) (.add (.rd (.arr .jac 124)) (.mul (.neg (.num 17680389761126667 16)) (.add (.mul (.rd (.var .jTemp)) (.num 39288728140880758 17)) (.mul (.rd (.var .kf)) (.rd (.arr .C 18)))))),
  .set (.arr .jac 110) (.add (.rd (.arr .jac 110)) (.neg (.add (.mul (.rd (.var .jTemp)) (.num 39288728140880758 17)) (.mul (.rd (.var .kf)) (.rd (.arr .C 18)))))),
  .set (.arr .jac 111) (.add (.rd (.arr .jac 111)) (.mul (.num 10592649997001296 16) (.add (.mul (.rd (.var .jTemp)) (.num 39288728140880758 17)) (.mul (.rd (.var .kf)) (.rd (.arr .C 18)))))),
  .set (.arr .jac 144) (.add (.rd (.arr .jac 144)) (.mul (.num 16131694872352802 16) (.sub (.mul (.rd (.var .jTemp)) (.num 35690674632355568 17)) (.mul (.rd (.var .kr)) (.rd (.arr .C 17)))))),
  .set (.arr .jac 145) (.add (.rd (.arr .jac 145)) (.mul (.neg (.num 16691186592714629 16)) (.sub (.mul (.rd (.var .jTemp)) (.num 35690674632355568 17)) (.mul (.rd (.var .kr)) (.rd (.arr .C 17)))))),
  .set (.arr .jac 131) (.add (.rd (.arr .jac 131)) (.mul (.neg (.num 94405082796381734 17)) (.sub (.mul (.rd (.var .jTemp)) (.num 35690674632355568 17)) (.mul (.rd (.var .kr)) (.rd (.arr .C 17)))))),
  .set (.arr .jac 132) (.add (.rd (.arr .jac 132)) (.sub (.mul (.rd (.var .jTemp)) (.num 35690674632355568 17)) (.mul (.rd (.var .kr)) (.rd (.arr .C 17))))),
  .set (.arr .jac 165) (.add (.rd (.arr .jac 165)) (.mul (.num 8804777448484763 16) (.mul (.rd (.var .jTemp)) (.neg (.num 17824490209713328 17))))),
  .set (.arr .jac 166) (.add (.rd (.arr .jac 166)) (.mul (.neg (.num 91101514417964324 17)) (.mul (.rd (.var .jTemp)) (.neg (.num 17824490209713328 17))))),
  .set (.arr .jac 152) (.add (.rd (.arr .jac 152)) (.mul (.neg (.num 51526869966558342 17)) (.mul (.rd (.var .jTemp)) (.neg (.num 17824490209713328 17))))),
  .set (.arr .jac 153) (.add (.rd (.arr .jac 153)) (.mul (.num 54580609899675037 17) (.mul (.rd (.var .jTemp)) (.neg (.num 17824490209713328 17))))),
  .set (.arr .jac 186) (.add (.rd (.arr .jac 186)) (.mul (.num 20718577474106858 16) (.mul (.rd (.var .jTemp)) (.num 49928106040377707 17)))),
  .set (.arr .jac 187) (.add (.rd (.arr .jac 187)) (.mul (.neg (.num 21437154948213717 16)) (.mul (.rd (.var .jTemp)) (.num 49928106040377707 17)))),
  .set (.arr .jac 173) (.add (.rd (.arr .jac 173)) (.mul (.neg (.num 12124820344937721 16)) (.mul (.rd (.var .jTemp)) (.num 49928106040377707 17)))),
  .set (.arr .jac 174) (.add (.rd (.arr .jac 174)) (.mul (.num 1284339781904458 15) (.mul (.rd (.var .jTemp)) (.num 49928106040377707 17)))),
  .set (.arr .jac 207) (.add (.rd (.arr .jac 207)) (.mul (.num 20718577474106858 16) (.mul (.rd (.var .jTemp)) (.num 49928106040377707 17)))),
  .set (.arr .jac 208) (.add (.rd (.arr .jac 208)) (.mul (.neg (.num 21437154948213717 16)) (.mul (.rd (.var .jTemp)) (.num 49928106040377707 17)))),
  .set (.arr .jac 194) (.add (.rd (.arr .jac 194)) (.mul (.neg (.num 12124820344937721 16)) (.mul (.rd (.var .jTemp)) (.num 49928106040377707 17)))),
  .set (.arr .jac 195) (.add (.rd (.arr .jac 195)) (.mul (.num 1284339781904458 15) (.mul (.rd (.var .jTemp)) (.num 49928106040377707 17)))),
  .set (.arr .jac 228) (.add (.rd (.arr .jac 228)) (.mul (.num 19329596230616661 16) (.mul (.rd (.var .jTemp)) (.num 46330052531852528 17)))),
  .set (.arr .jac 229) (.add (.rd (.arr .jac 229)) (.mul (.neg (.num 2 0)) (.mul (.rd (.var .jTemp)) (.num 46330052531852528 17)))),
  .set (.arr .jac 215) (.add (.rd (.arr .jac 215)) (.mul (.neg (.num 11311967818703517 16)) (.mul (.rd (.var .jTemp)) (.num 46330052531852528 17)))),
  .set (.arr .jac 216) (.add (.rd (.arr .jac 216)) (.mul (.num 11982371588086855 16) (.mul (.rd (.var .jTemp)) (.num 46330052531852528 17)))),
  .set (.arr .jac 249) (.add (.rd (.arr .jac 249)) (.mul (.num 18115149762260356 16) (.mul (.rd (.var .jTemp)) (.num 42731999023327338 17)))),
  .set (.arr .jac 250) (.add (.rd (.arr .jac 250)) (.mul (.neg (.num 18743433174840238 16)) (.mul (.rd (.var .jTemp)) (.num 42731999023327338 17)))),
  .set (.arr .jac 236) (.add (.rd (.arr .jac 236)) (.mul (.neg (.num 10601255644290632 16)) (.mul (.rd (.var .jTemp)) (.num 42731999023327338 17)))),
  .set (.arr .jac 237) (.add (.rd (.arr .jac 237)) (.mul (.num 11229539056870512 16) (.mul (.rd (.var .jTemp)) (.num 42731999023327338 17)))),
  .set (.arr .jac 270) (.add (.rd (.arr .jac 270)) (.mul (.num 10375324879330534 16) (.mul (.rd (.var .jTemp)) (.num 10994706834011048 20)))),
  .set (.arr .jac 271) (.add (.rd (.arr .jac 271)) (.mul (.neg (.num 10735169794076487 16)) (.mul (.rd (.var .jTemp)) (.num 10994706834011048 20)))),
  .set (.arr .jac 257) (.add (.rd (.arr .jac 257)) (.mul (.neg (.num 60717947619455637 17)) (.mul (.rd (.var .jTemp)) (.num 10994706834011048 20)))),
  .set (.arr .jac 258) (.add (.rd (.arr .jac 258)) (.mul (.num 64316396766915152 17) (.mul (.rd (.var .jTemp)) (.num 10994706834011048 20)))),
  .set (.arr .jac 291) (.add (.rd (.arr .jac 291)) (.mul (.num 66034610473121891 17) (.mul (.rd (.var .jTemp)) (.neg (.num 57102223643760053 17))))),
  .set (.arr .jac 292) (.add (.rd (.arr .jac 292)) (.mul (.neg (.num 68324873096446703 17)) (.mul (.rd (.var .jTemp)) (.neg (.num 57102223643760053 17))))),
  .set (.arr .jac 278) (.add (.rd (.arr .jac 278)) (.mul (.neg (.num 38644438284200339 17)) (.mul (.rd (.var .jTemp)) (.neg (.num 57102223643760053 17))))),
  .set (.arr .jac 279) (.add (.rd (.arr .jac 279)) (.mul (.num 40934700907525146 17) (.mul (.rd (.var .jTemp)) (.neg (.num 57102223643760053 17))))),
  .set (.arr .jac 312) (.add (.rd (.arr .jac 312)) (.mul (.num 10014942274437477 16) (.mul (.rd (.var .jTemp)) (.neg (.num 35870588016911675 18))))),
  .set (.arr .jac 313) (.add (.rd (.arr .jac 313)) (.mul (.neg (.num 10362288125371748 16)) (.mul (.rd (.var .jTemp)) (.neg (.num 35870588016911675 18))))),
  .set (.arr .jac 299) (.add (.rd (.arr .jac 299)) (.mul (.neg (.num 58608934901169396 17)) (.mul (.rd (.var .jTemp)) (.neg (.num 35870588016911675 18))))),
  .set (.arr .jac 300) (.add (.rd (.arr .jac 300)) (.mul (.num 62082393410512116 17) (.mul (.rd (.var .jTemp)) (.neg (.num 35870588016911675 18))))),
  .set (.arr .jac 333) (.add (.rd (.arr .jac 333)) (.mul (.num 96787547441774335 17) (.mul (.rd (.var .jTemp)) (.neg (.num 71851123102163683 18))))),
  .set (.arr .jac 334) (.add (.rd (.arr .jac 334)) (.mul (.neg (.num 10014440683294767 16)) (.mul (.rd (.var .jTemp)) (.neg (.num 71851123102163683 18))))),
  .set (.arr .jac 320) (.add (.rd (.arr .jac 320)) (.mul (.neg (.num 5664151536587283 16)) (.mul (.rd (.var .jTemp)) (.neg (.num 71851123102163683 18))))),
  .set (.arr .jac 321) (.add (.rd (.arr .jac 321)) (.mul (.num 59998374757046158 17) (.mul (.rd (.var .jTemp)) (.neg (.num 71851123102163683 18))))),
  .set (.arr .jac 354) (.add (.rd (.arr .jac 354)) (.mul (.num 93644048408498748 17) (.mul (.rd (.var .jTemp)) (.neg (.num 10783165818741525 17))))),
  .set (.arr .jac 355) (.add (.rd (.arr .jac 355)) (.mul (.neg (.num 96891882573494681 17)) (.mul (.rd (.var .jTemp)) (.neg (.num 10783165818741525 17))))),
  .set (.arr .jac 341) (.add (.rd (.arr .jac 341)) (.mul (.neg (.num 54801892878248593 17)) (.mul (.rd (.var .jTemp)) (.neg (.num 10783165818741525 17))))),
  .set (.arr .jac 342) (.add (.rd (.arr .jac 342)) (.mul (.num 58049727043244526 17) (.mul (.rd (.var .jTemp)) (.neg (.num 10783165818741525 17))))),
  .set (.arr .jac 375) (.add (.rd (.arr .jac 375)) (.mul (.num 10359288737053429 16) (.mul (.rd (.var .jTemp)) (.neg (.num 14378791924458678 19))))),
  .set (.arr .jac 376) (.add (.rd (.arr .jac 376)) (.mul (.neg (.num 10718577474106858 16)) (.mul (.rd (.var .jTemp)) (.neg (.num 14378791924458678 19))))),
  .set (.arr .jac 362) (.add (.rd (.arr .jac 362)) (.mul (.neg (.num 60624101724688606 17)) (.mul (.rd (.var .jTemp)) (.neg (.num 14378791924458678 19))))),
  .set (.arr .jac 363) (.add (.rd (.arr .jac 363)) (.mul (.num 64216989095222898 17) (.mul (.rd (.var .jTemp)) (.neg (.num 14378791924458678 19))))),
  .set (.arr .jac 396) (.add (.rd (.arr .jac 396)) (.sub (.mul (.rd (.var .jTemp)) (.neg (.num 37418414277697654 18))) (.mul (.rd (.var .kr)) (.rd (.arr .C 5))))),
  .set (.arr .jac 397) (.add (.rd (.arr .jac 397)) (.mul (.neg (.num 10346827611598772 16)) (.sub (.mul (.rd (.var .jTemp)) (.neg (.num 37418414277697654 18))) (.mul (.rd (.var .kr)) (.rd (.arr .C 5)))))),
  .set (.arr .jac 383) (.add (.rd (.arr .jac 383)) (.mul (.neg (.num 58521490484039129 17)) (.sub (.mul (.rd (.var .jTemp)) (.neg (.num 37418414277697654 18))) (.mul (.rd (.var .kr)) (.rd (.arr .C 5)))))),
  .set (.arr .jac 384) (.add (.rd (.arr .jac 384)) (.mul (.num 61989766600026841 17) (.sub (.mul (.rd (.var .jTemp)) (.neg (.num 37418414277697654 18))) (.mul (.rd (.var .kr)) (.rd (.arr .C 5)))))),
  .set (.arr .jac 417) (.add (.rd (.arr .jac 417)) (.mul (.num 96647981153083307 17) (.add (.mul (.rd (.var .jTemp)) (.neg (.num 73398949362949439 18))) (.mul (.rd (.var .kf)) (.rd (.arr .C 4)))))),
  .set (.arr .jac 418) (.add (.rd (.arr .jac 418)) (.neg (.add (.mul (.rd (.var .jTemp)) (.neg (.num 73398949362949439 18))) (.mul (.rd (.var .kf)) (.rd (.arr .C 4)))))),
  .set (.arr .jac 404) (.add (.rd (.arr .jac 404)) (.mul (.neg (.num 56559839093517583 17)) (.add (.mul (.rd (.var .jTemp)) (.neg (.num 73398949362949439 18))) (.mul (.rd (.var .kf)) (.rd (.arr .C 4)))))),
  .set (.arr .jac 405) (.add (.rd (.arr .jac 405)) (.mul (.num 59911857940434277 17) (.add (.mul (.rd (.var .jTemp)) (.neg (.num 73398949362949439 18))) (.mul (.rd (.var .kf)) (.rd (.arr .C 4)))))),
  .set (.arr .jac 438) (.add (.rd (.arr .jac 438)) (.mul (.num 72748823470511659 17) (.mul (.rd (.var .jTemp)) (.neg (.num 42602775520927771 17))))),
  .set (.arr .jac 439) (.add (.rd (.arr .jac 439)) (.mul (.neg (.num 75271953539601477 17)) (.mul (.rd (.var .jTemp)) (.neg (.num 42602775520927771 17))))),
  .set (.arr .jac 425) (.add (.rd (.arr .jac 425)) (.mul (.neg (.num 42573695804545908 17)) (.mul (.rd (.var .jTemp)) (.neg (.num 42602775520927771 17))))),
  .set (.arr .jac 426) (.add (.rd (.arr .jac 426)) (.mul (.num 45096825873635726 17) (.mul (.rd (.var .jTemp)) (.neg (.num 42602775520927771 17)))))]

/-- utilities/mechanisms/drm19/lib/src/jacobs/jacob_1.c:1271-1277 -/
def jacobT53 : List CStmt := [
  .set (.var .jTemp) (.mul (.mul (.div (.num 1 0) (.rd (.var .T))) (.sub (.mul (.rd (.arr .fwd 53)) (.neg (.num 1 0))) (.mul (.rd (.arr .rev 53)) (.add (.neg (.num 1 0)) (.mul (.neg (.rd (.var .T))) (.sub (.sub (.add (.rd (.arr .dBdT 14)) (.rd (.arr .dBdT 4))) (.rd (.arr .dBdT 7))) (.rd (.arr .dBdT 6)))))))) (.rd (.var .rhoInv))),
  .set (.arr .jac 5) (.add (.rd (.arr .jac 5)) (.mul (.rd (.var .jTemp)) (.num 17007339999999999 15))),
  .set (.arr .jac 15) (.add (.rd (.arr .jac 15)) (.mul (.rd (.var .jTemp)) (.num 3002628 5))),
  .set (.arr .jac 7) (.add (.rd (.arr .jac 7)) (.mul (.neg (.rd (.var .jTemp))) (.num 33006740000000001 15))),
  .set (.arr .jac 8) (.add (.rd (.arr .jac 8)) (.mul (.neg (.rd (.var .jTemp))) (.num 14026879999999998 15)))]

/-- utilities/mechanisms/drm19/lib/src/jacobs/jacob_1.c:1278-1369 -/
def jacobS53 : List CStmt := [
  .ite (.rd (.var .T)) (.num 1000 0) (.var .Kc) (.sub (.add (.add (.neg (.num 55015687579999994 16)) (.mul (.num 72126190000000046 17) (.rd (.var .logT)))) (.mul (.rd (.var .T)) (.add (.neg (.num 42647014214999999 19)) (.mul (.rd (.var .T)) (.add (.num 29977919500000001 22) (.mul (.rd (.var .T)) (.add (.neg (.num 11401965416666663 25)) (.mul (.num 17808557349999997 29) (.rd (.var .T)))))))))) (.div (.neg (.num 56992724279999995 12)) (.rd (.var .T)))) (.sub (.add (.add (.num 10214457990000001 15) (.mul (.neg (.num 203773428 8)) (.rd (.var .logT)))) (.mul (.rd (.var .T)) (.add (.num 1926108743 12) (.mul (.rd (.var .T)) (.add (.neg (.num 37557979699999993 23)) (.mul (.rd (.var .T)) (.add (.num 45336670450000004 27) (.mul (.neg (.num 23540358100000006 31)) (.rd (.var .T)))))))))) (.div (.neg (.num 56512636012999996 12)) (.rd (.var .T)))),
  .set (.var .Kc) (.exp (.rd (.var .Kc))),
  .set (.var .jTemp) (.mul (.mul (.neg (.rd (.var .mwAvg))) (.rd (.var .rhoInv))) (.sub (.mul (.num 2 0) (.rd (.arr .fwd 53))) (.mul (.num 2 0) (.rd (.arr .rev 53))))),
  .set (.var .kf) (.num 20000000000 0),
  .set (.var .kr) (.div (.rd (.var .kf)) (.rd (.var .Kc))),
  .set (.arr .jac 26) (.add (.rd (.arr .jac 26)) (.mul (.num 84366827390519266 16) (.mul (.rd (.var .jTemp)) (.num 92803892982949643 17)))),
  .set (.arr .jac 36) (.add (.rd (.arr .jac 36)) (.mul (.num 14894874694922317 15) (.mul (.rd (.var .jTemp)) (.num 92803892982949643 17)))),
  .set (.arr .jac 28) (.add (.rd (.arr .jac 28)) (.mul (.neg (.num 16373365478103853 15)) (.mul (.rd (.var .jTemp)) (.num 92803892982949643 17)))),
  .set (.arr .jac 29) (.add (.rd (.arr .jac 29)) (.mul (.neg (.num 69581919558703875 16)) (.mul (.rd (.var .jTemp)) (.num 92803892982949643 17)))),
  .set (.arr .jac 47) (.add (.rd (.arr .jac 47)) (.mul (.num 16873365478103853 15) (.mul (.rd (.var .jTemp)) (.num 96401946491474821 17)))),
  .set (.arr .jac 57) (.add (.rd (.arr .jac 57)) (.mul (.num 29789749389844633 15) (.mul (.rd (.var .jTemp)) (.num 96401946491474821 17)))),
  .set (.arr .jac 49) (.add (.rd (.arr .jac 49)) (.mul (.neg (.num 32746730956207706 15)) (.mul (.rd (.var .jTemp)) (.num 96401946491474821 17)))),
  .set (.arr .jac 50) (.add (.rd (.arr .jac 50)) (.mul (.neg (.num 13916383911740775 15)) (.mul (.rd (.var .jTemp)) (.num 96401946491474821 17)))),
  .set (.arr .jac 68) (.add (.rd (.arr .jac 68)) (.mul (.num 10629986124479667 16) (.mul (.rd (.var .jTemp)) (.num 42886781649405936 17)))),
  .set (.arr .jac 78) (.add (.rd (.arr .jac 78)) (.mul (.num 18767128767328776 16) (.mul (.rd (.var .jTemp)) (.num 42886781649405936 17)))),
  .set (.arr .jac 70) (.add (.rd (.arr .jac 70)) (.mul (.neg (.num 20629986124479669 16)) (.mul (.rd (.var .jTemp)) (.num 42886781649405936 17)))),
  .set (.arr .jac 71) (.add (.rd (.arr .jac 71)) (.mul (.neg (.num 87671287673287746 17)) (.mul (.rd (.var .jTemp)) (.num 42886781649405936 17)))),
  .set (.arr .jac 89) (.add (.rd (.arr .jac 89)) (.mul (.num 53149930622398334 17) (.mul (.rd (.var .jTemp)) (.neg (.num 14226436701188128 17))))),
  .set (.arr .jac 99) (.add (.rd (.arr .jac 99)) (.mul (.num 93835643836643878 17) (.mul (.rd (.var .jTemp)) (.neg (.num 14226436701188128 17))))),
  .set (.arr .jac 91) (.add (.rd (.arr .jac 91)) (.mul (.neg (.num 10314993062239834 16)) (.mul (.rd (.var .jTemp)) (.neg (.num 14226436701188128 17))))),
  .set (.arr .jac 92) (.add (.rd (.arr .jac 92)) (.mul (.neg (.num 43835643836643873 17)) (.mul (.rd (.var .jTemp)) (.neg (.num 14226436701188128 17))))),
  .set (.arr .jac 110) (.add (.rd (.arr .jac 110)) (.sub (.mul (.rd (.var .jTemp)) (.num 39288728140880758 17)) (.mul (.rd (.var .kr)) (.rd (.arr .C 14))))),
  .set (.arr .jac 120) (.add (.rd (.arr .jac 120)) (.mul (.num 17654894886560744 16) (.sub (.mul (.rd (.var .jTemp)) (.num 39288728140880758 17)) (.mul (.rd (.var .kr)) (.rd (.arr .C 14)))))),
  .set (.arr .jac 112) (.add (.rd (.arr .jac 112)) (.mul (.neg (.num 19407350002998707 16)) (.sub (.mul (.rd (.var .jTemp)) (.num 39288728140880758 17)) (.mul (.rd (.var .kr)) (.rd (.arr .C 14)))))),
  .set (.arr .jac 113) (.add (.rd (.arr .jac 113)) (.mul (.neg (.num 8247544883562038 16)) (.sub (.mul (.rd (.var .jTemp)) (.num 39288728140880758 17)) (.mul (.rd (.var .kr)) (.rd (.arr .C 14)))))),
  .set (.arr .jac 131) (.add (.rd (.arr .jac 131)) (.mul (.num 94405082796381734 17) (.mul (.rd (.var .jTemp)) (.num 35690674632355568 17)))),
  .set (.arr .jac 141) (.add (.rd (.arr .jac 141)) (.mul (.num 16667118135271835 16) (.mul (.rd (.var .jTemp)) (.num 35690674632355568 17)))),
  .set (.arr .jac 133) (.add (.rd (.arr .jac 133)) (.mul (.neg (.num 1832152483891452 15)) (.mul (.rd (.var .jTemp)) (.num 35690674632355568 17)))),
  .set (.arr .jac 134) (.add (.rd (.arr .jac 134)) (.mul (.neg (.num 77861015759954877 17)) (.mul (.rd (.var .jTemp)) (.num 35690674632355568 17)))),
  .set (.arr .jac 152) (.add (.rd (.arr .jac 152)) (.mul (.num 51526869966558342 17) (.add (.mul (.rd (.var .jTemp)) (.neg (.num 17824490209713328 17))) (.mul (.rd (.var .kf)) (.rd (.arr .C 7)))))),
  .set (.arr .jac 162) (.add (.rd (.arr .jac 162)) (.mul (.num 90970147309307126 17) (.add (.mul (.rd (.var .jTemp)) (.neg (.num 17824490209713328 17))) (.mul (.rd (.var .kf)) (.rd (.arr .C 7)))))),
  .set (.arr .jac 154) (.add (.rd (.arr .jac 154)) (.neg (.add (.mul (.rd (.var .jTemp)) (.neg (.num 17824490209713328 17))) (.mul (.rd (.var .kf)) (.rd (.arr .C 7)))))),
  .set (.arr .jac 155) (.add (.rd (.arr .jac 155)) (.mul (.neg (.num 42497017275865467 17)) (.add (.mul (.rd (.var .jTemp)) (.neg (.num 17824490209713328 17))) (.mul (.rd (.var .kf)) (.rd (.arr .C 7)))))),
  .set (.arr .jac 173) (.add (.rd (.arr .jac 173)) (.mul (.num 12124820344937721 16) (.add (.mul (.rd (.var .jTemp)) (.num 49928106040377707 17)) (.mul (.rd (.var .kf)) (.rd (.arr .C 6)))))),
  .set (.arr .jac 183) (.add (.rd (.arr .jac 183)) (.mul (.num 21406242870830865 16) (.add (.mul (.rd (.var .jTemp)) (.num 49928106040377707 17)) (.mul (.rd (.var .kf)) (.rd (.arr .C 6)))))),
  .set (.arr .jac 175) (.add (.rd (.arr .jac 175)) (.mul (.neg (.num 23531063215768584 16)) (.add (.mul (.rd (.var .jTemp)) (.num 49928106040377707 17)) (.mul (.rd (.var .kf)) (.rd (.arr .C 6)))))),
  .set (.arr .jac 176) (.add (.rd (.arr .jac 176)) (.neg (.add (.mul (.rd (.var .jTemp)) (.num 49928106040377707 17)) (.mul (.rd (.var .kf)) (.rd (.arr .C 6)))))),
  .set (.arr .jac 194) (.add (.rd (.arr .jac 194)) (.mul (.num 12124820344937721 16) (.mul (.rd (.var .jTemp)) (.num 49928106040377707 17)))),
  .set (.arr .jac 204) (.add (.rd (.arr .jac 204)) (.mul (.num 21406242870830865 16) (.mul (.rd (.var .jTemp)) (.num 49928106040377707 17)))),
  .set (.arr .jac 196) (.add (.rd (.arr .jac 196)) (.mul (.neg (.num 23531063215768584 16)) (.mul (.rd (.var .jTemp)) (.num 49928106040377707 17)))),
  .set (.arr .jac 197) (.add (.rd (.arr .jac 197)) (.neg (.mul (.rd (.var .jTemp)) (.num 49928106040377707 17)))),
  .set (.arr .jac 215) (.add (.rd (.arr .jac 215)) (.mul (.num 11311967818703517 16) (.mul (.rd (.var .jTemp)) (.num 46330052531852528 17)))),
  .set (.arr .jac 225) (.add (.rd (.arr .jac 225)) (.mul (.num 19971160279936839 16) (.mul (.rd (.var .jTemp)) (.num 46330052531852528 17)))),
  .set (.arr .jac 217) (.add (.rd (.arr .jac 217)) (.mul (.neg (.num 21953531868023695 16)) (.mul (.rd (.var .jTemp)) (.num 46330052531852528 17)))),
  .set (.arr .jac 218) (.add (.rd (.arr .jac 218)) (.mul (.neg (.num 93295962306166613 17)) (.mul (.rd (.var .jTemp)) (.num 46330052531852528 17)))),
  .set (.arr .jac 236) (.add (.rd (.arr .jac 236)) (.mul (.num 10601255644290632 16) (.mul (.rd (.var .jTemp)) (.num 42731999023327338 17)))),
  .set (.arr .jac 246) (.add (.rd (.arr .jac 246)) (.mul (.num 18716405406550991 16) (.mul (.rd (.var .jTemp)) (.num 42731999023327338 17)))),
  .set (.arr .jac 238) (.add (.rd (.arr .jac 238)) (.mul (.neg (.num 20574227876001383 16)) (.mul (.rd (.var .jTemp)) (.num 42731999023327338 17)))),
  .set (.arr .jac 239) (.add (.rd (.arr .jac 239)) (.mul (.neg (.num 87434331748402383 17)) (.mul (.rd (.var .jTemp)) (.num 42731999023327338 17)))),
  .set (.arr .jac 257) (.add (.rd (.arr .jac 257)) (.mul (.num 60717947619455637 17) (.mul (.rd (.var .jTemp)) (.num 10994706834011048 20)))),
  .set (.arr .jac 267) (.add (.rd (.arr .jac 267)) (.mul (.num 10719689829491903 16) (.mul (.rd (.var .jTemp)) (.num 10994706834011048 20)))),
  .set (.arr .jac 259) (.add (.rd (.arr .jac 259)) (.mul (.neg (.num 11783744609145177 16)) (.mul (.rd (.var .jTemp)) (.num 10994706834011048 20)))),
  .set (.arr .jac 260) (.add (.rd (.arr .jac 260)) (.mul (.neg (.num 50077399822922919 17)) (.mul (.rd (.var .jTemp)) (.num 10994706834011048 20)))),
  .set (.arr .jac 278) (.add (.rd (.arr .jac 278)) (.mul (.num 38644438284200339 17) (.mul (.rd (.var .jTemp)) (.neg (.num 57102223643760053 17))))),
  .set (.arr .jac 288) (.add (.rd (.arr .jac 288)) (.mul (.num 68226349585774082 17) (.mul (.rd (.var .jTemp)) (.neg (.num 57102223643760053 17))))),
  .set (.arr .jac 280) (.add (.rd (.arr .jac 280)) (.mul (.neg (.num 74998613945075876 17)) (.mul (.rd (.var .jTemp)) (.neg (.num 57102223643760053 17))))),
  .set (.arr .jac 281) (.add (.rd (.arr .jac 281)) (.mul (.neg (.num 31872173924898545 17)) (.mul (.rd (.var .jTemp)) (.neg (.num 57102223643760053 17))))),
  .set (.arr .jac 299) (.add (.rd (.arr .jac 299)) (.mul (.num 58608934901169396 17) (.mul (.rd (.var .jTemp)) (.neg (.num 35870588016911675 18))))),
  .set (.arr .jac 309) (.add (.rd (.arr .jac 309)) (.mul (.num 10347345850934271 16) (.mul (.rd (.var .jTemp)) (.neg (.num 35870588016911675 18))))),
  .set (.arr .jac 301) (.add (.rd (.arr .jac 301)) (.mul (.neg (.num 11374441129299608 16)) (.mul (.rd (.var .jTemp)) (.neg (.num 35870588016911675 18))))),
  .set (.arr .jac 302) (.add (.rd (.arr .jac 302)) (.mul (.neg (.num 48337982117516021 17)) (.mul (.rd (.var .jTemp)) (.neg (.num 35870588016911675 18))))),
  .set (.arr .jac 320) (.add (.rd (.arr .jac 320)) (.mul (.num 5664151536587283 16) (.sub (.mul (.rd (.var .jTemp)) (.neg (.num 71851123102163683 18))) (.mul (.rd (.var .kr)) (.rd (.arr .C 4)))))),
  .set (.arr .jac 330) (.add (.rd (.arr .jac 330)) (.sub (.mul (.rd (.var .jTemp)) (.neg (.num 71851123102163683 18))) (.mul (.rd (.var .kr)) (.rd (.arr .C 4))))),
  .set (.arr .jac 322) (.add (.rd (.arr .jac 322)) (.mul (.neg (.num 10992617134057232 16)) (.sub (.mul (.rd (.var .jTemp)) (.neg (.num 71851123102163683 18))) (.mul (.rd (.var .kr)) (.rd (.arr .C 4)))))),
  .set (.arr .jac 323) (.add (.rd (.arr .jac 323)) (.mul (.neg (.num 46715344025300498 17)) (.sub (.mul (.rd (.var .jTemp)) (.neg (.num 71851123102163683 18))) (.mul (.rd (.var .kr)) (.rd (.arr .C 4)))))),
  .set (.arr .jac 341) (.add (.rd (.arr .jac 341)) (.mul (.num 54801892878248593 17) (.mul (.rd (.var .jTemp)) (.neg (.num 10783165818741525 17))))),
  .set (.arr .jac 351) (.add (.rd (.arr .jac 351)) (.mul (.num 96752165835004078 17) (.mul (.rd (.var .jTemp)) (.neg (.num 10783165818741525 17))))),
  .set (.arr .jac 343) (.add (.rd (.arr .jac 343)) (.mul (.neg (.num 10635595159150126 16)) (.mul (.rd (.var .jTemp)) (.neg (.num 10783165818741525 17))))),
  .set (.arr .jac 344) (.add (.rd (.arr .jac 344)) (.mul (.neg (.num 45198107121751407 17)) (.mul (.rd (.var .jTemp)) (.neg (.num 10783165818741525 17))))),
  .set (.arr .jac 362) (.add (.rd (.arr .jac 362)) (.mul (.num 60624101724688606 17) (.mul (.rd (.var .jTemp)) (.neg (.num 14378791924458678 19))))),
  .set (.arr .jac 372) (.add (.rd (.arr .jac 372)) (.mul (.num 10703121435415432 16) (.mul (.rd (.var .jTemp)) (.neg (.num 14378791924458678 19))))),
  .set (.arr .jac 364) (.add (.rd (.arr .jac 364)) (.mul (.neg (.num 11765531607884292 16)) (.mul (.rd (.var .jTemp)) (.neg (.num 14378791924458678 19))))),
  .set (.arr .jac 365) (.add (.rd (.arr .jac 365)) (.mul (.neg (.num 5 1)) (.mul (.rd (.var .jTemp)) (.neg (.num 14378791924458678 19))))),
  .set (.arr .jac 383) (.add (.rd (.arr .jac 383)) (.mul (.num 58521490484039129 17) (.mul (.rd (.var .jTemp)) (.neg (.num 37418414277697654 18))))),
  .set (.arr .jac 393) (.add (.rd (.arr .jac 393)) (.mul (.num 10331907631005757 16) (.mul (.rd (.var .jTemp)) (.neg (.num 37418414277697654 18))))),
  .set (.arr .jac 385) (.add (.rd (.arr .jac 385)) (.mul (.neg (.num 11357470485209056 16)) (.mul (.rd (.var .jTemp)) (.neg (.num 37418414277697654 18))))),
  .set (.arr .jac 386) (.add (.rd (.arr .jac 386)) (.mul (.neg (.num 48265861942006144 17)) (.mul (.rd (.var .jTemp)) (.neg (.num 37418414277697654 18))))),
  .set (.arr .jac 404) (.add (.rd (.arr .jac 404)) (.mul (.num 56559839093517583 17) (.mul (.rd (.var .jTemp)) (.neg (.num 73398949362949439 18))))),
  .set (.arr .jac 414) (.add (.rd (.arr .jac 414)) (.mul (.num 99855801399684196 17) (.mul (.rd (.var .jTemp)) (.neg (.num 73398949362949439 18))))),
  .set (.arr .jac 406) (.add (.rd (.arr .jac 406)) (.mul (.neg (.num 10976765934011847 16)) (.mul (.rd (.var .jTemp)) (.neg (.num 73398949362949439 18))))),
  .set (.arr .jac 407) (.add (.rd (.arr .jac 407)) (.mul (.neg (.num 46647981153083307 17)) (.mul (.rd (.var .jTemp)) (.neg (.num 73398949362949439 18))))),
  .set (.arr .jac 425) (.add (.rd (.arr .jac 425)) (.mul (.num 42573695804545908 17) (.mul (.rd (.var .jTemp)) (.neg (.num 42602775520927771 17))))),
  .set (.arr .jac 435) (.add (.rd (.arr .jac 435)) (.mul (.num 75163412436167021 17) (.mul (.rd (.var .jTemp)) (.neg (.num 42602775520927771 17))))),
  .set (.arr .jac 427) (.add (.rd (.arr .jac 427)) (.mul (.neg (.num 82624261540002009 17)) (.mul (.rd (.var .jTemp)) (.neg (.num 42602775520927771 17))))),
  .set (.arr .jac 428) (.add (.rd (.arr .jac 428)) (.mul (.neg (.num 3511284670071092 16)) (.mul (.rd (.var .jTemp)) (.neg (.num 42602775520927771 17)))))]

/-- utilities/mechanisms/drm19/lib/src/jacobs/jacob_1.c:1370-1376 -/
def jacobT54 : List CStmt := [
  .set (.var .jTemp) (.mul (.mul (.div (.num 1 0) (.rd (.var .T))) (.sub (.mul (.rd (.arr .fwd 54)) (.neg (.num 1 0))) (.mul (.rd (.arr .rev 54)) (.add (.neg (.num 1 0)) (.mul (.neg (.rd (.var .T))) (.sub (.sub (.add (.rd (.arr .dBdT 10)) (.rd (.arr .dBdT 3))) (.rd (.arr .dBdT 9))) (.rd (.arr .dBdT 6)))))))) (.rd (.var .rhoInv))),
  .set (.arr .jac 10) (.add (.rd (.arr .jac 10)) (.mul (.neg (.rd (.var .jTemp))) (.num 1503482 5))),
  .set (.arr .jac 11) (.add (.rd (.arr .jac 11)) (.mul (.rd (.var .jTemp)) (.num 16042760000000001 15))),
  .set (.arr .jac 4) (.add (.rd (.arr .jac 4)) (.mul (.rd (.var .jTemp)) (.num 31998799999999999 15))),
  .set (.arr .jac 7) (.add (.rd (.arr .jac 7)) (.mul (.neg (.rd (.var .jTemp))) (.num 33006740000000001 15)))]

/-- utilities/mechanisms/drm19/lib/src/jacobs/jacob_1.c:1377-1468 -/
def jacobS54 : List CStmt := [
  .ite (.rd (.var .T)) (.num 1000 0) (.var .Kc) (.sub (.add (.add (.neg (.num 72617988899999997 16)) (.mul (.num 95694408000000042 17) (.rd (.var .logT)))) (.mul (.rd (.var .T)) (.add (.neg (.num 69647721000000006 19)) (.mul (.rd (.var .T)) (.add (.num 53564757083333353 22) (.mul (.rd (.var .T)) (.add (.neg (.num 22506695033333334 25)) (.mul (.num 40385076949999996 29) (.rd (.var .T)))))))))) (.div (.neg (.num 28050398000000001 12)) (.rd (.var .T)))) (.sub (.add (.add (.num 14570914635000001 15) (.mul (.neg (.num 29455392850000006 16)) (.rd (.var .logT)))) (.mul (.rd (.var .T)) (.add (.num 269715687 11) (.mul (.rd (.var .T)) (.add (.neg (.num 47833718816666659 23)) (.mul (.rd (.var .T)) (.add (.num 60205407583333335 27) (.mul (.neg (.num 32990358250000004 31)) (.rd (.var .T)))))))))) (.div (.neg (.num 27444243322999999 12)) (.rd (.var .T)))),
  .set (.var .Kc) (.exp (.rd (.var .Kc))),
  .set (.var .jTemp) (.mul (.mul (.neg (.rd (.var .mwAvg))) (.rd (.var .rhoInv))) (.sub (.mul (.num 2 0) (.rd (.arr .fwd 54))) (.mul (.num 2 0) (.rd (.arr .rev 54))))),
  .set (.var .kf) (.num 1000000000 0),
  .set (.var .kr) (.div (.rd (.var .kf)) (.rd (.var .Kc))),
  .set (.arr .jac 31) (.add (.rd (.arr .jac 31)) (.mul (.neg (.num 74581919558703884 16)) (.mul (.rd (.var .jTemp)) (.num 92803892982949643 17)))),
  .set (.arr .jac 32) (.add (.rd (.arr .jac 32)) (.mul (.num 79581919558703893 16) (.mul (.rd (.var .jTemp)) (.num 92803892982949643 17)))),
  .set (.arr .jac 25) (.add (.rd (.arr .jac 25)) (.mul (.num 15873365478103855 15) (.mul (.rd (.var .jTemp)) (.num 92803892982949643 17)))),
  .set (.arr .jac 28) (.add (.rd (.arr .jac 28)) (.mul (.neg (.num 16373365478103853 15)) (.mul (.rd (.var .jTemp)) (.num 92803892982949643 17)))),
  .set (.arr .jac 52) (.add (.rd (.arr .jac 52)) (.mul (.neg (.num 14916383911740777 15)) (.mul (.rd (.var .jTemp)) (.num 96401946491474821 17)))),
  .set (.arr .jac 53) (.add (.rd (.arr .jac 53)) (.mul (.num 15916383911740779 15) (.mul (.rd (.var .jTemp)) (.num 96401946491474821 17)))),
  .set (.arr .jac 46) (.add (.rd (.arr .jac 46)) (.mul (.num 3174673095620771 14) (.mul (.rd (.var .jTemp)) (.num 96401946491474821 17)))),
  .set (.arr .jac 49) (.add (.rd (.arr .jac 49)) (.mul (.neg (.num 32746730956207706 15)) (.mul (.rd (.var .jTemp)) (.num 96401946491474821 17)))),
  .set (.arr .jac 73) (.add (.rd (.arr .jac 73)) (.mul (.neg (.num 93971148918084424 17)) (.mul (.rd (.var .jTemp)) (.num 42886781649405936 17)))),
  .set (.arr .jac 74) (.add (.rd (.arr .jac 74)) (.mul (.num 10027101016288111 16) (.mul (.rd (.var .jTemp)) (.num 42886781649405936 17)))),
  .set (.arr .jac 67) (.add (.rd (.arr .jac 67)) (.mul (.num 2 0) (.mul (.rd (.var .jTemp)) (.num 42886781649405936 17)))),
  .set (.arr .jac 70) (.add (.rd (.arr .jac 70)) (.mul (.neg (.num 20629986124479669 16)) (.mul (.rd (.var .jTemp)) (.num 42886781649405936 17)))),
  .set (.arr .jac 94) (.add (.rd (.arr .jac 94)) (.mul (.neg (.num 46985574459042212 17)) (.sub (.mul (.rd (.var .jTemp)) (.neg (.num 14226436701188128 17))) (.mul (.rd (.var .kr)) (.rd (.arr .C 10)))))),
  .set (.arr .jac 95) (.add (.rd (.arr .jac 95)) (.mul (.num 50135505081440557 17) (.sub (.mul (.rd (.var .jTemp)) (.neg (.num 14226436701188128 17))) (.mul (.rd (.var .kr)) (.rd (.arr .C 10)))))),
  .set (.arr .jac 88) (.add (.rd (.arr .jac 88)) (.sub (.mul (.rd (.var .jTemp)) (.neg (.num 14226436701188128 17))) (.mul (.rd (.var .kr)) (.rd (.arr .C 10))))),
  .set (.arr .jac 91) (.add (.rd (.arr .jac 91)) (.mul (.neg (.num 10314993062239834 16)) (.sub (.mul (.rd (.var .jTemp)) (.neg (.num 14226436701188128 17))) (.mul (.rd (.var .kr)) (.rd (.arr .C 10)))))),
  .set (.arr .jac 115) (.add (.rd (.arr .jac 115)) (.mul (.neg (.num 88401948805633335 17)) (.mul (.rd (.var .jTemp)) (.num 39288728140880758 17)))),
  .set (.arr .jac 116) (.add (.rd (.arr .jac 116)) (.mul (.num 9432844877564629 16) (.mul (.rd (.var .jTemp)) (.num 39288728140880758 17)))),
  .set (.arr .jac 109) (.add (.rd (.arr .jac 109)) (.mul (.num 18814700005997411 16) (.mul (.rd (.var .jTemp)) (.num 39288728140880758 17)))),
  .set (.arr .jac 112) (.add (.rd (.arr .jac 112)) (.mul (.neg (.num 19407350002998707 16)) (.mul (.rd (.var .jTemp)) (.num 39288728140880758 17)))),
  .set (.arr .jac 136) (.add (.rd (.arr .jac 136)) (.mul (.neg (.num 83455932963573143 17)) (.mul (.rd (.var .jTemp)) (.num 35690674632355568 17)))),
  .set (.arr .jac 137) (.add (.rd (.arr .jac 137)) (.mul (.num 89050850167191409 17) (.mul (.rd (.var .jTemp)) (.num 35690674632355568 17)))),
  .set (.arr .jac 130) (.add (.rd (.arr .jac 130)) (.mul (.num 17762033118552694 16) (.mul (.rd (.var .jTemp)) (.num 35690674632355568 17)))),
  .set (.arr .jac 133) (.add (.rd (.arr .jac 133)) (.mul (.neg (.num 1832152483891452 15)) (.mul (.rd (.var .jTemp)) (.num 35690674632355568 17)))),
  .set (.arr .jac 157) (.add (.rd (.arr .jac 157)) (.mul (.neg (.num 45550757208982162 17)) (.add (.mul (.rd (.var .jTemp)) (.neg (.num 17824490209713328 17))) (.mul (.rd (.var .kf)) (.rd (.arr .C 9)))))),
  .set (.arr .jac 158) (.add (.rd (.arr .jac 158)) (.mul (.num 48604497142098857 17) (.add (.mul (.rd (.var .jTemp)) (.neg (.num 17824490209713328 17))) (.mul (.rd (.var .kf)) (.rd (.arr .C 9)))))),
  .set (.arr .jac 151) (.add (.rd (.arr .jac 151)) (.mul (.num 96946260066883305 17) (.add (.mul (.rd (.var .jTemp)) (.neg (.num 17824490209713328 17))) (.mul (.rd (.var .kf)) (.rd (.arr .C 9)))))),
  .set (.arr .jac 154) (.add (.rd (.arr .jac 154)) (.neg (.add (.mul (.rd (.var .jTemp)) (.neg (.num 17824490209713328 17))) (.mul (.rd (.var .kf)) (.rd (.arr .C 9)))))),
  .set (.arr .jac 178) (.add (.rd (.arr .jac 178)) (.mul (.neg (.num 10718577474106858 16)) (.mul (.rd (.var .jTemp)) (.num 49928106040377707 17)))),
  .set (.arr .jac 179) (.add (.rd (.arr .jac 179)) (.mul (.num 11437154948213717 16) (.mul (.rd (.var .jTemp)) (.num 49928106040377707 17)))),
  .set (.arr .jac 172) (.add (.rd (.arr .jac 172)) (.mul (.num 22812485741661725 16) (.mul (.rd (.var .jTemp)) (.num 49928106040377707 17)))),
  .set (.arr .jac 175) (.add (.rd (.arr .jac 175)) (.mul (.neg (.num 23531063215768584 16)) (.mul (.rd (.var .jTemp)) (.num 49928106040377707 17)))),
  .set (.arr .jac 199) (.add (.rd (.arr .jac 199)) (.mul (.neg (.num 10718577474106858 16)) (.mul (.rd (.var .jTemp)) (.num 49928106040377707 17)))),
  .set (.arr .jac 200) (.add (.rd (.arr .jac 200)) (.mul (.num 11437154948213717 16) (.mul (.rd (.var .jTemp)) (.num 49928106040377707 17)))),
  .set (.arr .jac 193) (.add (.rd (.arr .jac 193)) (.mul (.num 22812485741661725 16) (.mul (.rd (.var .jTemp)) (.num 49928106040377707 17)))),
  .set (.arr .jac 196) (.add (.rd (.arr .jac 196)) (.mul (.neg (.num 23531063215768584 16)) (.mul (.rd (.var .jTemp)) (.num 49928106040377707 17)))),
  .set (.arr .jac 220) (.add (.rd (.arr .jac 220)) (.neg (.add (.mul (.rd (.var .jTemp)) (.num 46330052531852528 17)) (.mul (.rd (.var .kf)) (.rd (.arr .C 6)))))),
  .set (.arr .jac 221) (.add (.rd (.arr .jac 221)) (.mul (.num 10670403769383339 16) (.add (.mul (.rd (.var .jTemp)) (.num 46330052531852528 17)) (.mul (.rd (.var .kf)) (.rd (.arr .C 6)))))),
  .set (.arr .jac 214) (.add (.rd (.arr .jac 214)) (.mul (.num 21283128098640356 16) (.add (.mul (.rd (.var .jTemp)) (.num 46330052531852528 17)) (.mul (.rd (.var .kf)) (.rd (.arr .C 6)))))),
  .set (.arr .jac 217) (.add (.rd (.arr .jac 217)) (.mul (.neg (.num 21953531868023695 16)) (.add (.mul (.rd (.var .jTemp)) (.num 46330052531852528 17)) (.mul (.rd (.var .kf)) (.rd (.arr .C 6)))))),
  .set (.arr .jac 241) (.add (.rd (.arr .jac 241)) (.mul (.neg (.num 93717165874201191 17)) (.sub (.mul (.rd (.var .jTemp)) (.num 42731999023327338 17)) (.mul (.rd (.var .kr)) (.rd (.arr .C 3)))))),
  .set (.arr .jac 242) (.add (.rd (.arr .jac 242)) (.sub (.mul (.rd (.var .jTemp)) (.num 42731999023327338 17)) (.mul (.rd (.var .kr)) (.rd (.arr .C 3))))),
  .set (.arr .jac 235) (.add (.rd (.arr .jac 235)) (.mul (.num 19945944463421503 16) (.sub (.mul (.rd (.var .jTemp)) (.num 42731999023327338 17)) (.mul (.rd (.var .kr)) (.rd (.arr .C 3)))))),
  .set (.arr .jac 238) (.add (.rd (.arr .jac 238)) (.mul (.neg (.num 20574227876001383 16)) (.sub (.mul (.rd (.var .jTemp)) (.num 42731999023327338 17)) (.mul (.rd (.var .kr)) (.rd (.arr .C 3)))))),
  .set (.arr .jac 262) (.add (.rd (.arr .jac 262)) (.mul (.neg (.num 53675848970382434 17)) (.mul (.rd (.var .jTemp)) (.num 10994706834011048 20)))),
  .set (.arr .jac 263) (.add (.rd (.arr .jac 263)) (.mul (.num 5727429811784196 16) (.mul (.rd (.var .jTemp)) (.num 10994706834011048 20)))),
  .set (.arr .jac 256) (.add (.rd (.arr .jac 256)) (.mul (.num 11423899694399224 16) (.mul (.rd (.var .jTemp)) (.num 10994706834011048 20)))),
  .set (.arr .jac 259) (.add (.rd (.arr .jac 259)) (.mul (.neg (.num 11783744609145177 16)) (.mul (.rd (.var .jTemp)) (.num 10994706834011048 20)))),
  .set (.arr .jac 283) (.add (.rd (.arr .jac 283)) (.mul (.neg (.num 34162436548223352 17)) (.mul (.rd (.var .jTemp)) (.neg (.num 57102223643760053 17))))),
  .set (.arr .jac 284) (.add (.rd (.arr .jac 284)) (.mul (.num 36452699171548159 17) (.mul (.rd (.var .jTemp)) (.neg (.num 57102223643760053 17))))),
  .set (.arr .jac 277) (.add (.rd (.arr .jac 277)) (.mul (.num 72708351321751064 17) (.mul (.rd (.var .jTemp)) (.neg (.num 57102223643760053 17))))),
  .set (.arr .jac 280) (.add (.rd (.arr .jac 280)) (.mul (.neg (.num 74998613945075876 17)) (.mul (.rd (.var .jTemp)) (.neg (.num 57102223643760053 17))))),
  .set (.arr .jac 304) (.add (.rd (.arr .jac 304)) (.mul (.neg (.num 5181144062685874 16)) (.mul (.rd (.var .jTemp)) (.neg (.num 35870588016911675 18))))),
  .set (.arr .jac 305) (.add (.rd (.arr .jac 305)) (.mul (.num 5528489913620146 16) (.mul (.rd (.var .jTemp)) (.neg (.num 35870588016911675 18))))),
  .set (.arr .jac 298) (.add (.rd (.arr .jac 298)) (.mul (.num 11027095278365338 16) (.mul (.rd (.var .jTemp)) (.neg (.num 35870588016911675 18))))),
  .set (.arr .jac 301) (.add (.rd (.arr .jac 301)) (.mul (.neg (.num 11374441129299608 16)) (.mul (.rd (.var .jTemp)) (.neg (.num 35870588016911675 18))))),
  .set (.arr .jac 325) (.add (.rd (.arr .jac 325)) (.mul (.neg (.num 50072203416473837 17)) (.mul (.rd (.var .jTemp)) (.neg (.num 71851123102163683 18))))),
  .set (.arr .jac 326) (.add (.rd (.arr .jac 326)) (.mul (.num 53429062807647176 17) (.mul (.rd (.var .jTemp)) (.neg (.num 71851123102163683 18))))),
  .set (.arr .jac 319) (.add (.rd (.arr .jac 319)) (.mul (.num 10656931194939898 16) (.mul (.rd (.var .jTemp)) (.neg (.num 71851123102163683 18))))),
  .set (.arr .jac 322) (.add (.rd (.arr .jac 322)) (.mul (.neg (.num 10992617134057232 16)) (.mul (.rd (.var .jTemp)) (.neg (.num 71851123102163683 18))))),
  .set (.arr .jac 346) (.add (.rd (.arr .jac 346)) (.mul (.neg (.num 4844594128674734 16)) (.mul (.rd (.var .jTemp)) (.neg (.num 10783165818741525 17))))),
  .set (.arr .jac 347) (.add (.rd (.arr .jac 347)) (.mul (.num 51693775451743273 17) (.mul (.rd (.var .jTemp)) (.neg (.num 10783165818741525 17))))),
  .set (.arr .jac 340) (.add (.rd (.arr .jac 340)) (.mul (.num 10310811742650532 16) (.mul (.rd (.var .jTemp)) (.neg (.num 10783165818741525 17))))),
  .set (.arr .jac 343) (.add (.rd (.arr .jac 343)) (.mul (.neg (.num 10635595159150126 16)) (.mul (.rd (.var .jTemp)) (.neg (.num 10783165818741525 17))))),
  .set (.arr .jac 367) (.add (.rd (.arr .jac 367)) (.mul (.neg (.num 53592887370534292 17)) (.mul (.rd (.var .jTemp)) (.neg (.num 14378791924458678 19))))),
  .set (.arr .jac 368) (.add (.rd (.arr .jac 368)) (.mul (.num 57185774741068585 17) (.mul (.rd (.var .jTemp)) (.neg (.num 14378791924458678 19))))),
  .set (.arr .jac 361) (.add (.rd (.arr .jac 361)) (.mul (.num 11406242870830863 16) (.mul (.rd (.var .jTemp)) (.neg (.num 14378791924458678 19))))),
  .set (.arr .jac 364) (.add (.rd (.arr .jac 364)) (.mul (.neg (.num 11765531607884292 16)) (.mul (.rd (.var .jTemp)) (.neg (.num 14378791924458678 19))))),
  .set (.arr .jac 388) (.add (.rd (.arr .jac 388)) (.mul (.neg (.num 51734138057993861 17)) (.mul (.rd (.var .jTemp)) (.neg (.num 37418414277697654 18))))),
  .set (.arr .jac 389) (.add (.rd (.arr .jac 389)) (.mul (.num 55202414173981573 17) (.mul (.rd (.var .jTemp)) (.neg (.num 37418414277697654 18))))),
  .set (.arr .jac 382) (.add (.rd (.arr .jac 382)) (.mul (.num 11010642873610286 16) (.mul (.rd (.var .jTemp)) (.neg (.num 37418414277697654 18))))),
  .set (.arr .jac 385) (.add (.rd (.arr .jac 385)) (.mul (.neg (.num 11357470485209056 16)) (.mul (.rd (.var .jTemp)) (.neg (.num 37418414277697654 18))))),
  .set (.arr .jac 409) (.add (.rd (.arr .jac 409)) (.mul (.neg (.num 5 1)) (.mul (.rd (.var .jTemp)) (.neg (.num 73398949362949439 18))))),
  .set (.arr .jac 410) (.add (.rd (.arr .jac 410)) (.mul (.num 53352018846916693 17) (.mul (.rd (.var .jTemp)) (.neg (.num 73398949362949439 18))))),
  .set (.arr .jac 403) (.add (.rd (.arr .jac 403)) (.mul (.num 10641564049320178 16) (.mul (.rd (.var .jTemp)) (.neg (.num 73398949362949439 18))))),
  .set (.arr .jac 406) (.add (.rd (.arr .jac 406)) (.mul (.neg (.num 10976765934011847 16)) (.mul (.rd (.var .jTemp)) (.neg (.num 73398949362949439 18))))),
  .set (.arr .jac 430) (.add (.rd (.arr .jac 430)) (.mul (.neg (.num 37635976769800739 17)) (.mul (.rd (.var .jTemp)) (.neg (.num 42602775520927771 17))))),
  .set (.arr .jac 431) (.add (.rd (.arr .jac 431)) (.mul (.num 40159106838890563 17) (.mul (.rd (.var .jTemp)) (.neg (.num 42602775520927771 17))))),
  .set (.arr .jac 424) (.add (.rd (.arr .jac 424)) (.mul (.num 80101131470912179 17) (.mul (.rd (.var .jTemp)) (.neg (.num 42602775520927771 17))))),
  .set (.arr .jac 427) (.add (.rd (.arr .jac 427)) (.mul (.neg (.num 82624261540002009 17)) (.mul (.rd (.var .jTemp)) (.neg (.num 42602775520927771 17)))))]

/-- utilities/mechanisms/drm19/lib/src/jacobs/jacob_1.c:1469-1475 -/
def jacobT55 : List CStmt := [
  .set (.var .jTemp) (.mul (.mul (.div (.num 1 0) (.rd (.var .T))) (.sub (.mul (.rd (.arr .fwd 55)) (.neg (.num 1 0))) (.mul (.rd (.arr .rev 55)) (.add (.neg (.num 1 0)) (.mul (.neg (.rd (.var .T))) (.sub (.sub (.add (.rd (.arr .dBdT 15)) (.rd (.arr .dBdT 4))) (.rd (.arr .dBdT 9))) (.rd (.arr .dBdT 6)))))))) (.rd (.var .rhoInv))),
  .set (.arr .jac 10) (.add (.rd (.arr .jac 10)) (.mul (.neg (.rd (.var .jTemp))) (.num 1503482 5))),
  .set (.arr .jac 5) (.add (.rd (.arr .jac 5)) (.mul (.rd (.var .jTemp)) (.num 17007339999999999 15))),
  .set (.arr .jac 7) (.add (.rd (.arr .jac 7)) (.mul (.neg (.rd (.var .jTemp))) (.num 33006740000000001 15))),
  .set (.arr .jac 16) (.add (.rd (.arr .jac 16)) (.mul (.rd (.var .jTemp)) (.num 31034219999999998 15)))]

/-- utilities/mechanisms/drm19/lib/src/jacobs/jacob_1.c:1476-1567 -/
def jacobS55 : List CStmt := [
  .ite (.rd (.var .T)) (.num 1000 0) (.var .Kc) (.sub (.add (.add (.num 96041937419999996 16) (.mul (.neg (.num 187716898 8)) (.rd (.var .logT)))) (.mul (.rd (.var .T)) (.add (.num 377672312 11) (.mul (.rd (.var .T)) (.add (.neg (.num 28220162083333331 22)) (.mul (.rd (.var .T)) (.add (.num 16573995266666667 25) (.mul (.neg (.num 41981919400000005 29)) (.rd (.var .T)))))))))) (.div (.neg (.num 12146125180000001 12)) (.rd (.var .T)))) (.sub (.add (.add (.neg (.num 54196608900000012 16)) (.mul (.num 56075804999999956 17) (.rd (.var .logT)))) (.mul (.rd (.var .T)) (.add (.neg (.num 52989689200000009 20)) (.mul (.rd (.var .T)) (.add (.num 18182047633333335 23) (.mul (.rd (.var .T)) (.add (.neg (.num 33619505800000002 27)) (.mul (.num 24060685250000003 31) (.rd (.var .T)))))))))) (.div (.neg (.num 12900951492999999 12)) (.rd (.var .T)))),
  .set (.var .Kc) (.exp (.rd (.var .Kc))),
  .set (.var .jTemp) (.mul (.mul (.neg (.rd (.var .mwAvg))) (.rd (.var .rhoInv))) (.sub (.mul (.num 2 0) (.rd (.arr .fwd 55))) (.mul (.num 2 0) (.rd (.arr .rev 55))))),
  .set (.var .kf) (.num 20000000000 0),
  .set (.var .kr) (.div (.rd (.var .kf)) (.rd (.var .Kc))),
  .set (.arr .jac 31) (.add (.rd (.arr .jac 31)) (.mul (.neg (.num 74581919558703884 16)) (.mul (.rd (.var .jTemp)) (.num 92803892982949643 17)))),
  .set (.arr .jac 26) (.add (.rd (.arr .jac 26)) (.mul (.num 84366827390519266 16) (.mul (.rd (.var .jTemp)) (.num 92803892982949643 17)))),
  .set (.arr .jac 28) (.add (.rd (.arr .jac 28)) (.mul (.neg (.num 16373365478103853 15)) (.mul (.rd (.var .jTemp)) (.num 92803892982949643 17)))),
  .set (.arr .jac 37) (.add (.rd (.arr .jac 37)) (.mul (.num 15394874694922315 15) (.mul (.rd (.var .jTemp)) (.num 92803892982949643 17)))),
  .set (.arr .jac 52) (.add (.rd (.arr .jac 52)) (.mul (.neg (.num 14916383911740777 15)) (.mul (.rd (.var .jTemp)) (.num 96401946491474821 17)))),
  .set (.arr .jac 47) (.add (.rd (.arr .jac 47)) (.mul (.num 16873365478103853 15) (.mul (.rd (.var .jTemp)) (.num 96401946491474821 17)))),
  .set (.arr .jac 49) (.add (.rd (.arr .jac 49)) (.mul (.neg (.num 32746730956207706 15)) (.mul (.rd (.var .jTemp)) (.num 96401946491474821 17)))),
  .set (.arr .jac 58) (.add (.rd (.arr .jac 58)) (.mul (.num 3078974938984463 14) (.mul (.rd (.var .jTemp)) (.num 96401946491474821 17)))),
  .set (.arr .jac 73) (.add (.rd (.arr .jac 73)) (.mul (.neg (.num 93971148918084424 17)) (.mul (.rd (.var .jTemp)) (.num 42886781649405936 17)))),
  .set (.arr .jac 68) (.add (.rd (.arr .jac 68)) (.mul (.num 10629986124479667 16) (.mul (.rd (.var .jTemp)) (.num 42886781649405936 17)))),
  .set (.arr .jac 70) (.add (.rd (.arr .jac 70)) (.mul (.neg (.num 20629986124479669 16)) (.mul (.rd (.var .jTemp)) (.num 42886781649405936 17)))),
  .set (.arr .jac 79) (.add (.rd (.arr .jac 79)) (.mul (.num 19397114891808442 16) (.mul (.rd (.var .jTemp)) (.num 42886781649405936 17)))),
  .set (.arr .jac 94) (.add (.rd (.arr .jac 94)) (.mul (.neg (.num 46985574459042212 17)) (.mul (.rd (.var .jTemp)) (.neg (.num 14226436701188128 17))))),
  .set (.arr .jac 89) (.add (.rd (.arr .jac 89)) (.mul (.num 53149930622398334 17) (.mul (.rd (.var .jTemp)) (.neg (.num 14226436701188128 17))))),
  .set (.arr .jac 91) (.add (.rd (.arr .jac 91)) (.mul (.neg (.num 10314993062239834 16)) (.mul (.rd (.var .jTemp)) (.neg (.num 14226436701188128 17))))),
  .set (.arr .jac 100) (.add (.rd (.arr .jac 100)) (.mul (.num 96985574459042212 17) (.mul (.rd (.var .jTemp)) (.neg (.num 14226436701188128 17))))),
  .set (.arr .jac 115) (.add (.rd (.arr .jac 115)) (.mul (.neg (.num 88401948805633335 17)) (.sub (.mul (.rd (.var .jTemp)) (.num 39288728140880758 17)) (.mul (.rd (.var .kr)) (.rd (.arr .C 15)))))),
  .set (.arr .jac 110) (.add (.rd (.arr .jac 110)) (.sub (.mul (.rd (.var .jTemp)) (.num 39288728140880758 17)) (.mul (.rd (.var .kr)) (.rd (.arr .C 15))))),
  .set (.arr .jac 112) (.add (.rd (.arr .jac 112)) (.mul (.neg (.num 19407350002998707 16)) (.sub (.mul (.rd (.var .jTemp)) (.num 39288728140880758 17)) (.mul (.rd (.var .kr)) (.rd (.arr .C 15)))))),
  .set (.arr .jac 121) (.add (.rd (.arr .jac 121)) (.mul (.num 18247544883562039 16) (.sub (.mul (.rd (.var .jTemp)) (.num 39288728140880758 17)) (.mul (.rd (.var .kr)) (.rd (.arr .C 15)))))),
  .set (.arr .jac 136) (.add (.rd (.arr .jac 136)) (.mul (.neg (.num 83455932963573143 17)) (.mul (.rd (.var .jTemp)) (.num 35690674632355568 17)))),
  .set (.arr .jac 131) (.add (.rd (.arr .jac 131)) (.mul (.num 94405082796381734 17) (.mul (.rd (.var .jTemp)) (.num 35690674632355568 17)))),
  .set (.arr .jac 133) (.add (.rd (.arr .jac 133)) (.mul (.neg (.num 1832152483891452 15)) (.mul (.rd (.var .jTemp)) (.num 35690674632355568 17)))),
  .set (.arr .jac 142) (.add (.rd (.arr .jac 142)) (.mul (.num 17226609855633661 16) (.mul (.rd (.var .jTemp)) (.num 35690674632355568 17)))),
  .set (.arr .jac 157) (.add (.rd (.arr .jac 157)) (.mul (.neg (.num 45550757208982162 17)) (.add (.mul (.rd (.var .jTemp)) (.neg (.num 17824490209713328 17))) (.mul (.rd (.var .kf)) (.rd (.arr .C 9)))))),
  .set (.arr .jac 152) (.add (.rd (.arr .jac 152)) (.mul (.num 51526869966558342 17) (.add (.mul (.rd (.var .jTemp)) (.neg (.num 17824490209713328 17))) (.mul (.rd (.var .kf)) (.rd (.arr .C 9)))))),
  .set (.arr .jac 154) (.add (.rd (.arr .jac 154)) (.neg (.add (.mul (.rd (.var .jTemp)) (.neg (.num 17824490209713328 17))) (.mul (.rd (.var .kf)) (.rd (.arr .C 9)))))),
  .set (.arr .jac 163) (.add (.rd (.arr .jac 163)) (.mul (.num 94023887242423809 17) (.add (.mul (.rd (.var .jTemp)) (.neg (.num 17824490209713328 17))) (.mul (.rd (.var .kf)) (.rd (.arr .C 9)))))),
  .set (.arr .jac 178) (.add (.rd (.arr .jac 178)) (.mul (.neg (.num 10718577474106858 16)) (.mul (.rd (.var .jTemp)) (.num 49928106040377707 17)))),
  .set (.arr .jac 173) (.add (.rd (.arr .jac 173)) (.mul (.num 12124820344937721 16) (.mul (.rd (.var .jTemp)) (.num 49928106040377707 17)))),
  .set (.arr .jac 175) (.add (.rd (.arr .jac 175)) (.mul (.neg (.num 23531063215768584 16)) (.mul (.rd (.var .jTemp)) (.num 49928106040377707 17)))),
  .set (.arr .jac 184) (.add (.rd (.arr .jac 184)) (.mul (.num 22124820344937719 16) (.mul (.rd (.var .jTemp)) (.num 49928106040377707 17)))),
  .set (.arr .jac 199) (.add (.rd (.arr .jac 199)) (.mul (.neg (.num 10718577474106858 16)) (.mul (.rd (.var .jTemp)) (.num 49928106040377707 17)))),
  .set (.arr .jac 194) (.add (.rd (.arr .jac 194)) (.mul (.num 12124820344937721 16) (.mul (.rd (.var .jTemp)) (.num 49928106040377707 17)))),
  .set (.arr .jac 196) (.add (.rd (.arr .jac 196)) (.mul (.neg (.num 23531063215768584 16)) (.mul (.rd (.var .jTemp)) (.num 49928106040377707 17)))),
  .set (.arr .jac 205) (.add (.rd (.arr .jac 205)) (.mul (.num 22124820344937719 16) (.mul (.rd (.var .jTemp)) (.num 49928106040377707 17)))),
  .set (.arr .jac 220) (.add (.rd (.arr .jac 220)) (.neg (.add (.mul (.rd (.var .jTemp)) (.num 46330052531852528 17)) (.mul (.rd (.var .kf)) (.rd (.arr .C 6)))))),
  .set (.arr .jac 215) (.add (.rd (.arr .jac 215)) (.mul (.num 11311967818703517 16) (.add (.mul (.rd (.var .jTemp)) (.num 46330052531852528 17)) (.mul (.rd (.var .kf)) (.rd (.arr .C 6)))))),
  .set (.arr .jac 217) (.add (.rd (.arr .jac 217)) (.mul (.neg (.num 21953531868023695 16)) (.add (.mul (.rd (.var .jTemp)) (.num 46330052531852528 17)) (.mul (.rd (.var .kf)) (.rd (.arr .C 6)))))),
  .set (.arr .jac 226) (.add (.rd (.arr .jac 226)) (.mul (.num 20641564049320178 16) (.add (.mul (.rd (.var .jTemp)) (.num 46330052531852528 17)) (.mul (.rd (.var .kf)) (.rd (.arr .C 6)))))),
  .set (.arr .jac 241) (.add (.rd (.arr .jac 241)) (.mul (.neg (.num 93717165874201191 17)) (.mul (.rd (.var .jTemp)) (.num 42731999023327338 17)))),
  .set (.arr .jac 236) (.add (.rd (.arr .jac 236)) (.mul (.num 10601255644290632 16) (.mul (.rd (.var .jTemp)) (.num 42731999023327338 17)))),
  .set (.arr .jac 238) (.add (.rd (.arr .jac 238)) (.mul (.neg (.num 20574227876001383 16)) (.mul (.rd (.var .jTemp)) (.num 42731999023327338 17)))),
  .set (.arr .jac 247) (.add (.rd (.arr .jac 247)) (.mul (.num 19344688819130871 16) (.mul (.rd (.var .jTemp)) (.num 42731999023327338 17)))),
  .set (.arr .jac 262) (.add (.rd (.arr .jac 262)) (.mul (.neg (.num 53675848970382434 17)) (.mul (.rd (.var .jTemp)) (.num 10994706834011048 20)))),
  .set (.arr .jac 257) (.add (.rd (.arr .jac 257)) (.mul (.num 60717947619455637 17) (.mul (.rd (.var .jTemp)) (.num 10994706834011048 20)))),
  .set (.arr .jac 259) (.add (.rd (.arr .jac 259)) (.mul (.neg (.num 11783744609145177 16)) (.mul (.rd (.var .jTemp)) (.num 10994706834011048 20)))),
  .set (.arr .jac 268) (.add (.rd (.arr .jac 268)) (.mul (.num 11079534744237856 16) (.mul (.rd (.var .jTemp)) (.num 10994706834011048 20)))),
  .set (.arr .jac 283) (.add (.rd (.arr .jac 283)) (.mul (.neg (.num 34162436548223352 17)) (.mul (.rd (.var .jTemp)) (.neg (.num 57102223643760053 17))))),
  .set (.arr .jac 278) (.add (.rd (.arr .jac 278)) (.mul (.num 38644438284200339 17) (.mul (.rd (.var .jTemp)) (.neg (.num 57102223643760053 17))))),
  .set (.arr .jac 280) (.add (.rd (.arr .jac 280)) (.mul (.neg (.num 74998613945075876 17)) (.mul (.rd (.var .jTemp)) (.neg (.num 57102223643760053 17))))),
  .set (.arr .jac 289) (.add (.rd (.arr .jac 289)) (.mul (.num 70516612209098883 17) (.mul (.rd (.var .jTemp)) (.neg (.num 57102223643760053 17))))),
  .set (.arr .jac 304) (.add (.rd (.arr .jac 304)) (.mul (.neg (.num 5181144062685874 16)) (.mul (.rd (.var .jTemp)) (.neg (.num 35870588016911675 18))))),
  .set (.arr .jac 299) (.add (.rd (.arr .jac 299)) (.mul (.num 58608934901169396 17) (.mul (.rd (.var .jTemp)) (.neg (.num 35870588016911675 18))))),
  .set (.arr .jac 301) (.add (.rd (.arr .jac 301)) (.mul (.neg (.num 11374441129299608 16)) (.mul (.rd (.var .jTemp)) (.neg (.num 35870588016911675 18))))),
  .set (.arr .jac 310) (.add (.rd (.arr .jac 310)) (.mul (.num 10694691701868542 16) (.mul (.rd (.var .jTemp)) (.neg (.num 35870588016911675 18))))),
  .set (.arr .jac 325) (.add (.rd (.arr .jac 325)) (.mul (.neg (.num 50072203416473837 17)) (.mul (.rd (.var .jTemp)) (.neg (.num 71851123102163683 18))))),
  .set (.arr .jac 320) (.add (.rd (.arr .jac 320)) (.mul (.num 5664151536587283 16) (.mul (.rd (.var .jTemp)) (.neg (.num 71851123102163683 18))))),
  .set (.arr .jac 322) (.add (.rd (.arr .jac 322)) (.mul (.neg (.num 10992617134057232 16)) (.mul (.rd (.var .jTemp)) (.neg (.num 71851123102163683 18))))),
  .set (.arr .jac 331) (.add (.rd (.arr .jac 331)) (.mul (.num 10335685939117332 16) (.mul (.rd (.var .jTemp)) (.neg (.num 71851123102163683 18))))),
  .set (.arr .jac 346) (.add (.rd (.arr .jac 346)) (.mul (.neg (.num 4844594128674734 16)) (.sub (.mul (.rd (.var .jTemp)) (.neg (.num 10783165818741525 17))) (.mul (.rd (.var .kr)) (.rd (.arr .C 4)))))),
  .set (.arr .jac 341) (.add (.rd (.arr .jac 341)) (.mul (.num 54801892878248593 17) (.sub (.mul (.rd (.var .jTemp)) (.neg (.num 10783165818741525 17))) (.mul (.rd (.var .kr)) (.rd (.arr .C 4)))))),
  .set (.arr .jac 343) (.add (.rd (.arr .jac 343)) (.mul (.neg (.num 10635595159150126 16)) (.sub (.mul (.rd (.var .jTemp)) (.neg (.num 10783165818741525 17))) (.mul (.rd (.var .kr)) (.rd (.arr .C 4)))))),
  .set (.arr .jac 352) (.add (.rd (.arr .jac 352)) (.sub (.mul (.rd (.var .jTemp)) (.neg (.num 10783165818741525 17))) (.mul (.rd (.var .kr)) (.rd (.arr .C 4))))),
  .set (.arr .jac 367) (.add (.rd (.arr .jac 367)) (.mul (.neg (.num 53592887370534292 17)) (.mul (.rd (.var .jTemp)) (.neg (.num 14378791924458678 19))))),
  .set (.arr .jac 362) (.add (.rd (.arr .jac 362)) (.mul (.num 60624101724688606 17) (.mul (.rd (.var .jTemp)) (.neg (.num 14378791924458678 19))))),
  .set (.arr .jac 364) (.add (.rd (.arr .jac 364)) (.mul (.neg (.num 11765531607884292 16)) (.mul (.rd (.var .jTemp)) (.neg (.num 14378791924458678 19))))),
  .set (.arr .jac 373) (.add (.rd (.arr .jac 373)) (.mul (.num 11062410172468859 16) (.mul (.rd (.var .jTemp)) (.neg (.num 14378791924458678 19))))),
  .set (.arr .jac 388) (.add (.rd (.arr .jac 388)) (.mul (.neg (.num 51734138057993861 17)) (.mul (.rd (.var .jTemp)) (.neg (.num 37418414277697654 18))))),
  .set (.arr .jac 383) (.add (.rd (.arr .jac 383)) (.mul (.num 58521490484039129 17) (.mul (.rd (.var .jTemp)) (.neg (.num 37418414277697654 18))))),
  .set (.arr .jac 385) (.add (.rd (.arr .jac 385)) (.mul (.neg (.num 11357470485209056 16)) (.mul (.rd (.var .jTemp)) (.neg (.num 37418414277697654 18))))),
  .set (.arr .jac 394) (.add (.rd (.arr .jac 394)) (.mul (.num 10678735242604527 16) (.mul (.rd (.var .jTemp)) (.neg (.num 37418414277697654 18))))),
  .set (.arr .jac 409) (.add (.rd (.arr .jac 409)) (.mul (.neg (.num 5 1)) (.mul (.rd (.var .jTemp)) (.neg (.num 73398949362949439 18))))),
  .set (.arr .jac 404) (.add (.rd (.arr .jac 404)) (.mul (.num 56559839093517583 17) (.mul (.rd (.var .jTemp)) (.neg (.num 73398949362949439 18))))),
  .set (.arr .jac 406) (.add (.rd (.arr .jac 406)) (.mul (.neg (.num 10976765934011847 16)) (.mul (.rd (.var .jTemp)) (.neg (.num 73398949362949439 18))))),
  .set (.arr .jac 415) (.add (.rd (.arr .jac 415)) (.mul (.num 10320782024660089 16) (.mul (.rd (.var .jTemp)) (.neg (.num 73398949362949439 18))))),
  .set (.arr .jac 430) (.add (.rd (.arr .jac 430)) (.mul (.neg (.num 37635976769800739 17)) (.mul (.rd (.var .jTemp)) (.neg (.num 42602775520927771 17))))),
  .set (.arr .jac 425) (.add (.rd (.arr .jac 425)) (.mul (.num 42573695804545908 17) (.mul (.rd (.var .jTemp)) (.neg (.num 42602775520927771 17))))),
  .set (.arr .jac 427) (.add (.rd (.arr .jac 427)) (.mul (.neg (.num 82624261540002009 17)) (.mul (.rd (.var .jTemp)) (.neg (.num 42602775520927771 17))))),
  .set (.arr .jac 436) (.add (.rd (.arr .jac 436)) (.mul (.num 77686542505256828 17) (.mul (.rd (.var .jTemp)) (.neg (.num 42602775520927771 17)))))]

/-- utilities/mechanisms/drm19/lib/src/jacobs/jacob_1.c:1568-1574 -/
def jacobT56 : List CStmt := [
  .set (.var .jTemp) (.mul (.mul (.div (.num 1 0) (.rd (.var .T))) (.sub (.add (.mul (.sub (.rd (.arr .fwd 56)) (.rd (.arr .rev 56))) (.div (.num 11875981730676238 12) (.rd (.var .T)))) (.mul (.rd (.arr .fwd 56)) (.neg (.num 1 0)))) (.mul (.rd (.arr .rev 56)) (.add (.neg (.num 1 0)) (.mul (.neg (.rd (.var .T))) (.sub (.sub (.add (.rd (.arr .dBdT 12)) (.rd (.arr .dBdT 4))) (.rd (.arr .dBdT 11))) (.rd (.arr .dBdT 6)))))))) (.rd (.var .rhoInv))),
  .set (.arr .jac 5) (.add (.rd (.arr .jac 5)) (.mul (.rd (.var .jTemp)) (.num 17007339999999999 15))),
  .set (.arr .jac 12) (.add (.rd (.arr .jac 12)) (.mul (.neg (.rd (.var .jTemp))) (.num 28010399999999997 15))),
  .set (.arr .jac 13) (.add (.rd (.arr .jac 13)) (.mul (.rd (.var .jTemp)) (.num 44009799999999998 15))),
  .set (.arr .jac 7) (.add (.rd (.arr .jac 7)) (.mul (.neg (.rd (.var .jTemp))) (.num 33006740000000001 15)))]

/-- utilities/mechanisms/drm19/lib/src/jacobs/jacob_1.c:1575-1666 -/
def jacobS56 : List CStmt := [
  .ite (.rd (.var .T)) (.num 1000 0) (.var .Kc) (.sub (.add (.add (.num 41045975620000004 16) (.mul (.neg (.num 15325425299999997 16)) (.rd (.var .logT)))) (.mul (.rd (.var .T)) (.add (.num 59713767200000002 19) (.mul (.rd (.var .T)) (.add (.neg (.num 41134546183333329 22)) (.mul (.rd (.var .T)) (.add (.num 18289533671666668 25) (.mul (.neg (.num 35837057945000006 29)) (.rd (.var .T)))))))))) (.div (.neg (.num 30707611180000004 12)) (.rd (.var .T)))) (.sub (.add (.add (.neg (.num 50734071600000004 16)) (.mul (.num 21795145000000016 17) (.rd (.var .logT)))) (.mul (.rd (.var .T)) (.add (.num 33022620799999969 20) (.mul (.rd (.var .T)) (.add (.neg (.num 75970815166666692 24)) (.mul (.rd (.var .T)) (.add (.num 76037212000000025 28) (.mul (.neg (.num 21557768500000007 32)) (.rd (.var .T)))))))))) (.div (.neg (.num 30860493312999999 12)) (.rd (.var .T)))),
  .set (.var .Kc) (.exp (.rd (.var .Kc))),
  .set (.var .jTemp) (.mul (.mul (.neg (.rd (.var .mwAvg))) (.rd (.var .rhoInv))) (.sub (.mul (.num 2 0) (.rd (.arr .fwd 56))) (.mul (.num 2 0) (.rd (.arr .rev 56))))),
  .set (.var .kf) (.exp (.sub (.num 25733901131042668 15) (.div (.num 11875981730676238 12) (.rd (.var .T))))),
  .set (.var .kr) (.div (.rd (.var .kf)) (.rd (.var .Kc))),
  .set (.arr .jac 26) (.add (.rd (.arr .jac 26)) (.mul (.num 84366827390519266 16) (.mul (.rd (.var .jTemp)) (.num 92803892982949643 17)))),
  .set (.arr .jac 33) (.add (.rd (.arr .jac 33)) (.mul (.neg (.num 13894874694922315 15)) (.mul (.rd (.var .jTemp)) (.num 92803892982949643 17)))),
  .set (.arr .jac 34) (.add (.rd (.arr .jac 34)) (.mul (.num 21831557433974243 15) (.mul (.rd (.var .jTemp)) (.num 92803892982949643 17)))),
  .set (.arr .jac 28) (.add (.rd (.arr .jac 28)) (.mul (.neg (.num 16373365478103853 15)) (.mul (.rd (.var .jTemp)) (.num 92803892982949643 17)))),
  .set (.arr .jac 47) (.add (.rd (.arr .jac 47)) (.mul (.num 16873365478103853 15) (.mul (.rd (.var .jTemp)) (.num 96401946491474821 17)))),
  .set (.arr .jac 54) (.add (.rd (.arr .jac 54)) (.mul (.neg (.num 2778974938984463 14)) (.mul (.rd (.var .jTemp)) (.num 96401946491474821 17)))),
  .set (.arr .jac 55) (.add (.rd (.arr .jac 55)) (.mul (.num 43663114867948487 15) (.mul (.rd (.var .jTemp)) (.num 96401946491474821 17)))),
  .set (.arr .jac 49) (.add (.rd (.arr .jac 49)) (.mul (.neg (.num 32746730956207706 15)) (.mul (.rd (.var .jTemp)) (.num 96401946491474821 17)))),
  .set (.arr .jac 68) (.add (.rd (.arr .jac 68)) (.mul (.num 10629986124479667 16) (.mul (.rd (.var .jTemp)) (.num 42886781649405936 17)))),
  .set (.arr .jac 75) (.add (.rd (.arr .jac 75)) (.mul (.neg (.num 17507156518369438 16)) (.mul (.rd (.var .jTemp)) (.num 42886781649405936 17)))),
  .set (.arr .jac 76) (.add (.rd (.arr .jac 76)) (.mul (.num 2750715651836944 15) (.mul (.rd (.var .jTemp)) (.num 42886781649405936 17)))),
  .set (.arr .jac 70) (.add (.rd (.arr .jac 70)) (.mul (.neg (.num 20629986124479669 16)) (.mul (.rd (.var .jTemp)) (.num 42886781649405936 17)))),
  .set (.arr .jac 89) (.add (.rd (.arr .jac 89)) (.mul (.num 53149930622398334 17) (.mul (.rd (.var .jTemp)) (.neg (.num 14226436701188128 17))))),
  .set (.arr .jac 96) (.add (.rd (.arr .jac 96)) (.mul (.neg (.num 87535782591847189 17)) (.mul (.rd (.var .jTemp)) (.neg (.num 14226436701188128 17))))),
  .set (.arr .jac 97) (.add (.rd (.arr .jac 97)) (.mul (.num 1375357825918472 15) (.mul (.rd (.var .jTemp)) (.neg (.num 14226436701188128 17))))),
  .set (.arr .jac 91) (.add (.rd (.arr .jac 91)) (.mul (.neg (.num 10314993062239834 16)) (.mul (.rd (.var .jTemp)) (.neg (.num 14226436701188128 17))))),
  .set (.arr .jac 110) (.add (.rd (.arr .jac 110)) (.sub (.mul (.rd (.var .jTemp)) (.num 39288728140880758 17)) (.mul (.rd (.var .kr)) (.rd (.arr .C 12))))),
  .set (.arr .jac 117) (.add (.rd (.arr .jac 117)) (.mul (.neg (.num 16469594892558153 16)) (.sub (.mul (.rd (.var .jTemp)) (.num 39288728140880758 17)) (.mul (.rd (.var .kr)) (.rd (.arr .C 12)))))),
  .set (.arr .jac 118) (.add (.rd (.arr .jac 118)) (.mul (.num 25876944895556862 16) (.sub (.mul (.rd (.var .jTemp)) (.num 39288728140880758 17)) (.mul (.rd (.var .kr)) (.rd (.arr .C 12)))))),
  .set (.arr .jac 112) (.add (.rd (.arr .jac 112)) (.mul (.neg (.num 19407350002998707 16)) (.sub (.mul (.rd (.var .jTemp)) (.num 39288728140880758 17)) (.mul (.rd (.var .kr)) (.rd (.arr .C 12)))))),
  .set (.arr .jac 131) (.add (.rd (.arr .jac 131)) (.mul (.num 94405082796381734 17) (.mul (.rd (.var .jTemp)) (.num 35690674632355568 17)))),
  .set (.arr .jac 138) (.add (.rd (.arr .jac 138)) (.mul (.neg (.num 15548134694548181 16)) (.mul (.rd (.var .jTemp)) (.num 35690674632355568 17)))),
  .set (.arr .jac 139) (.add (.rd (.arr .jac 139)) (.mul (.num 2442915125382453 15) (.mul (.rd (.var .jTemp)) (.num 35690674632355568 17)))),
  .set (.arr .jac 133) (.add (.rd (.arr .jac 133)) (.mul (.neg (.num 1832152483891452 15)) (.mul (.rd (.var .jTemp)) (.num 35690674632355568 17)))),
  .set (.arr .jac 152) (.add (.rd (.arr .jac 152)) (.mul (.num 51526869966558342 17) (.add (.mul (.rd (.var .jTemp)) (.neg (.num 17824490209713328 17))) (.mul (.rd (.var .kf)) (.rd (.arr .C 11)))))),
  .set (.arr .jac 159) (.add (.rd (.arr .jac 159)) (.mul (.neg (.num 84862667443073736 17)) (.add (.mul (.rd (.var .jTemp)) (.neg (.num 17824490209713328 17))) (.mul (.rd (.var .kf)) (.rd (.arr .C 11)))))),
  .set (.arr .jac 160) (.add (.rd (.arr .jac 160)) (.mul (.num 13333579747651541 16) (.add (.mul (.rd (.var .jTemp)) (.neg (.num 17824490209713328 17))) (.mul (.rd (.var .kf)) (.rd (.arr .C 11)))))),
  .set (.arr .jac 154) (.add (.rd (.arr .jac 154)) (.neg (.add (.mul (.rd (.var .jTemp)) (.neg (.num 17824490209713328 17))) (.mul (.rd (.var .kf)) (.rd (.arr .C 11)))))),
  .set (.arr .jac 173) (.add (.rd (.arr .jac 173)) (.mul (.num 12124820344937721 16) (.mul (.rd (.var .jTemp)) (.num 49928106040377707 17)))),
  .set (.arr .jac 180) (.add (.rd (.arr .jac 180)) (.mul (.neg (.num 19969087922617146 16)) (.mul (.rd (.var .jTemp)) (.num 49928106040377707 17)))),
  .set (.arr .jac 181) (.add (.rd (.arr .jac 181)) (.mul (.num 31375330793448009 16) (.mul (.rd (.var .jTemp)) (.num 49928106040377707 17)))),
  .set (.arr .jac 175) (.add (.rd (.arr .jac 175)) (.mul (.neg (.num 23531063215768584 16)) (.mul (.rd (.var .jTemp)) (.num 49928106040377707 17)))),
  .set (.arr .jac 194) (.add (.rd (.arr .jac 194)) (.mul (.num 12124820344937721 16) (.mul (.rd (.var .jTemp)) (.num 49928106040377707 17)))),
  .set (.arr .jac 201) (.add (.rd (.arr .jac 201)) (.mul (.neg (.num 19969087922617146 16)) (.mul (.rd (.var .jTemp)) (.num 49928106040377707 17)))),
  .set (.arr .jac 202) (.add (.rd (.arr .jac 202)) (.mul (.num 31375330793448009 16) (.mul (.rd (.var .jTemp)) (.num 49928106040377707 17)))),
  .set (.arr .jac 196) (.add (.rd (.arr .jac 196)) (.mul (.neg (.num 23531063215768584 16)) (.mul (.rd (.var .jTemp)) (.num 49928106040377707 17)))),
  .set (.arr .jac 215) (.add (.rd (.arr .jac 215)) (.mul (.num 11311967818703517 16) (.mul (.rd (.var .jTemp)) (.num 46330052531852528 17)))),
  .set (.arr .jac 222) (.add (.rd (.arr .jac 222)) (.mul (.neg (.num 18630352741170162 16)) (.mul (.rd (.var .jTemp)) (.num 46330052531852528 17)))),
  .set (.arr .jac 223) (.add (.rd (.arr .jac 223)) (.mul (.num 2927191679049034 15) (.mul (.rd (.var .jTemp)) (.num 46330052531852528 17)))),
  .set (.arr .jac 217) (.add (.rd (.arr .jac 217)) (.mul (.neg (.num 21953531868023695 16)) (.mul (.rd (.var .jTemp)) (.num 46330052531852528 17)))),
  .set (.arr .jac 236) (.add (.rd (.arr .jac 236)) (.mul (.num 10601255644290632 16) (.mul (.rd (.var .jTemp)) (.num 42731999023327338 17)))),
  .set (.arr .jac 243) (.add (.rd (.arr .jac 243)) (.mul (.neg (.num 17459838581391229 16)) (.mul (.rd (.var .jTemp)) (.num 42731999023327338 17)))),
  .set (.arr .jac 244) (.add (.rd (.arr .jac 244)) (.mul (.num 27432810813101982 16) (.mul (.rd (.var .jTemp)) (.num 42731999023327338 17)))),
  .set (.arr .jac 238) (.add (.rd (.arr .jac 238)) (.mul (.neg (.num 20574227876001383 16)) (.mul (.rd (.var .jTemp)) (.num 42731999023327338 17)))),
  .set (.arr .jac 257) (.add (.rd (.arr .jac 257)) (.mul (.num 60717947619455637 17) (.add (.mul (.rd (.var .jTemp)) (.num 10994706834011048 20)) (.mul (.rd (.var .kf)) (.rd (.arr .C 6)))))),
  .set (.arr .jac 264) (.add (.rd (.arr .jac 264)) (.neg (.add (.mul (.rd (.var .jTemp)) (.num 10994706834011048 20)) (.mul (.rd (.var .kf)) (.rd (.arr .C 6)))))),
  .set (.arr .jac 265) (.add (.rd (.arr .jac 265)) (.mul (.num 15711949847199613 16) (.add (.mul (.rd (.var .jTemp)) (.num 10994706834011048 20)) (.mul (.rd (.var .kf)) (.rd (.arr .C 6)))))),
  .set (.arr .jac 259) (.add (.rd (.arr .jac 259)) (.mul (.neg (.num 11783744609145177 16)) (.add (.mul (.rd (.var .jTemp)) (.num 10994706834011048 20)) (.mul (.rd (.var .kf)) (.rd (.arr .C 6)))))),
  .set (.arr .jac 278) (.add (.rd (.arr .jac 278)) (.mul (.num 38644438284200339 17) (.sub (.mul (.rd (.var .jTemp)) (.neg (.num 57102223643760053 17))) (.mul (.rd (.var .kr)) (.rd (.arr .C 4)))))),
  .set (.arr .jac 285) (.add (.rd (.arr .jac 285)) (.mul (.neg (.num 63645824339124468 17)) (.sub (.mul (.rd (.var .jTemp)) (.neg (.num 57102223643760053 17))) (.mul (.rd (.var .kr)) (.rd (.arr .C 4)))))),
  .set (.arr .jac 286) (.add (.rd (.arr .jac 286)) (.sub (.mul (.rd (.var .jTemp)) (.neg (.num 57102223643760053 17))) (.mul (.rd (.var .kr)) (.rd (.arr .C 4))))),
  .set (.arr .jac 280) (.add (.rd (.arr .jac 280)) (.mul (.neg (.num 74998613945075876 17)) (.sub (.mul (.rd (.var .jTemp)) (.neg (.num 57102223643760053 17))) (.mul (.rd (.var .kr)) (.rd (.arr .C 4)))))),
  .set (.arr .jac 299) (.add (.rd (.arr .jac 299)) (.mul (.num 58608934901169396 17) (.mul (.rd (.var .jTemp)) (.neg (.num 35870588016911675 18))))),
  .set (.arr .jac 306) (.add (.rd (.arr .jac 306)) (.mul (.neg (.num 96526541490657281 17)) (.mul (.rd (.var .jTemp)) (.neg (.num 35870588016911675 18))))),
  .set (.arr .jac 307) (.add (.rd (.arr .jac 307)) (.mul (.num 15166201788248397 16) (.mul (.rd (.var .jTemp)) (.neg (.num 35870588016911675 18))))),
  .set (.arr .jac 301) (.add (.rd (.arr .jac 301)) (.mul (.neg (.num 11374441129299608 16)) (.mul (.rd (.var .jTemp)) (.neg (.num 35870588016911675 18))))),
  .set (.arr .jac 320) (.add (.rd (.arr .jac 320)) (.mul (.num 5664151536587283 16) (.mul (.rd (.var .jTemp)) (.neg (.num 71851123102163683 18))))),
  .set (.arr .jac 327) (.add (.rd (.arr .jac 327)) (.mul (.neg (.num 93286281217653322 17)) (.mul (.rd (.var .jTemp)) (.neg (.num 71851123102163683 18))))),
  .set (.arr .jac 328) (.add (.rd (.arr .jac 328)) (.mul (.num 14657093719235283 16) (.mul (.rd (.var .jTemp)) (.neg (.num 71851123102163683 18))))),
  .set (.arr .jac 322) (.add (.rd (.arr .jac 322)) (.mul (.neg (.num 10992617134057232 16)) (.mul (.rd (.var .jTemp)) (.neg (.num 71851123102163683 18))))),
  .set (.arr .jac 341) (.add (.rd (.arr .jac 341)) (.mul (.num 54801892878248593 17) (.mul (.rd (.var .jTemp)) (.neg (.num 10783165818741525 17))))),
  .set (.arr .jac 348) (.add (.rd (.arr .jac 348)) (.mul (.neg (.num 90256497505012201 17)) (.mul (.rd (.var .jTemp)) (.neg (.num 10783165818741525 17))))),
  .set (.arr .jac 349) (.add (.rd (.arr .jac 349)) (.mul (.num 14181055621826488 16) (.mul (.rd (.var .jTemp)) (.neg (.num 10783165818741525 17))))),
  .set (.arr .jac 343) (.add (.rd (.arr .jac 343)) (.mul (.neg (.num 10635595159150126 16)) (.mul (.rd (.var .jTemp)) (.neg (.num 10783165818741525 17))))),
  .set (.arr .jac 362) (.add (.rd (.arr .jac 362)) (.mul (.num 60624101724688606 17) (.mul (.rd (.var .jTemp)) (.neg (.num 14378791924458678 19))))),
  .set (.arr .jac 369) (.add (.rd (.arr .jac 369)) (.mul (.neg (.num 99845439613085729 17)) (.mul (.rd (.var .jTemp)) (.neg (.num 14378791924458678 19))))),
  .set (.arr .jac 370) (.add (.rd (.arr .jac 370)) (.mul (.num 15687665396724004 16) (.mul (.rd (.var .jTemp)) (.neg (.num 14378791924458678 19))))),
  .set (.arr .jac 364) (.add (.rd (.arr .jac 364)) (.mul (.neg (.num 11765531607884292 16)) (.mul (.rd (.var .jTemp)) (.neg (.num 14378791924458678 19))))),
  .set (.arr .jac 383) (.add (.rd (.arr .jac 383)) (.mul (.num 58521490484039129 17) (.mul (.rd (.var .jTemp)) (.neg (.num 37418414277697654 18))))),
  .set (.arr .jac 390) (.add (.rd (.arr .jac 390)) (.mul (.neg (.num 96382524078082144 17)) (.mul (.rd (.var .jTemp)) (.neg (.num 37418414277697654 18))))),
  .set (.arr .jac 391) (.add (.rd (.arr .jac 391)) (.mul (.num 15143573844613358 16) (.mul (.rd (.var .jTemp)) (.neg (.num 37418414277697654 18))))),
  .set (.arr .jac 385) (.add (.rd (.arr .jac 385)) (.mul (.neg (.num 11357470485209056 16)) (.mul (.rd (.var .jTemp)) (.neg (.num 37418414277697654 18))))),
  .set (.arr .jac 404) (.add (.rd (.arr .jac 404)) (.mul (.num 56559839093517583 17) (.mul (.rd (.var .jTemp)) (.neg (.num 73398949362949439 18))))),
  .set (.arr .jac 411) (.add (.rd (.arr .jac 411)) (.mul (.neg (.num 9315176370585081 16)) (.mul (.rd (.var .jTemp)) (.neg (.num 73398949362949439 18))))),
  .set (.arr .jac 412) (.add (.rd (.arr .jac 412)) (.mul (.num 1463595839524517 15) (.mul (.rd (.var .jTemp)) (.neg (.num 73398949362949439 18))))),
  .set (.arr .jac 406) (.add (.rd (.arr .jac 406)) (.mul (.neg (.num 10976765934011847 16)) (.mul (.rd (.var .jTemp)) (.neg (.num 73398949362949439 18))))),
  .set (.arr .jac 425) (.add (.rd (.arr .jac 425)) (.mul (.num 42573695804545908 17) (.mul (.rd (.var .jTemp)) (.neg (.num 42602775520927771 17))))),
  .set (.arr .jac 432) (.add (.rd (.arr .jac 432)) (.mul (.neg (.num 70117152297987373 17)) (.mul (.rd (.var .jTemp)) (.neg (.num 42602775520927771 17))))),
  .set (.arr .jac 433) (.add (.rd (.arr .jac 433)) (.mul (.num 11016771803344347 16) (.mul (.rd (.var .jTemp)) (.neg (.num 42602775520927771 17))))),
  .set (.arr .jac 427) (.add (.rd (.arr .jac 427)) (.mul (.neg (.num 82624261540002009 17)) (.mul (.rd (.var .jTemp)) (.neg (.num 42602775520927771 17)))))]

/-- utilities/mechanisms/drm19/lib/src/jacobs/jacob_1.c:1667-1673 -/
def jacobT57 : List CStmt := [
  .set (.var .jTemp) (.mul (.mul (.div (.num 1 0) (.rd (.var .T))) (.sub (.add (.mul (.sub (.rd (.arr .fwd 57)) (.rd (.arr .rev 57))) (.div (.num 75482934728874397 14) (.rd (.var .T)))) (.mul (.rd (.arr .fwd 57)) (.neg (.num 1 0)))) (.mul (.rd (.arr .rev 57)) (.add (.neg (.num 1 0)) (.mul (.neg (.rd (.var .T))) (.sub (.sub (.add (.rd (.arr .dBdT 13)) (.rd (.arr .dBdT 4))) (.rd (.arr .dBdT 7))) (.rd (.arr .dBdT 3)))))))) (.rd (.var .rhoInv))),
  .set (.arr .jac 4) (.add (.rd (.arr .jac 4)) (.mul (.neg (.rd (.var .jTemp))) (.num 31998799999999999 15))),
  .set (.arr .jac 5) (.add (.rd (.arr .jac 5)) (.mul (.rd (.var .jTemp)) (.num 17007339999999999 15))),
  .set (.arr .jac 14) (.add (.rd (.arr .jac 14)) (.mul (.rd (.var .jTemp)) (.num 29018339999999998 15))),
  .set (.arr .jac 8) (.add (.rd (.arr .jac 8)) (.mul (.neg (.rd (.var .jTemp))) (.num 14026879999999998 15)))]

/-- utilities/mechanisms/drm19/lib/src/jacobs/jacob_1.c:1674-1765 -/
def jacobS57 : List CStmt := [
  .ite (.rd (.var .T)) (.num 1000 0) (.var .Kc) (.sub (.add (.add (.neg (.num 25978268480000009 16)) (.mul (.num 66806624000000037 17) (.rd (.var .logT)))) (.mul (.rd (.var .T)) (.add (.neg (.num 18086904115000003 19)) (.mul (.rd (.var .T)) (.add (.num 95928043166666652 23) (.mul (.rd (.var .T)) (.add (.neg (.num 30527800083333322 26)) (.mul (.num 38532889499999989 30) (.rd (.var .T)))))))))) (.div (.neg (.num 3748545102 5)) (.rd (.var .T)))) (.sub (.add (.add (.num 29421934099999993 16) (.mul (.neg (.num 2915769199999998 16)) (.rd (.var .logT)))) (.mul (.rd (.var .T)) (.add (.num 18295225799999973 20) (.mul (.rd (.var .T)) (.add (.neg (.num 31839710500000034 24)) (.mul (.rd (.var .T)) (.add (.num 26304598666666719 28) (.mul (.neg (.num 58254870000000218 33)) (.rd (.var .T)))))))))) (.div (.neg (.num 37304571129999997 12)) (.rd (.var .T)))),
  .set (.var .Kc) (.exp (.rd (.var .Kc))),
  .set (.var .jTemp) (.mul (.mul (.neg (.rd (.var .mwAvg))) (.rd (.var .rhoInv))) (.sub (.mul (.num 2 0) (.rd (.arr .fwd 57))) (.mul (.num 2 0) (.rd (.arr .rev 57))))),
  .set (.var .kf) (.exp (.sub (.num 23303482666538738 15) (.div (.num 75482934728874397 14) (.rd (.var .T))))),
  .set (.var .kr) (.div (.rd (.var .kf)) (.rd (.var .Kc))),
  .set (.arr .jac 25) (.add (.rd (.arr .jac 25)) (.mul (.neg (.num 15873365478103855 15)) (.mul (.rd (.var .jTemp)) (.num 92803892982949643 17)))),
  .set (.arr .jac 26) (.add (.rd (.arr .jac 26)) (.mul (.num 84366827390519266 16) (.mul (.rd (.var .jTemp)) (.num 92803892982949643 17)))),
  .set (.arr .jac 35) (.add (.rd (.arr .jac 35)) (.mul (.num 14394874694922315 15) (.mul (.rd (.var .jTemp)) (.num 92803892982949643 17)))),
  .set (.arr .jac 29) (.add (.rd (.arr .jac 29)) (.mul (.neg (.num 69581919558703875 16)) (.mul (.rd (.var .jTemp)) (.num 92803892982949643 17)))),
  .set (.arr .jac 46) (.add (.rd (.arr .jac 46)) (.mul (.neg (.num 3174673095620771 14)) (.mul (.rd (.var .jTemp)) (.num 96401946491474821 17)))),
  .set (.arr .jac 47) (.add (.rd (.arr .jac 47)) (.mul (.num 16873365478103853 15) (.mul (.rd (.var .jTemp)) (.num 96401946491474821 17)))),
  .set (.arr .jac 56) (.add (.rd (.arr .jac 56)) (.mul (.num 2878974938984463 14) (.mul (.rd (.var .jTemp)) (.num 96401946491474821 17)))),
  .set (.arr .jac 50) (.add (.rd (.arr .jac 50)) (.mul (.neg (.num 13916383911740775 15)) (.mul (.rd (.var .jTemp)) (.num 96401946491474821 17)))),
  .set (.arr .jac 67) (.add (.rd (.arr .jac 67)) (.mul (.neg (.num 2 0)) (.mul (.rd (.var .jTemp)) (.num 42886781649405936 17)))),
  .set (.arr .jac 68) (.add (.rd (.arr .jac 68)) (.mul (.num 10629986124479667 16) (.mul (.rd (.var .jTemp)) (.num 42886781649405936 17)))),
  .set (.arr .jac 77) (.add (.rd (.arr .jac 77)) (.mul (.num 18137142642849107 16) (.mul (.rd (.var .jTemp)) (.num 42886781649405936 17)))),
  .set (.arr .jac 71) (.add (.rd (.arr .jac 71)) (.mul (.neg (.num 87671287673287746 17)) (.mul (.rd (.var .jTemp)) (.num 42886781649405936 17)))),
  .set (.arr .jac 88) (.add (.rd (.arr .jac 88)) (.neg (.add (.mul (.rd (.var .jTemp)) (.neg (.num 14226436701188128 17))) (.mul (.rd (.var .kf)) (.rd (.arr .C 7)))))),
  .set (.arr .jac 89) (.add (.rd (.arr .jac 89)) (.mul (.num 53149930622398334 17) (.add (.mul (.rd (.var .jTemp)) (.neg (.num 14226436701188128 17))) (.mul (.rd (.var .kf)) (.rd (.arr .C 7)))))),
  .set (.arr .jac 98) (.add (.rd (.arr .jac 98)) (.mul (.num 90685713214245534 17) (.add (.mul (.rd (.var .jTemp)) (.neg (.num 14226436701188128 17))) (.mul (.rd (.var .kf)) (.rd (.arr .C 7)))))),
  .set (.arr .jac 92) (.add (.rd (.arr .jac 92)) (.mul (.neg (.num 43835643836643873 17)) (.add (.mul (.rd (.var .jTemp)) (.neg (.num 14226436701188128 17))) (.mul (.rd (.var .kf)) (.rd (.arr .C 7)))))),
  .set (.arr .jac 109) (.add (.rd (.arr .jac 109)) (.mul (.neg (.num 18814700005997411 16)) (.sub (.mul (.rd (.var .jTemp)) (.num 39288728140880758 17)) (.mul (.rd (.var .kr)) (.rd (.arr .C 13)))))),
  .set (.arr .jac 110) (.add (.rd (.arr .jac 110)) (.sub (.mul (.rd (.var .jTemp)) (.num 39288728140880758 17)) (.mul (.rd (.var .kr)) (.rd (.arr .C 13))))),
  .set (.arr .jac 119) (.add (.rd (.arr .jac 119)) (.mul (.num 17062244889559448 16) (.sub (.mul (.rd (.var .jTemp)) (.num 39288728140880758 17)) (.mul (.rd (.var .kr)) (.rd (.arr .C 13)))))),
  .set (.arr .jac 113) (.add (.rd (.arr .jac 113)) (.mul (.neg (.num 8247544883562038 16)) (.sub (.mul (.rd (.var .jTemp)) (.num 39288728140880758 17)) (.mul (.rd (.var .kr)) (.rd (.arr .C 13)))))),
  .set (.arr .jac 130) (.add (.rd (.arr .jac 130)) (.mul (.neg (.num 17762033118552694 16)) (.mul (.rd (.var .jTemp)) (.num 35690674632355568 17)))),
  .set (.arr .jac 131) (.add (.rd (.arr .jac 131)) (.mul (.num 94405082796381734 17) (.mul (.rd (.var .jTemp)) (.num 35690674632355568 17)))),
  .set (.arr .jac 140) (.add (.rd (.arr .jac 140)) (.mul (.num 16107626414910008 16) (.mul (.rd (.var .jTemp)) (.num 35690674632355568 17)))),
  .set (.arr .jac 134) (.add (.rd (.arr .jac 134)) (.mul (.neg (.num 77861015759954877 17)) (.mul (.rd (.var .jTemp)) (.num 35690674632355568 17)))),
  .set (.arr .jac 151) (.add (.rd (.arr .jac 151)) (.mul (.neg (.num 96946260066883305 17)) (.mul (.rd (.var .jTemp)) (.neg (.num 17824490209713328 17))))),
  .set (.arr .jac 152) (.add (.rd (.arr .jac 152)) (.mul (.num 51526869966558342 17) (.mul (.rd (.var .jTemp)) (.neg (.num 17824490209713328 17))))),
  .set (.arr .jac 161) (.add (.rd (.arr .jac 161)) (.mul (.num 87916407376190431 17) (.mul (.rd (.var .jTemp)) (.neg (.num 17824490209713328 17))))),
  .set (.arr .jac 155) (.add (.rd (.arr .jac 155)) (.mul (.neg (.num 42497017275865467 17)) (.mul (.rd (.var .jTemp)) (.neg (.num 17824490209713328 17))))),
  .set (.arr .jac 172) (.add (.rd (.arr .jac 172)) (.mul (.neg (.num 22812485741661725 16)) (.add (.mul (.rd (.var .jTemp)) (.num 49928106040377707 17)) (.mul (.rd (.var .kf)) (.rd (.arr .C 3)))))),
  .set (.arr .jac 173) (.add (.rd (.arr .jac 173)) (.mul (.num 12124820344937721 16) (.add (.mul (.rd (.var .jTemp)) (.num 49928106040377707 17)) (.mul (.rd (.var .kf)) (.rd (.arr .C 3)))))),
  .set (.arr .jac 182) (.add (.rd (.arr .jac 182)) (.mul (.num 20687665396724007 16) (.add (.mul (.rd (.var .jTemp)) (.num 49928106040377707 17)) (.mul (.rd (.var .kf)) (.rd (.arr .C 3)))))),
  .set (.arr .jac 176) (.add (.rd (.arr .jac 176)) (.neg (.add (.mul (.rd (.var .jTemp)) (.num 49928106040377707 17)) (.mul (.rd (.var .kf)) (.rd (.arr .C 3)))))),
  .set (.arr .jac 193) (.add (.rd (.arr .jac 193)) (.mul (.neg (.num 22812485741661725 16)) (.mul (.rd (.var .jTemp)) (.num 49928106040377707 17)))),
  .set (.arr .jac 194) (.add (.rd (.arr .jac 194)) (.mul (.num 12124820344937721 16) (.mul (.rd (.var .jTemp)) (.num 49928106040377707 17)))),
  .set (.arr .jac 203) (.add (.rd (.arr .jac 203)) (.mul (.num 20687665396724007 16) (.mul (.rd (.var .jTemp)) (.num 49928106040377707 17)))),
  .set (.arr .jac 197) (.add (.rd (.arr .jac 197)) (.neg (.mul (.rd (.var .jTemp)) (.num 49928106040377707 17)))),
  .set (.arr .jac 214) (.add (.rd (.arr .jac 214)) (.mul (.neg (.num 21283128098640356 16)) (.mul (.rd (.var .jTemp)) (.num 46330052531852528 17)))),
  .set (.arr .jac 215) (.add (.rd (.arr .jac 215)) (.mul (.num 11311967818703517 16) (.mul (.rd (.var .jTemp)) (.num 46330052531852528 17)))),
  .set (.arr .jac 224) (.add (.rd (.arr .jac 224)) (.mul (.num 19300756510553501 16) (.mul (.rd (.var .jTemp)) (.num 46330052531852528 17)))),
  .set (.arr .jac 218) (.add (.rd (.arr .jac 218)) (.mul (.neg (.num 93295962306166613 17)) (.mul (.rd (.var .jTemp)) (.num 46330052531852528 17)))),
  .set (.arr .jac 235) (.add (.rd (.arr .jac 235)) (.mul (.neg (.num 19945944463421503 16)) (.mul (.rd (.var .jTemp)) (.num 42731999023327338 17)))),
  .set (.arr .jac 236) (.add (.rd (.arr .jac 236)) (.mul (.num 10601255644290632 16) (.mul (.rd (.var .jTemp)) (.num 42731999023327338 17)))),
  .set (.arr .jac 245) (.add (.rd (.arr .jac 245)) (.mul (.num 18088121993971109 16) (.mul (.rd (.var .jTemp)) (.num 42731999023327338 17)))),
  .set (.arr .jac 239) (.add (.rd (.arr .jac 239)) (.mul (.neg (.num 87434331748402383 17)) (.mul (.rd (.var .jTemp)) (.num 42731999023327338 17)))),
  .set (.arr .jac 256) (.add (.rd (.arr .jac 256)) (.mul (.neg (.num 11423899694399224 16)) (.mul (.rd (.var .jTemp)) (.num 10994706834011048 20)))),
  .set (.arr .jac 257) (.add (.rd (.arr .jac 257)) (.mul (.num 60717947619455637 17) (.mul (.rd (.var .jTemp)) (.num 10994706834011048 20)))),
  .set (.arr .jac 266) (.add (.rd (.arr .jac 266)) (.mul (.num 10359844914745953 16) (.mul (.rd (.var .jTemp)) (.num 10994706834011048 20)))),
  .set (.arr .jac 260) (.add (.rd (.arr .jac 260)) (.mul (.neg (.num 50077399822922919 17)) (.mul (.rd (.var .jTemp)) (.num 10994706834011048 20)))),
  .set (.arr .jac 277) (.add (.rd (.arr .jac 277)) (.mul (.neg (.num 72708351321751064 17)) (.mul (.rd (.var .jTemp)) (.neg (.num 57102223643760053 17))))),
  .set (.arr .jac 278) (.add (.rd (.arr .jac 278)) (.mul (.num 38644438284200339 17) (.mul (.rd (.var .jTemp)) (.neg (.num 57102223643760053 17))))),
  .set (.arr .jac 287) (.add (.rd (.arr .jac 287)) (.mul (.num 6593608696244927 16) (.mul (.rd (.var .jTemp)) (.neg (.num 57102223643760053 17))))),
  .set (.arr .jac 281) (.add (.rd (.arr .jac 281)) (.mul (.neg (.num 31872173924898545 17)) (.mul (.rd (.var .jTemp)) (.neg (.num 57102223643760053 17))))),
  .set (.arr .jac 298) (.add (.rd (.arr .jac 298)) (.mul (.neg (.num 11027095278365338 16)) (.sub (.mul (.rd (.var .jTemp)) (.neg (.num 35870588016911675 18))) (.mul (.rd (.var .kr)) (.rd (.arr .C 4)))))),
  .set (.arr .jac 299) (.add (.rd (.arr .jac 299)) (.mul (.num 58608934901169396 17) (.sub (.mul (.rd (.var .jTemp)) (.neg (.num 35870588016911675 18))) (.mul (.rd (.var .kr)) (.rd (.arr .C 4)))))),
  .set (.arr .jac 308) (.add (.rd (.arr .jac 308)) (.sub (.mul (.rd (.var .jTemp)) (.neg (.num 35870588016911675 18))) (.mul (.rd (.var .kr)) (.rd (.arr .C 4))))),
  .set (.arr .jac 302) (.add (.rd (.arr .jac 302)) (.mul (.neg (.num 48337982117516021 17)) (.sub (.mul (.rd (.var .jTemp)) (.neg (.num 35870588016911675 18))) (.mul (.rd (.var .kr)) (.rd (.arr .C 4)))))),
  .set (.arr .jac 319) (.add (.rd (.arr .jac 319)) (.mul (.neg (.num 10656931194939898 16)) (.mul (.rd (.var .jTemp)) (.neg (.num 71851123102163683 18))))),
  .set (.arr .jac 320) (.add (.rd (.arr .jac 320)) (.mul (.num 5664151536587283 16) (.mul (.rd (.var .jTemp)) (.neg (.num 71851123102163683 18))))),
  .set (.arr .jac 329) (.add (.rd (.arr .jac 329)) (.mul (.num 96643140608826661 17) (.mul (.rd (.var .jTemp)) (.neg (.num 71851123102163683 18))))),
  .set (.arr .jac 323) (.add (.rd (.arr .jac 323)) (.mul (.neg (.num 46715344025300498 17)) (.mul (.rd (.var .jTemp)) (.neg (.num 71851123102163683 18))))),
  .set (.arr .jac 340) (.add (.rd (.arr .jac 340)) (.mul (.neg (.num 10310811742650532 16)) (.mul (.rd (.var .jTemp)) (.neg (.num 10783165818741525 17))))),
  .set (.arr .jac 341) (.add (.rd (.arr .jac 341)) (.mul (.num 54801892878248593 17) (.mul (.rd (.var .jTemp)) (.neg (.num 10783165818741525 17))))),
  .set (.arr .jac 350) (.add (.rd (.arr .jac 350)) (.mul (.num 93504331670008145 17) (.mul (.rd (.var .jTemp)) (.neg (.num 10783165818741525 17))))),
  .set (.arr .jac 344) (.add (.rd (.arr .jac 344)) (.mul (.neg (.num 45198107121751407 17)) (.mul (.rd (.var .jTemp)) (.neg (.num 10783165818741525 17))))),
  .set (.arr .jac 361) (.add (.rd (.arr .jac 361)) (.mul (.neg (.num 11406242870830863 16)) (.mul (.rd (.var .jTemp)) (.neg (.num 14378791924458678 19))))),
  .set (.arr .jac 362) (.add (.rd (.arr .jac 362)) (.mul (.num 60624101724688606 17) (.mul (.rd (.var .jTemp)) (.neg (.num 14378791924458678 19))))),
  .set (.arr .jac 371) (.add (.rd (.arr .jac 371)) (.mul (.num 10343832698362003 16) (.mul (.rd (.var .jTemp)) (.neg (.num 14378791924458678 19))))),
  .set (.arr .jac 365) (.add (.rd (.arr .jac 365)) (.mul (.neg (.num 5 1)) (.mul (.rd (.var .jTemp)) (.neg (.num 14378791924458678 19))))),
  .set (.arr .jac 382) (.add (.rd (.arr .jac 382)) (.mul (.neg (.num 11010642873610286 16)) (.mul (.rd (.var .jTemp)) (.neg (.num 37418414277697654 18))))),
  .set (.arr .jac 383) (.add (.rd (.arr .jac 383)) (.mul (.num 58521490484039129 17) (.mul (.rd (.var .jTemp)) (.neg (.num 37418414277697654 18))))),
  .set (.arr .jac 392) (.add (.rd (.arr .jac 392)) (.mul (.num 99850800194069855 17) (.mul (.rd (.var .jTemp)) (.neg (.num 37418414277697654 18))))),
  .set (.arr .jac 386) (.add (.rd (.arr .jac 386)) (.mul (.neg (.num 48265861942006144 17)) (.mul (.rd (.var .jTemp)) (.neg (.num 37418414277697654 18))))),
  .set (.arr .jac 403) (.add (.rd (.arr .jac 403)) (.mul (.neg (.num 10641564049320178 16)) (.mul (.rd (.var .jTemp)) (.neg (.num 73398949362949439 18))))),
  .set (.arr .jac 404) (.add (.rd (.arr .jac 404)) (.mul (.num 56559839093517583 17) (.mul (.rd (.var .jTemp)) (.neg (.num 73398949362949439 18))))),
  .set (.arr .jac 413) (.add (.rd (.arr .jac 413)) (.mul (.num 96503782552767503 17) (.mul (.rd (.var .jTemp)) (.neg (.num 73398949362949439 18))))),
  .set (.arr .jac 407) (.add (.rd (.arr .jac 407)) (.mul (.neg (.num 46647981153083307 17)) (.mul (.rd (.var .jTemp)) (.neg (.num 73398949362949439 18))))),
  .set (.arr .jac 424) (.add (.rd (.arr .jac 424)) (.mul (.neg (.num 80101131470912179 17)) (.mul (.rd (.var .jTemp)) (.neg (.num 42602775520927771 17))))),
  .set (.arr .jac 425) (.add (.rd (.arr .jac 425)) (.mul (.num 42573695804545908 17) (.mul (.rd (.var .jTemp)) (.neg (.num 42602775520927771 17))))),
  .set (.arr .jac 434) (.add (.rd (.arr .jac 434)) (.mul (.num 72640282367077191 17) (.mul (.rd (.var .jTemp)) (.neg (.num 42602775520927771 17))))),
  .set (.arr .jac 428) (.add (.rd (.arr .jac 428)) (.mul (.neg (.num 3511284670071092 16)) (.mul (.rd (.var .jTemp)) (.neg (.num 42602775520927771 17)))))]

/-- utilities/mechanisms/drm19/lib/src/jacobs/jacob_1.c:1766-1772 -/
def jacobT58 : List CStmt := [
  .set (.var .jTemp) (.mul (.mul (.div (.num 1 0) (.rd (.var .T))) (.sub (.add (.mul (.sub (.rd (.arr .fwd 58)) (.rd (.arr .rev 58))) (.add (.num 2 0) (.div (.num 36382774539317456 13) (.rd (.var .T))))) (.mul (.rd (.arr .fwd 58)) (.neg (.num 1 0)))) (.mul (.rd (.arr .rev 58)) (.add (.neg (.num 1 0)) (.mul (.neg (.rd (.var .T))) (.sub (.sub (.add (.rd (.arr .dBdT 1)) (.rd (.arr .dBdT 9))) (.rd (.arr .dBdT 0))) (.rd (.arr .dBdT 7)))))))) (.rd (.var .rhoInv))),
  .set (.arr .jac 1) (.add (.rd (.arr .jac 1)) (.mul (.neg (.rd (.var .jTemp))) (.num 20158800000000001 16))),
  .set (.arr .jac 2) (.add (.rd (.arr .jac 2)) (.mul (.rd (.var .jTemp)) (.num 10079400000000001 16))),
  .set (.arr .jac 10) (.add (.rd (.arr .jac 10)) (.mul (.rd (.var .jTemp)) (.num 1503482 5))),
  .set (.arr .jac 8) (.add (.rd (.arr .jac 8)) (.mul (.neg (.rd (.var .jTemp))) (.num 14026879999999998 15)))]

/-- utilities/mechanisms/drm19/lib/src/jacobs/jacob_1.c:1773-1864 -/
def jacobS58 : List CStmt := [
  .ite (.rd (.var .T)) (.num 1000 0) (.var .Kc) (.sub (.add (.add (.neg (.num 11542412209999999 16)) (.mul (.num 66580609999999929 18) (.rd (.var .logT)))) (.mul (.rd (.var .T)) (.add (.neg (.num 34692205711473328 19)) (.mul (.rd (.var .T)) (.add (.num 37355785246673471 22) (.mul (.rd (.var .T)) (.add (.neg (.num 19314560098082654 25)) (.mul (.num 41162788795361342 29) (.rd (.var .T)))))))))) (.div (.neg (.num 31674462269999931 13)) (.rd (.var .T)))) (.sub (.add (.add (.num 64928815460000013 16) (.mul (.neg (.num 14256625999999999 16)) (.rd (.var .logT)))) (.mul (.rd (.var .T)) (.add (.num 18164549500078516 19) (.mul (.rd (.var .T)) (.add (.neg (.num 34627571197396756 23)) (.mul (.rd (.var .T)) (.add (.num 42922623688737307 27) (.mul (.neg (.num 23984109900901322 31)) (.rd (.var .T)))))))))) (.div (.neg (.num 30642008780000033 13)) (.rd (.var .T)))),
  .set (.var .Kc) (.exp (.rd (.var .Kc))),
  .set (.var .jTemp) (.mul (.mul (.neg (.rd (.var .mwAvg))) (.rd (.var .rhoInv))) (.sub (.mul (.num 2 0) (.rd (.arr .fwd 58))) (.mul (.num 2 0) (.rd (.arr .rev 58))))),
  .set (.var .kf) (.exp (.sub (.add (.num 62146080984221914 16) (.mul (.num 2 0) (.rd (.var .logT)))) (.div (.num 36382774539317456 13) (.rd (.var .T))))),
  .set (.var .kr) (.div (.rd (.var .kf)) (.rd (.var .Kc))),
  .set (.arr .jac 22) (.add (.rd (.arr .jac 22)) (.neg (.add (.mul (.rd (.var .jTemp)) (.num 92803892982949643 17)) (.mul (.rd (.var .kf)) (.rd (.arr .C 7)))))),
  .set (.arr .jac 23) (.add (.rd (.arr .jac 23)) (.mul (.num 5 1) (.add (.mul (.rd (.var .jTemp)) (.num 92803892982949643 17)) (.mul (.rd (.var .kf)) (.rd (.arr .C 7)))))),
  .set (.arr .jac 31) (.add (.rd (.arr .jac 31)) (.mul (.num 74581919558703884 16) (.add (.mul (.rd (.var .jTemp)) (.num 92803892982949643 17)) (.mul (.rd (.var .kf)) (.rd (.arr .C 7)))))),
  .set (.arr .jac 29) (.add (.rd (.arr .jac 29)) (.mul (.neg (.num 69581919558703875 16)) (.add (.mul (.rd (.var .jTemp)) (.num 92803892982949643 17)) (.mul (.rd (.var .kf)) (.rd (.arr .C 7)))))),
  .set (.arr .jac 43) (.add (.rd (.arr .jac 43)) (.mul (.neg (.num 2 0)) (.sub (.mul (.rd (.var .jTemp)) (.num 96401946491474821 17)) (.mul (.rd (.var .kr)) (.rd (.arr .C 9)))))),
  .set (.arr .jac 44) (.add (.rd (.arr .jac 44)) (.sub (.mul (.rd (.var .jTemp)) (.num 96401946491474821 17)) (.mul (.rd (.var .kr)) (.rd (.arr .C 9))))),
  .set (.arr .jac 52) (.add (.rd (.arr .jac 52)) (.mul (.num 14916383911740777 15) (.sub (.mul (.rd (.var .jTemp)) (.num 96401946491474821 17)) (.mul (.rd (.var .kr)) (.rd (.arr .C 9)))))),
  .set (.arr .jac 50) (.add (.rd (.arr .jac 50)) (.mul (.neg (.num 13916383911740775 15)) (.sub (.mul (.rd (.var .jTemp)) (.num 96401946491474821 17)) (.mul (.rd (.var .kr)) (.rd (.arr .C 9)))))),
  .set (.arr .jac 64) (.add (.rd (.arr .jac 64)) (.mul (.neg (.num 1259972248959336 16)) (.mul (.rd (.var .jTemp)) (.num 42886781649405936 17)))),
  .set (.arr .jac 65) (.add (.rd (.arr .jac 65)) (.mul (.num 62998612447966798 18) (.mul (.rd (.var .jTemp)) (.num 42886781649405936 17)))),
  .set (.arr .jac 73) (.add (.rd (.arr .jac 73)) (.mul (.num 93971148918084424 17) (.mul (.rd (.var .jTemp)) (.num 42886781649405936 17)))),
  .set (.arr .jac 71) (.add (.rd (.arr .jac 71)) (.mul (.neg (.num 87671287673287746 17)) (.mul (.rd (.var .jTemp)) (.num 42886781649405936 17)))),
  .set (.arr .jac 85) (.add (.rd (.arr .jac 85)) (.mul (.neg (.num 62998612447966798 18)) (.mul (.rd (.var .jTemp)) (.neg (.num 14226436701188128 17))))),
  .set (.arr .jac 86) (.add (.rd (.arr .jac 86)) (.mul (.num 31499306223983399 18) (.mul (.rd (.var .jTemp)) (.neg (.num 14226436701188128 17))))),
  .set (.arr .jac 94) (.add (.rd (.arr .jac 94)) (.mul (.num 46985574459042212 17) (.mul (.rd (.var .jTemp)) (.neg (.num 14226436701188128 17))))),
  .set (.arr .jac 92) (.add (.rd (.arr .jac 92)) (.mul (.neg (.num 43835643836643873 17)) (.mul (.rd (.var .jTemp)) (.neg (.num 14226436701188128 17))))),
  .set (.arr .jac 106) (.add (.rd (.arr .jac 106)) (.mul (.neg (.num 11852999940025896 17)) (.mul (.rd (.var .jTemp)) (.num 39288728140880758 17)))),
  .set (.arr .jac 107) (.add (.rd (.arr .jac 107)) (.mul (.num 59264999700129481 18) (.mul (.rd (.var .jTemp)) (.num 39288728140880758 17)))),
  .set (.arr .jac 115) (.add (.rd (.arr .jac 115)) (.mul (.num 88401948805633335 17) (.mul (.rd (.var .jTemp)) (.num 39288728140880758 17)))),
  .set (.arr .jac 113) (.add (.rd (.arr .jac 113)) (.mul (.neg (.num 8247544883562038 16)) (.mul (.rd (.var .jTemp)) (.num 39288728140880758 17)))),
  .set (.arr .jac 127) (.add (.rd (.arr .jac 127)) (.mul (.neg (.num 11189834407236524 17)) (.mul (.rd (.var .jTemp)) (.num 35690674632355568 17)))),
  .set (.arr .jac 128) (.add (.rd (.arr .jac 128)) (.mul (.num 55949172036182618 18) (.mul (.rd (.var .jTemp)) (.num 35690674632355568 17)))),
  .set (.arr .jac 136) (.add (.rd (.arr .jac 136)) (.mul (.num 83455932963573143 17) (.mul (.rd (.var .jTemp)) (.num 35690674632355568 17)))),
  .set (.arr .jac 134) (.add (.rd (.arr .jac 134)) (.mul (.neg (.num 77861015759954877 17)) (.mul (.rd (.var .jTemp)) (.num 35690674632355568 17)))),
  .set (.arr .jac 148) (.add (.rd (.arr .jac 148)) (.mul (.neg (.num 61074798662333819 18)) (.mul (.rd (.var .jTemp)) (.neg (.num 17824490209713328 17))))),
  .set (.arr .jac 149) (.add (.rd (.arr .jac 149)) (.mul (.num 3053739933116691 17) (.mul (.rd (.var .jTemp)) (.neg (.num 17824490209713328 17))))),
  .set (.arr .jac 157) (.add (.rd (.arr .jac 157)) (.mul (.num 45550757208982162 17) (.mul (.rd (.var .jTemp)) (.neg (.num 17824490209713328 17))))),
  .set (.arr .jac 155) (.add (.rd (.arr .jac 155)) (.mul (.neg (.num 42497017275865467 17)) (.mul (.rd (.var .jTemp)) (.neg (.num 17824490209713328 17))))),
  .set (.arr .jac 169) (.add (.rd (.arr .jac 169)) (.mul (.neg (.num 14371549482137155 17)) (.add (.mul (.rd (.var .jTemp)) (.num 49928106040377707 17)) (.mul (.rd (.var .kf)) (.rd (.arr .C 0)))))),
  .set (.arr .jac 170) (.add (.rd (.arr .jac 170)) (.mul (.num 71857747410685777 18) (.add (.mul (.rd (.var .jTemp)) (.num 49928106040377707 17)) (.mul (.rd (.var .kf)) (.rd (.arr .C 0)))))),
  .set (.arr .jac 178) (.add (.rd (.arr .jac 178)) (.mul (.num 10718577474106858 16) (.add (.mul (.rd (.var .jTemp)) (.num 49928106040377707 17)) (.mul (.rd (.var .kf)) (.rd (.arr .C 0)))))),
  .set (.arr .jac 176) (.add (.rd (.arr .jac 176)) (.neg (.add (.mul (.rd (.var .jTemp)) (.num 49928106040377707 17)) (.mul (.rd (.var .kf)) (.rd (.arr .C 0)))))),
  .set (.arr .jac 190) (.add (.rd (.arr .jac 190)) (.mul (.neg (.num 14371549482137155 17)) (.mul (.rd (.var .jTemp)) (.num 49928106040377707 17)))),
  .set (.arr .jac 191) (.add (.rd (.arr .jac 191)) (.mul (.num 71857747410685777 18) (.mul (.rd (.var .jTemp)) (.num 49928106040377707 17)))),
  .set (.arr .jac 199) (.add (.rd (.arr .jac 199)) (.mul (.num 10718577474106858 16) (.mul (.rd (.var .jTemp)) (.num 49928106040377707 17)))),
  .set (.arr .jac 197) (.add (.rd (.arr .jac 197)) (.neg (.mul (.rd (.var .jTemp)) (.num 49928106040377707 17)))),
  .set (.arr .jac 211) (.add (.rd (.arr .jac 211)) (.mul (.neg (.num 13408075387666762 17)) (.sub (.mul (.rd (.var .jTemp)) (.num 46330052531852528 17)) (.mul (.rd (.var .kr)) (.rd (.arr .C 1)))))),
  .set (.arr .jac 212) (.add (.rd (.arr .jac 212)) (.mul (.num 67040376938333812 18) (.sub (.mul (.rd (.var .jTemp)) (.num 46330052531852528 17)) (.mul (.rd (.var .kr)) (.rd (.arr .C 1)))))),
  .set (.arr .jac 220) (.add (.rd (.arr .jac 220)) (.sub (.mul (.rd (.var .jTemp)) (.num 46330052531852528 17)) (.mul (.rd (.var .kr)) (.rd (.arr .C 1))))),
  .set (.arr .jac 218) (.add (.rd (.arr .jac 218)) (.mul (.neg (.num 93295962306166613 17)) (.sub (.mul (.rd (.var .jTemp)) (.num 46330052531852528 17)) (.mul (.rd (.var .kr)) (.rd (.arr .C 1)))))),
  .set (.arr .jac 232) (.add (.rd (.arr .jac 232)) (.mul (.neg (.num 12565668251597606 17)) (.mul (.rd (.var .jTemp)) (.num 42731999023327338 17)))),
  .set (.arr .jac 233) (.add (.rd (.arr .jac 233)) (.mul (.num 6282834125798803 17) (.mul (.rd (.var .jTemp)) (.num 42731999023327338 17)))),
  .set (.arr .jac 241) (.add (.rd (.arr .jac 241)) (.mul (.num 93717165874201191 17) (.mul (.rd (.var .jTemp)) (.num 42731999023327338 17)))),
  .set (.arr .jac 239) (.add (.rd (.arr .jac 239)) (.mul (.neg (.num 87434331748402383 17)) (.mul (.rd (.var .jTemp)) (.num 42731999023327338 17)))),
  .set (.arr .jac 253) (.add (.rd (.arr .jac 253)) (.mul (.neg (.num 7196898294919031 17)) (.mul (.rd (.var .jTemp)) (.num 10994706834011048 20)))),
  .set (.arr .jac 254) (.add (.rd (.arr .jac 254)) (.mul (.num 35984491474595155 18) (.mul (.rd (.var .jTemp)) (.num 10994706834011048 20)))),
  .set (.arr .jac 262) (.add (.rd (.arr .jac 262)) (.mul (.num 53675848970382434 17) (.mul (.rd (.var .jTemp)) (.num 10994706834011048 20)))),
  .set (.arr .jac 260) (.add (.rd (.arr .jac 260)) (.mul (.neg (.num 50077399822922919 17)) (.mul (.rd (.var .jTemp)) (.num 10994706834011048 20)))),
  .set (.arr .jac 274) (.add (.rd (.arr .jac 274)) (.mul (.neg (.num 45805252466496103 18)) (.mul (.rd (.var .jTemp)) (.neg (.num 57102223643760053 17))))),
  .set (.arr .jac 275) (.add (.rd (.arr .jac 275)) (.mul (.num 22902626233248052 18) (.mul (.rd (.var .jTemp)) (.neg (.num 57102223643760053 17))))),
  .set (.arr .jac 283) (.add (.rd (.arr .jac 283)) (.mul (.num 34162436548223352 17) (.mul (.rd (.var .jTemp)) (.neg (.num 57102223643760053 17))))),
  .set (.arr .jac 281) (.add (.rd (.arr .jac 281)) (.mul (.neg (.num 31872173924898545 17)) (.mul (.rd (.var .jTemp)) (.neg (.num 57102223643760053 17))))),
  .set (.arr .jac 295) (.add (.rd (.arr .jac 295)) (.mul (.neg (.num 69469170186854251 18)) (.mul (.rd (.var .jTemp)) (.neg (.num 35870588016911675 18))))),
  .set (.arr .jac 296) (.add (.rd (.arr .jac 296)) (.mul (.num 34734585093427126 18) (.mul (.rd (.var .jTemp)) (.neg (.num 35870588016911675 18))))),
  .set (.arr .jac 304) (.add (.rd (.arr .jac 304)) (.mul (.num 5181144062685874 16) (.mul (.rd (.var .jTemp)) (.neg (.num 35870588016911675 18))))),
  .set (.arr .jac 302) (.add (.rd (.arr .jac 302)) (.mul (.neg (.num 48337982117516021 17)) (.mul (.rd (.var .jTemp)) (.neg (.num 35870588016911675 18))))),
  .set (.arr .jac 316) (.add (.rd (.arr .jac 316)) (.mul (.neg (.num 67137187823466643 18)) (.mul (.rd (.var .jTemp)) (.neg (.num 71851123102163683 18))))),
  .set (.arr .jac 317) (.add (.rd (.arr .jac 317)) (.mul (.num 33568593911733322 18) (.mul (.rd (.var .jTemp)) (.neg (.num 71851123102163683 18))))),
  .set (.arr .jac 325) (.add (.rd (.arr .jac 325)) (.mul (.num 50072203416473837 17) (.mul (.rd (.var .jTemp)) (.neg (.num 71851123102163683 18))))),
  .set (.arr .jac 323) (.add (.rd (.arr .jac 323)) (.mul (.neg (.num 46715344025300498 17)) (.mul (.rd (.var .jTemp)) (.neg (.num 71851123102163683 18))))),
  .set (.arr .jac 337) (.add (.rd (.arr .jac 337)) (.mul (.neg (.num 64956683299918619 18)) (.mul (.rd (.var .jTemp)) (.neg (.num 10783165818741525 17))))),
  .set (.arr .jac 338) (.add (.rd (.arr .jac 338)) (.mul (.num 32478341649959309 18) (.mul (.rd (.var .jTemp)) (.neg (.num 10783165818741525 17))))),
  .set (.arr .jac 346) (.add (.rd (.arr .jac 346)) (.mul (.num 4844594128674734 16) (.mul (.rd (.var .jTemp)) (.neg (.num 10783165818741525 17))))),
  .set (.arr .jac 344) (.add (.rd (.arr .jac 344)) (.mul (.neg (.num 45198107121751407 17)) (.mul (.rd (.var .jTemp)) (.neg (.num 10783165818741525 17))))),
  .set (.arr .jac 358) (.add (.rd (.arr .jac 358)) (.mul (.neg (.num 71857747410685777 18)) (.mul (.rd (.var .jTemp)) (.neg (.num 14378791924458678 19))))),
  .set (.arr .jac 359) (.add (.rd (.arr .jac 359)) (.mul (.num 35928873705342888 18) (.mul (.rd (.var .jTemp)) (.neg (.num 14378791924458678 19))))),
  .set (.arr .jac 367) (.add (.rd (.arr .jac 367)) (.mul (.num 53592887370534292 17) (.mul (.rd (.var .jTemp)) (.neg (.num 14378791924458678 19))))),
  .set (.arr .jac 365) (.add (.rd (.arr .jac 365)) (.mul (.neg (.num 5 1)) (.mul (.rd (.var .jTemp)) (.neg (.num 14378791924458678 19))))),
  .set (.arr .jac 379) (.add (.rd (.arr .jac 379)) (.mul (.neg (.num 6936552231975418 17)) (.mul (.rd (.var .jTemp)) (.neg (.num 37418414277697654 18))))),
  .set (.arr .jac 380) (.add (.rd (.arr .jac 380)) (.mul (.num 3468276115987709 17) (.mul (.rd (.var .jTemp)) (.neg (.num 37418414277697654 18))))),
  .set (.arr .jac 388) (.add (.rd (.arr .jac 388)) (.mul (.num 51734138057993861 17) (.mul (.rd (.var .jTemp)) (.neg (.num 37418414277697654 18))))),
  .set (.arr .jac 386) (.add (.rd (.arr .jac 386)) (.mul (.neg (.num 48265861942006144 17)) (.mul (.rd (.var .jTemp)) (.neg (.num 37418414277697654 18))))),
  .set (.arr .jac 400) (.add (.rd (.arr .jac 400)) (.mul (.neg (.num 67040376938333812 18)) (.mul (.rd (.var .jTemp)) (.neg (.num 73398949362949439 18))))),
  .set (.arr .jac 401) (.add (.rd (.arr .jac 401)) (.mul (.num 33520188469166906 18) (.mul (.rd (.var .jTemp)) (.neg (.num 73398949362949439 18))))),
  .set (.arr .jac 409) (.add (.rd (.arr .jac 409)) (.mul (.num 5 1) (.mul (.rd (.var .jTemp)) (.neg (.num 73398949362949439 18))))),
  .set (.arr .jac 407) (.add (.rd (.arr .jac 407)) (.mul (.neg (.num 46647981153083307 17)) (.mul (.rd (.var .jTemp)) (.neg (.num 73398949362949439 18))))),
  .set (.arr .jac 421) (.add (.rd (.arr .jac 421)) (.mul (.neg (.num 5046260138179634 17)) (.mul (.rd (.var .jTemp)) (.neg (.num 42602775520927771 17))))),
  .set (.arr .jac 422) (.add (.rd (.arr .jac 422)) (.mul (.num 2523130069089817 17) (.mul (.rd (.var .jTemp)) (.neg (.num 42602775520927771 17))))),
  .set (.arr .jac 430) (.add (.rd (.arr .jac 430)) (.mul (.num 37635976769800739 17) (.mul (.rd (.var .jTemp)) (.neg (.num 42602775520927771 17))))),
  .set (.arr .jac 428) (.add (.rd (.arr .jac 428)) (.mul (.neg (.num 3511284670071092 16)) (.mul (.rd (.var .jTemp)) (.neg (.num 42602775520927771 17)))))]

/-- utilities/mechanisms/drm19/lib/src/jacobs/jacob_1.c:1865-1871 -/
def jacobT59 : List CStmt := [
  .set (.var .jTemp) (.mul (.mul (.div (.num 1 0) (.rd (.var .T))) (.sub (.mul (.rd (.arr .fwd 59)) (.neg (.num 1 0))) (.mul (.rd (.arr .rev 59)) (.add (.neg (.num 1 0)) (.mul (.neg (.rd (.var .T))) (.sub (.sub (.add (.rd (.arr .dBdT 1)) (.rd (.arr .dBdT 16))) (.rd (.arr .dBdT 7))) (.rd (.arr .dBdT 9)))))))) (.rd (.var .rhoInv))),
  .set (.arr .jac 17) (.add (.rd (.arr .jac 17)) (.mul (.rd (.var .jTemp)) (.num 28053759999999997 15))),
  .set (.arr .jac 10) (.add (.rd (.arr .jac 10)) (.mul (.neg (.rd (.var .jTemp))) (.num 1503482 5))),
  .set (.arr .jac 2) (.add (.rd (.arr .jac 2)) (.mul (.rd (.var .jTemp)) (.num 10079400000000001 16))),
  .set (.arr .jac 8) (.add (.rd (.arr .jac 8)) (.mul (.neg (.rd (.var .jTemp))) (.num 14026879999999998 15)))]

/-- utilities/mechanisms/drm19/lib/src/jacobs/jacob_1.c:1872-1963 -/
def jacobS59 : List CStmt := [
  .ite (.rd (.var .T)) (.num 1000 0) (.var .Kc) (.sub (.add (.add (.num 1460619517 9) (.mul (.neg (.num 97706759000000032 17)) (.rd (.var .logT)))) (.mul (.rd (.var .T)) (.add (.neg (.num 52751731811473334 19)) (.mul (.rd (.var .T)) (.add (.num 80956520380006795 22) (.mul (.rd (.var .T)) (.add (.neg (.num 4869732459808265 24)) (.mul (.num 11378581384536135 28) (.rd (.var .T)))))))))) (.div (.neg (.num 31885603070000001 12)) (.rd (.var .T)))) (.sub (.add (.add (.neg (.num 41688709639999981 16)) (.mul (.neg (.num 62370768000000032 17)) (.rd (.var .logT)))) (.mul (.rd (.var .T)) (.add (.num 18745608934578513 19) (.mul (.rd (.var .T)) (.add (.neg (.num 3857816139739677 22)) (.mul (.rd (.var .T)) (.add (.num 51363752688737331 27) (.mul (.neg (.num 30108932200901318 31)) (.rd (.var .T)))))))))) (.div (.neg (.num 32625642260000001 12)) (.rd (.var .T)))),
  .set (.var .Kc) (.exp (.rd (.var .Kc))),
  .set (.var .jTemp) (.mul (.mul (.neg (.rd (.var .mwAvg))) (.rd (.var .rhoInv))) (.sub (.mul (.num 2 0) (.rd (.arr .fwd 59))) (.mul (.num 2 0) (.rd (.arr .rev 59))))),
  .set (.var .kf) (.num 40000000000 0),
  .set (.var .kr) (.div (.rd (.var .kf)) (.rd (.var .Kc))),
  .set (.arr .jac 38) (.add (.rd (.arr .jac 38)) (.mul (.num 13916383911740775 15) (.mul (.rd (.var .jTemp)) (.num 92803892982949643 17)))),
  .set (.arr .jac 31) (.add (.rd (.arr .jac 31)) (.mul (.neg (.num 74581919558703884 16)) (.mul (.rd (.var .jTemp)) (.num 92803892982949643 17)))),
  .set (.arr .jac 23) (.add (.rd (.arr .jac 23)) (.mul (.num 5 1) (.mul (.rd (.var .jTemp)) (.num 92803892982949643 17)))),
  .set (.arr .jac 29) (.add (.rd (.arr .jac 29)) (.mul (.neg (.num 69581919558703875 16)) (.mul (.rd (.var .jTemp)) (.num 92803892982949643 17)))),
  .set (.arr .jac 59) (.add (.rd (.arr .jac 59)) (.mul (.num 2783276782348155 14) (.sub (.mul (.rd (.var .jTemp)) (.num 96401946491474821 17)) (.mul (.rd (.var .kr)) (.rd (.arr .C 16)))))),
  .set (.arr .jac 52) (.add (.rd (.arr .jac 52)) (.mul (.neg (.num 14916383911740777 15)) (.sub (.mul (.rd (.var .jTemp)) (.num 96401946491474821 17)) (.mul (.rd (.var .kr)) (.rd (.arr .C 16)))))),
  .set (.arr .jac 44) (.add (.rd (.arr .jac 44)) (.sub (.mul (.rd (.var .jTemp)) (.num 96401946491474821 17)) (.mul (.rd (.var .kr)) (.rd (.arr .C 16))))),
  .set (.arr .jac 50) (.add (.rd (.arr .jac 50)) (.mul (.neg (.num 13916383911740775 15)) (.sub (.mul (.rd (.var .jTemp)) (.num 96401946491474821 17)) (.mul (.rd (.var .kr)) (.rd (.arr .C 16)))))),
  .set (.arr .jac 80) (.add (.rd (.arr .jac 80)) (.mul (.num 17534257534657549 16) (.mul (.rd (.var .jTemp)) (.num 42886781649405936 17)))),
  .set (.arr .jac 73) (.add (.rd (.arr .jac 73)) (.mul (.neg (.num 93971148918084424 17)) (.mul (.rd (.var .jTemp)) (.num 42886781649405936 17)))),
  .set (.arr .jac 65) (.add (.rd (.arr .jac 65)) (.mul (.num 62998612447966798 18) (.mul (.rd (.var .jTemp)) (.num 42886781649405936 17)))),
  .set (.arr .jac 71) (.add (.rd (.arr .jac 71)) (.mul (.neg (.num 87671287673287746 17)) (.mul (.rd (.var .jTemp)) (.num 42886781649405936 17)))),
  .set (.arr .jac 101) (.add (.rd (.arr .jac 101)) (.mul (.num 87671287673287746 17) (.mul (.rd (.var .jTemp)) (.neg (.num 14226436701188128 17))))),
  .set (.arr .jac 94) (.add (.rd (.arr .jac 94)) (.mul (.neg (.num 46985574459042212 17)) (.mul (.rd (.var .jTemp)) (.neg (.num 14226436701188128 17))))),
  .set (.arr .jac 86) (.add (.rd (.arr .jac 86)) (.mul (.num 31499306223983399 18) (.mul (.rd (.var .jTemp)) (.neg (.num 14226436701188128 17))))),
  .set (.arr .jac 92) (.add (.rd (.arr .jac 92)) (.mul (.neg (.num 43835643836643873 17)) (.mul (.rd (.var .jTemp)) (.neg (.num 14226436701188128 17))))),
  .set (.arr .jac 122) (.add (.rd (.arr .jac 122)) (.mul (.num 16495089767124076 16) (.mul (.rd (.var .jTemp)) (.num 39288728140880758 17)))),
  .set (.arr .jac 115) (.add (.rd (.arr .jac 115)) (.mul (.neg (.num 88401948805633335 17)) (.mul (.rd (.var .jTemp)) (.num 39288728140880758 17)))),
  .set (.arr .jac 107) (.add (.rd (.arr .jac 107)) (.mul (.num 59264999700129481 18) (.mul (.rd (.var .jTemp)) (.num 39288728140880758 17)))),
  .set (.arr .jac 113) (.add (.rd (.arr .jac 113)) (.mul (.neg (.num 8247544883562038 16)) (.mul (.rd (.var .jTemp)) (.num 39288728140880758 17)))),
  .set (.arr .jac 143) (.add (.rd (.arr .jac 143)) (.mul (.num 15572203151990975 16) (.mul (.rd (.var .jTemp)) (.num 35690674632355568 17)))),
  .set (.arr .jac 136) (.add (.rd (.arr .jac 136)) (.mul (.neg (.num 83455932963573143 17)) (.mul (.rd (.var .jTemp)) (.num 35690674632355568 17)))),
  .set (.arr .jac 128) (.add (.rd (.arr .jac 128)) (.mul (.num 55949172036182618 18) (.mul (.rd (.var .jTemp)) (.num 35690674632355568 17)))),
  .set (.arr .jac 134) (.add (.rd (.arr .jac 134)) (.mul (.neg (.num 77861015759954877 17)) (.mul (.rd (.var .jTemp)) (.num 35690674632355568 17)))),
  .set (.arr .jac 164) (.add (.rd (.arr .jac 164)) (.mul (.num 84994034551730935 17) (.mul (.rd (.var .jTemp)) (.neg (.num 17824490209713328 17))))),
  .set (.arr .jac 157) (.add (.rd (.arr .jac 157)) (.mul (.neg (.num 45550757208982162 17)) (.mul (.rd (.var .jTemp)) (.neg (.num 17824490209713328 17))))),
  .set (.arr .jac 149) (.add (.rd (.arr .jac 149)) (.mul (.num 3053739933116691 17) (.mul (.rd (.var .jTemp)) (.neg (.num 17824490209713328 17))))),
  .set (.arr .jac 155) (.add (.rd (.arr .jac 155)) (.mul (.neg (.num 42497017275865467 17)) (.mul (.rd (.var .jTemp)) (.neg (.num 17824490209713328 17))))),
  .set (.arr .jac 185) (.add (.rd (.arr .jac 185)) (.mul (.num 2 0) (.add (.mul (.rd (.var .jTemp)) (.num 49928106040377707 17)) (.mul (.rd (.var .kf)) (.rd (.arr .C 9)))))),
  .set (.arr .jac 178) (.add (.rd (.arr .jac 178)) (.mul (.neg (.num 10718577474106858 16)) (.add (.mul (.rd (.var .jTemp)) (.num 49928106040377707 17)) (.mul (.rd (.var .kf)) (.rd (.arr .C 9)))))),
  .set (.arr .jac 170) (.add (.rd (.arr .jac 170)) (.mul (.num 71857747410685777 18) (.add (.mul (.rd (.var .jTemp)) (.num 49928106040377707 17)) (.mul (.rd (.var .kf)) (.rd (.arr .C 9)))))),
  .set (.arr .jac 176) (.add (.rd (.arr .jac 176)) (.neg (.add (.mul (.rd (.var .jTemp)) (.num 49928106040377707 17)) (.mul (.rd (.var .kf)) (.rd (.arr .C 9)))))),
  .set (.arr .jac 206) (.add (.rd (.arr .jac 206)) (.mul (.num 2 0) (.mul (.rd (.var .jTemp)) (.num 49928106040377707 17)))),
  .set (.arr .jac 199) (.add (.rd (.arr .jac 199)) (.mul (.neg (.num 10718577474106858 16)) (.mul (.rd (.var .jTemp)) (.num 49928106040377707 17)))),
  .set (.arr .jac 191) (.add (.rd (.arr .jac 191)) (.mul (.num 71857747410685777 18) (.mul (.rd (.var .jTemp)) (.num 49928106040377707 17)))),
  .set (.arr .jac 197) (.add (.rd (.arr .jac 197)) (.neg (.mul (.rd (.var .jTemp)) (.num 49928106040377707 17)))),
  .set (.arr .jac 227) (.add (.rd (.arr .jac 227)) (.mul (.num 18659192461233323 16) (.add (.mul (.rd (.var .jTemp)) (.num 46330052531852528 17)) (.mul (.rd (.var .kf)) (.rd (.arr .C 7)))))),
  .set (.arr .jac 220) (.add (.rd (.arr .jac 220)) (.neg (.add (.mul (.rd (.var .jTemp)) (.num 46330052531852528 17)) (.mul (.rd (.var .kf)) (.rd (.arr .C 7)))))),
  .set (.arr .jac 212) (.add (.rd (.arr .jac 212)) (.mul (.num 67040376938333812 18) (.add (.mul (.rd (.var .jTemp)) (.num 46330052531852528 17)) (.mul (.rd (.var .kf)) (.rd (.arr .C 7)))))),
  .set (.arr .jac 218) (.add (.rd (.arr .jac 218)) (.mul (.neg (.num 93295962306166613 17)) (.add (.mul (.rd (.var .jTemp)) (.num 46330052531852528 17)) (.mul (.rd (.var .kf)) (.rd (.arr .C 7)))))),
  .set (.arr .jac 248) (.add (.rd (.arr .jac 248)) (.mul (.num 17486866349680477 16) (.mul (.rd (.var .jTemp)) (.num 42731999023327338 17)))),
  .set (.arr .jac 241) (.add (.rd (.arr .jac 241)) (.mul (.neg (.num 93717165874201191 17)) (.mul (.rd (.var .jTemp)) (.num 42731999023327338 17)))),
  .set (.arr .jac 233) (.add (.rd (.arr .jac 233)) (.mul (.num 6282834125798803 17) (.mul (.rd (.var .jTemp)) (.num 42731999023327338 17)))),
  .set (.arr .jac 239) (.add (.rd (.arr .jac 239)) (.mul (.neg (.num 87434331748402383 17)) (.mul (.rd (.var .jTemp)) (.num 42731999023327338 17)))),
  .set (.arr .jac 269) (.add (.rd (.arr .jac 269)) (.mul (.num 10015479964584584 16) (.mul (.rd (.var .jTemp)) (.num 10994706834011048 20)))),
  .set (.arr .jac 262) (.add (.rd (.arr .jac 262)) (.mul (.neg (.num 53675848970382434 17)) (.mul (.rd (.var .jTemp)) (.num 10994706834011048 20)))),
  .set (.arr .jac 254) (.add (.rd (.arr .jac 254)) (.mul (.num 35984491474595155 18) (.mul (.rd (.var .jTemp)) (.num 10994706834011048 20)))),
  .set (.arr .jac 260) (.add (.rd (.arr .jac 260)) (.mul (.neg (.num 50077399822922919 17)) (.mul (.rd (.var .jTemp)) (.num 10994706834011048 20)))),
  .set (.arr .jac 290) (.add (.rd (.arr .jac 290)) (.mul (.num 63744347849797089 17) (.mul (.rd (.var .jTemp)) (.neg (.num 57102223643760053 17))))),
  .set (.arr .jac 283) (.add (.rd (.arr .jac 283)) (.mul (.neg (.num 34162436548223352 17)) (.mul (.rd (.var .jTemp)) (.neg (.num 57102223643760053 17))))),
  .set (.arr .jac 275) (.add (.rd (.arr .jac 275)) (.mul (.num 22902626233248052 18) (.mul (.rd (.var .jTemp)) (.neg (.num 57102223643760053 17))))),
  .set (.arr .jac 281) (.add (.rd (.arr .jac 281)) (.mul (.neg (.num 31872173924898545 17)) (.mul (.rd (.var .jTemp)) (.neg (.num 57102223643760053 17))))),
  .set (.arr .jac 311) (.add (.rd (.arr .jac 311)) (.mul (.num 96675964235032041 17) (.mul (.rd (.var .jTemp)) (.neg (.num 35870588016911675 18))))),
  .set (.arr .jac 304) (.add (.rd (.arr .jac 304)) (.mul (.neg (.num 5181144062685874 16)) (.mul (.rd (.var .jTemp)) (.neg (.num 35870588016911675 18))))),
  .set (.arr .jac 296) (.add (.rd (.arr .jac 296)) (.mul (.num 34734585093427126 18) (.mul (.rd (.var .jTemp)) (.neg (.num 35870588016911675 18))))),
  .set (.arr .jac 302) (.add (.rd (.arr .jac 302)) (.mul (.neg (.num 48337982117516021 17)) (.mul (.rd (.var .jTemp)) (.neg (.num 35870588016911675 18))))),
  .set (.arr .jac 332) (.add (.rd (.arr .jac 332)) (.mul (.num 93430688050600996 17) (.mul (.rd (.var .jTemp)) (.neg (.num 71851123102163683 18))))),
  .set (.arr .jac 325) (.add (.rd (.arr .jac 325)) (.mul (.neg (.num 50072203416473837 17)) (.mul (.rd (.var .jTemp)) (.neg (.num 71851123102163683 18))))),
  .set (.arr .jac 317) (.add (.rd (.arr .jac 317)) (.mul (.num 33568593911733322 18) (.mul (.rd (.var .jTemp)) (.neg (.num 71851123102163683 18))))),
  .set (.arr .jac 323) (.add (.rd (.arr .jac 323)) (.mul (.neg (.num 46715344025300498 17)) (.mul (.rd (.var .jTemp)) (.neg (.num 71851123102163683 18))))),
  .set (.arr .jac 353) (.add (.rd (.arr .jac 353)) (.mul (.num 90396214243502815 17) (.mul (.rd (.var .jTemp)) (.neg (.num 10783165818741525 17))))),
  .set (.arr .jac 346) (.add (.rd (.arr .jac 346)) (.mul (.neg (.num 4844594128674734 16)) (.mul (.rd (.var .jTemp)) (.neg (.num 10783165818741525 17))))),
  .set (.arr .jac 338) (.add (.rd (.arr .jac 338)) (.mul (.num 32478341649959309 18) (.mul (.rd (.var .jTemp)) (.neg (.num 10783165818741525 17))))),
  .set (.arr .jac 344) (.add (.rd (.arr .jac 344)) (.mul (.neg (.num 45198107121751407 17)) (.mul (.rd (.var .jTemp)) (.neg (.num 10783165818741525 17))))),
  .set (.arr .jac 374) (.add (.rd (.arr .jac 374)) (.sub (.mul (.rd (.var .jTemp)) (.neg (.num 14378791924458678 19))) (.mul (.rd (.var .kr)) (.rd (.arr .C 1))))),
  .set (.arr .jac 367) (.add (.rd (.arr .jac 367)) (.mul (.neg (.num 53592887370534292 17)) (.sub (.mul (.rd (.var .jTemp)) (.neg (.num 14378791924458678 19))) (.mul (.rd (.var .kr)) (.rd (.arr .C 1)))))),
  .set (.arr .jac 359) (.add (.rd (.arr .jac 359)) (.mul (.num 35928873705342888 18) (.sub (.mul (.rd (.var .jTemp)) (.neg (.num 14378791924458678 19))) (.mul (.rd (.var .kr)) (.rd (.arr .C 1)))))),
  .set (.arr .jac 365) (.add (.rd (.arr .jac 365)) (.mul (.neg (.num 5 1)) (.sub (.mul (.rd (.var .jTemp)) (.neg (.num 14378791924458678 19))) (.mul (.rd (.var .kr)) (.rd (.arr .C 1)))))),
  .set (.arr .jac 395) (.add (.rd (.arr .jac 395)) (.mul (.num 96531723884012288 17) (.mul (.rd (.var .jTemp)) (.neg (.num 37418414277697654 18))))),
  .set (.arr .jac 388) (.add (.rd (.arr .jac 388)) (.mul (.neg (.num 51734138057993861 17)) (.mul (.rd (.var .jTemp)) (.neg (.num 37418414277697654 18))))),
  .set (.arr .jac 380) (.add (.rd (.arr .jac 380)) (.mul (.num 3468276115987709 17) (.mul (.rd (.var .jTemp)) (.neg (.num 37418414277697654 18))))),
  .set (.arr .jac 386) (.add (.rd (.arr .jac 386)) (.mul (.neg (.num 48265861942006144 17)) (.mul (.rd (.var .jTemp)) (.neg (.num 37418414277697654 18))))),
  .set (.arr .jac 416) (.add (.rd (.arr .jac 416)) (.mul (.num 93295962306166613 17) (.mul (.rd (.var .jTemp)) (.neg (.num 73398949362949439 18))))),
  .set (.arr .jac 409) (.add (.rd (.arr .jac 409)) (.mul (.neg (.num 5 1)) (.mul (.rd (.var .jTemp)) (.neg (.num 73398949362949439 18))))),
  .set (.arr .jac 401) (.add (.rd (.arr .jac 401)) (.mul (.num 33520188469166906 18) (.mul (.rd (.var .jTemp)) (.neg (.num 73398949362949439 18))))),
  .set (.arr .jac 407) (.add (.rd (.arr .jac 407)) (.mul (.neg (.num 46647981153083307 17)) (.mul (.rd (.var .jTemp)) (.neg (.num 73398949362949439 18))))),
  .set (.arr .jac 437) (.add (.rd (.arr .jac 437)) (.mul (.num 7022569340142184 16) (.mul (.rd (.var .jTemp)) (.neg (.num 42602775520927771 17))))),
  .set (.arr .jac 430) (.add (.rd (.arr .jac 430)) (.mul (.neg (.num 37635976769800739 17)) (.mul (.rd (.var .jTemp)) (.neg (.num 42602775520927771 17))))),
  .set (.arr .jac 422) (.add (.rd (.arr .jac 422)) (.mul (.num 2523130069089817 17) (.mul (.rd (.var .jTemp)) (.neg (.num 42602775520927771 17))))),
  .set (.arr .jac 428) (.add (.rd (.arr .jac 428)) (.mul (.neg (.num 3511284670071092 16)) (.mul (.rd (.var .jTemp)) (.neg (.num 42602775520927771 17)))))]

/-- utilities/mechanisms/drm19/lib/src/jacobs/jacob_1.c:1964-1969 -/
def jacobT60 : List CStmt := [
  .set (.var .jTemp) (.mul (.mul (.div (.num 1 0) (.rd (.var .T))) (.sub (.add (.mul (.sub (.rd (.arr .fwd 60)) (.rd (.arr .rev 60))) (.add (.num 2 0) (.div (.num 41616258013852748 13) (.rd (.var .T))))) (.mul (.rd (.arr .fwd 60)) (.neg (.num 1 0)))) (.mul (.rd (.arr .rev 60)) (.add (.neg (.num 1 0)) (.mul (.neg (.rd (.var .T))) (.sub (.sub (.mul (.num 2 0) (.rd (.arr .dBdT 9))) (.rd (.arr .dBdT 7))) (.rd (.arr .dBdT 10)))))))) (.rd (.var .rhoInv))),
  .set (.arr .jac 10) (.add (.rd (.arr .jac 10)) (.mul (.mul (.rd (.var .jTemp)) (.num 2 0)) (.num 1503482 5))),
  .set (.arr .jac 11) (.add (.rd (.arr .jac 11)) (.mul (.neg (.rd (.var .jTemp))) (.num 16042760000000001 15))),
  .set (.arr .jac 8) (.add (.rd (.arr .jac 8)) (.mul (.neg (.rd (.var .jTemp))) (.num 14026879999999998 15)))]

/-- utilities/mechanisms/drm19/lib/src/jacobs/jacob_1.c:1970-2041 -/
def jacobS60 : List CStmt := [
  .ite (.rd (.var .T)) (.num 1000 0) (.var .Kc) (.sub (.add (.add (.num 78532745699999982 16) (.mul (.neg (.num 15653739999999998 16)) (.rd (.var .logT)))) (.mul (.rd (.var .T)) (.add (.num 83620050785000004 19) (.mul (.rd (.var .T)) (.add (.neg (.num 67524201983333343 22)) (.mul (.rd (.var .T)) (.add (.num 32152388025000001 25) (.mul (.neg (.num 66345490549999999 29)) (.rd (.var .T)))))))))) (.div (.neg (.num 28673948999999993 13)) (.rd (.var .T)))) (.sub (.add (.add (.neg (.num 92708504749999996 16)) (.mul (.num 16224828150000001 16) (.rd (.var .logT)))) (.mul (.rd (.var .T)) (.add (.neg (.num 12837694399999999 19)) (.mul (.rd (.var .T)) (.add (.num 19458618333333329 23) (.mul (.rd (.var .T)) (.add (.neg (.num 24311300916666661 27)) (.mul (.num 13578553950000002 31) (.rd (.var .T)))))))))) (.div (.neg (.num 32440908100000015 13)) (.rd (.var .T)))),
  .set (.var .Kc) (.exp (.rd (.var .Kc))),
  .set (.var .jTemp) (.mul (.mul (.neg (.rd (.var .mwAvg))) (.rd (.var .rhoInv))) (.sub (.mul (.num 2 0) (.rd (.arr .fwd 60))) (.mul (.num 2 0) (.rd (.arr .rev 60))))),
  .set (.var .kf) (.exp (.sub (.add (.num 78079166289264084 16) (.mul (.num 2 0) (.rd (.var .logT)))) (.div (.num 41616258013852748 13) (.rd (.var .T))))),
  .set (.var .kr) (.div (.rd (.var .kf)) (.rd (.var .Kc))),
  .set (.arr .jac 31) (.add (.rd (.arr .jac 31)) (.mul (.num 14916383911740777 15) (.mul (.rd (.var .jTemp)) (.num 92803892982949643 17)))),
  .set (.arr .jac 32) (.add (.rd (.arr .jac 32)) (.mul (.neg (.num 79581919558703893 16)) (.mul (.rd (.var .jTemp)) (.num 92803892982949643 17)))),
  .set (.arr .jac 29) (.add (.rd (.arr .jac 29)) (.mul (.neg (.num 69581919558703875 16)) (.mul (.rd (.var .jTemp)) (.num 92803892982949643 17)))),
  .set (.arr .jac 52) (.add (.rd (.arr .jac 52)) (.mul (.num 29832767823481554 15) (.mul (.rd (.var .jTemp)) (.num 96401946491474821 17)))),
  .set (.arr .jac 53) (.add (.rd (.arr .jac 53)) (.mul (.neg (.num 15916383911740779 15)) (.mul (.rd (.var .jTemp)) (.num 96401946491474821 17)))),
  .set (.arr .jac 50) (.add (.rd (.arr .jac 50)) (.mul (.neg (.num 13916383911740775 15)) (.mul (.rd (.var .jTemp)) (.num 96401946491474821 17)))),
  .set (.arr .jac 73) (.add (.rd (.arr .jac 73)) (.mul (.num 18794229783616885 16) (.mul (.rd (.var .jTemp)) (.num 42886781649405936 17)))),
  .set (.arr .jac 74) (.add (.rd (.arr .jac 74)) (.mul (.neg (.num 10027101016288111 16)) (.mul (.rd (.var .jTemp)) (.num 42886781649405936 17)))),
  .set (.arr .jac 71) (.add (.rd (.arr .jac 71)) (.mul (.neg (.num 87671287673287746 17)) (.mul (.rd (.var .jTemp)) (.num 42886781649405936 17)))),
  .set (.arr .jac 94) (.add (.rd (.arr .jac 94)) (.mul (.num 93971148918084424 17) (.mul (.rd (.var .jTemp)) (.neg (.num 14226436701188128 17))))),
  .set (.arr .jac 95) (.add (.rd (.arr .jac 95)) (.mul (.neg (.num 50135505081440557 17)) (.mul (.rd (.var .jTemp)) (.neg (.num 14226436701188128 17))))),
  .set (.arr .jac 92) (.add (.rd (.arr .jac 92)) (.mul (.neg (.num 43835643836643873 17)) (.mul (.rd (.var .jTemp)) (.neg (.num 14226436701188128 17))))),
  .set (.arr .jac 115) (.add (.rd (.arr .jac 115)) (.mul (.num 17680389761126667 16) (.mul (.rd (.var .jTemp)) (.num 39288728140880758 17)))),
  .set (.arr .jac 116) (.add (.rd (.arr .jac 116)) (.mul (.neg (.num 9432844877564629 16)) (.mul (.rd (.var .jTemp)) (.num 39288728140880758 17)))),
  .set (.arr .jac 113) (.add (.rd (.arr .jac 113)) (.mul (.neg (.num 8247544883562038 16)) (.mul (.rd (.var .jTemp)) (.num 39288728140880758 17)))),
  .set (.arr .jac 136) (.add (.rd (.arr .jac 136)) (.mul (.num 16691186592714629 16) (.mul (.rd (.var .jTemp)) (.num 35690674632355568 17)))),
  .set (.arr .jac 137) (.add (.rd (.arr .jac 137)) (.mul (.neg (.num 89050850167191409 17)) (.mul (.rd (.var .jTemp)) (.num 35690674632355568 17)))),
  .set (.arr .jac 134) (.add (.rd (.arr .jac 134)) (.mul (.neg (.num 77861015759954877 17)) (.mul (.rd (.var .jTemp)) (.num 35690674632355568 17)))),
  .set (.arr .jac 157) (.add (.rd (.arr .jac 157)) (.mul (.num 91101514417964324 17) (.mul (.rd (.var .jTemp)) (.neg (.num 17824490209713328 17))))),
  .set (.arr .jac 158) (.add (.rd (.arr .jac 158)) (.mul (.neg (.num 48604497142098857 17)) (.mul (.rd (.var .jTemp)) (.neg (.num 17824490209713328 17))))),
  .set (.arr .jac 155) (.add (.rd (.arr .jac 155)) (.mul (.neg (.num 42497017275865467 17)) (.mul (.rd (.var .jTemp)) (.neg (.num 17824490209713328 17))))),
  .set (.arr .jac 178) (.add (.rd (.arr .jac 178)) (.mul (.num 21437154948213717 16) (.add (.mul (.rd (.var .jTemp)) (.num 49928106040377707 17)) (.mul (.rd (.var .kf)) (.rd (.arr .C 10)))))),
  .set (.arr .jac 179) (.add (.rd (.arr .jac 179)) (.mul (.neg (.num 11437154948213717 16)) (.add (.mul (.rd (.var .jTemp)) (.num 49928106040377707 17)) (.mul (.rd (.var .kf)) (.rd (.arr .C 10)))))),
  .set (.arr .jac 176) (.add (.rd (.arr .jac 176)) (.neg (.add (.mul (.rd (.var .jTemp)) (.num 49928106040377707 17)) (.mul (.rd (.var .kf)) (.rd (.arr .C 10)))))),
  .set (.arr .jac 199) (.add (.rd (.arr .jac 199)) (.mul (.num 21437154948213717 16) (.mul (.rd (.var .jTemp)) (.num 49928106040377707 17)))),
  .set (.arr .jac 200) (.add (.rd (.arr .jac 200)) (.mul (.neg (.num 11437154948213717 16)) (.mul (.rd (.var .jTemp)) (.num 49928106040377707 17)))),
  .set (.arr .jac 197) (.add (.rd (.arr .jac 197)) (.neg (.mul (.rd (.var .jTemp)) (.num 49928106040377707 17)))),
  .set (.arr .jac 220) (.add (.rd (.arr .jac 220)) (.mul (.num 2 0) (.sub (.mul (.rd (.var .jTemp)) (.num 46330052531852528 17)) (.mul (.mul (.rd (.var .kr)) (.num 2 0)) (.rd (.arr .C 9)))))),
  .set (.arr .jac 221) (.add (.rd (.arr .jac 221)) (.mul (.neg (.num 10670403769383339 16)) (.sub (.mul (.rd (.var .jTemp)) (.num 46330052531852528 17)) (.mul (.mul (.rd (.var .kr)) (.num 2 0)) (.rd (.arr .C 9)))))),
  .set (.arr .jac 218) (.add (.rd (.arr .jac 218)) (.mul (.neg (.num 93295962306166613 17)) (.sub (.mul (.rd (.var .jTemp)) (.num 46330052531852528 17)) (.mul (.mul (.rd (.var .kr)) (.num 2 0)) (.rd (.arr .C 9)))))),
  .set (.arr .jac 241) (.add (.rd (.arr .jac 241)) (.mul (.num 18743433174840238 16) (.add (.mul (.rd (.var .jTemp)) (.num 42731999023327338 17)) (.mul (.rd (.var .kf)) (.rd (.arr .C 7)))))),
  .set (.arr .jac 242) (.add (.rd (.arr .jac 242)) (.neg (.add (.mul (.rd (.var .jTemp)) (.num 42731999023327338 17)) (.mul (.rd (.var .kf)) (.rd (.arr .C 7)))))),
  .set (.arr .jac 239) (.add (.rd (.arr .jac 239)) (.mul (.neg (.num 87434331748402383 17)) (.add (.mul (.rd (.var .jTemp)) (.num 42731999023327338 17)) (.mul (.rd (.var .kf)) (.rd (.arr .C 7)))))),
  .set (.arr .jac 262) (.add (.rd (.arr .jac 262)) (.mul (.num 10735169794076487 16) (.mul (.rd (.var .jTemp)) (.num 10994706834011048 20)))),
  .set (.arr .jac 263) (.add (.rd (.arr .jac 263)) (.mul (.neg (.num 5727429811784196 16)) (.mul (.rd (.var .jTemp)) (.num 10994706834011048 20)))),
  .set (.arr .jac 260) (.add (.rd (.arr .jac 260)) (.mul (.neg (.num 50077399822922919 17)) (.mul (.rd (.var .jTemp)) (.num 10994706834011048 20)))),
  .set (.arr .jac 283) (.add (.rd (.arr .jac 283)) (.mul (.num 68324873096446703 17) (.mul (.rd (.var .jTemp)) (.neg (.num 57102223643760053 17))))),
  .set (.arr .jac 284) (.add (.rd (.arr .jac 284)) (.mul (.neg (.num 36452699171548159 17)) (.mul (.rd (.var .jTemp)) (.neg (.num 57102223643760053 17))))),
  .set (.arr .jac 281) (.add (.rd (.arr .jac 281)) (.mul (.neg (.num 31872173924898545 17)) (.mul (.rd (.var .jTemp)) (.neg (.num 57102223643760053 17))))),
  .set (.arr .jac 304) (.add (.rd (.arr .jac 304)) (.mul (.num 10362288125371748 16) (.mul (.rd (.var .jTemp)) (.neg (.num 35870588016911675 18))))),
  .set (.arr .jac 305) (.add (.rd (.arr .jac 305)) (.mul (.neg (.num 5528489913620146 16)) (.mul (.rd (.var .jTemp)) (.neg (.num 35870588016911675 18))))),
  .set (.arr .jac 302) (.add (.rd (.arr .jac 302)) (.mul (.neg (.num 48337982117516021 17)) (.mul (.rd (.var .jTemp)) (.neg (.num 35870588016911675 18))))),
  .set (.arr .jac 325) (.add (.rd (.arr .jac 325)) (.mul (.num 10014440683294767 16) (.mul (.rd (.var .jTemp)) (.neg (.num 71851123102163683 18))))),
  .set (.arr .jac 326) (.add (.rd (.arr .jac 326)) (.mul (.neg (.num 53429062807647176 17)) (.mul (.rd (.var .jTemp)) (.neg (.num 71851123102163683 18))))),
  .set (.arr .jac 323) (.add (.rd (.arr .jac 323)) (.mul (.neg (.num 46715344025300498 17)) (.mul (.rd (.var .jTemp)) (.neg (.num 71851123102163683 18))))),
  .set (.arr .jac 346) (.add (.rd (.arr .jac 346)) (.mul (.num 96891882573494681 17) (.mul (.rd (.var .jTemp)) (.neg (.num 10783165818741525 17))))),
  .set (.arr .jac 347) (.add (.rd (.arr .jac 347)) (.mul (.neg (.num 51693775451743273 17)) (.mul (.rd (.var .jTemp)) (.neg (.num 10783165818741525 17))))),
  .set (.arr .jac 344) (.add (.rd (.arr .jac 344)) (.mul (.neg (.num 45198107121751407 17)) (.mul (.rd (.var .jTemp)) (.neg (.num 10783165818741525 17))))),
  .set (.arr .jac 367) (.add (.rd (.arr .jac 367)) (.mul (.num 10718577474106858 16) (.mul (.rd (.var .jTemp)) (.neg (.num 14378791924458678 19))))),
  .set (.arr .jac 368) (.add (.rd (.arr .jac 368)) (.mul (.neg (.num 57185774741068585 17)) (.mul (.rd (.var .jTemp)) (.neg (.num 14378791924458678 19))))),
  .set (.arr .jac 365) (.add (.rd (.arr .jac 365)) (.mul (.neg (.num 5 1)) (.mul (.rd (.var .jTemp)) (.neg (.num 14378791924458678 19))))),
  .set (.arr .jac 388) (.add (.rd (.arr .jac 388)) (.mul (.num 10346827611598772 16) (.mul (.rd (.var .jTemp)) (.neg (.num 37418414277697654 18))))),
  .set (.arr .jac 389) (.add (.rd (.arr .jac 389)) (.mul (.neg (.num 55202414173981573 17)) (.mul (.rd (.var .jTemp)) (.neg (.num 37418414277697654 18))))),
  .set (.arr .jac 386) (.add (.rd (.arr .jac 386)) (.mul (.neg (.num 48265861942006144 17)) (.mul (.rd (.var .jTemp)) (.neg (.num 37418414277697654 18))))),
  .set (.arr .jac 409) (.add (.rd (.arr .jac 409)) (.mul (.rd (.var .jTemp)) (.neg (.num 73398949362949439 18)))),
  .set (.arr .jac 410) (.add (.rd (.arr .jac 410)) (.mul (.neg (.num 53352018846916693 17)) (.mul (.rd (.var .jTemp)) (.neg (.num 73398949362949439 18))))),
  .set (.arr .jac 407) (.add (.rd (.arr .jac 407)) (.mul (.neg (.num 46647981153083307 17)) (.mul (.rd (.var .jTemp)) (.neg (.num 73398949362949439 18))))),
  .set (.arr .jac 430) (.add (.rd (.arr .jac 430)) (.mul (.num 75271953539601477 17) (.mul (.rd (.var .jTemp)) (.neg (.num 42602775520927771 17))))),
  .set (.arr .jac 431) (.add (.rd (.arr .jac 431)) (.mul (.neg (.num 40159106838890563 17)) (.mul (.rd (.var .jTemp)) (.neg (.num 42602775520927771 17))))),
  .set (.arr .jac 428) (.add (.rd (.arr .jac 428)) (.mul (.neg (.num 3511284670071092 16)) (.mul (.rd (.var .jTemp)) (.neg (.num 42602775520927771 17)))))]

/-- utilities/mechanisms/drm19/lib/src/jacobs/jacob_1.c:2042-2046 -/
def jacobT61 : List CStmt := [
  .set (.var .jTemp) (.mul (.mul (.div (.num 1 0) (.rd (.var .T))) (.sub (.add (.mul (.sub (.rd (.arr .fwd 61)) (.rd (.arr .rev 61))) (.div (.num 30193173891549759 14) (.rd (.var .T)))) (.mul (.rd (.arr .fwd 61)) (.neg (.num 1 0)))) (.mul (.rd (.arr .rev 61)) (.add (.neg (.num 1 0)) (.mul (.neg (.rd (.var .T))) (.sub (.rd (.arr .dBdT 7)) (.rd (.arr .dBdT 8)))))))) (.rd (.var .rhoInv))),
  .set (.arr .jac 9) (.add (.rd (.arr .jac 9)) (.mul (.neg (.rd (.var .jTemp))) (.num 14026879999999998 15))),
  .set (.arr .jac 8) (.add (.rd (.arr .jac 8)) (.mul (.rd (.var .jTemp)) (.num 14026879999999998 15)))]

/-- utilities/mechanisms/drm19/lib/src/jacobs/jacob_1.c:2047-2098 -/
def jacobS61 : List CStmt := [
  .ite (.rd (.var .T)) (.num 1000 0) (.var .Kc) (.sub (.add (.add (.num 27675762569999995 16) (.mul (.neg (.num 43592543999999966 17)) (.rd (.var .logT)))) (.mul (.rd (.var .T)) (.add (.num 16677431665000002 19) (.mul (.rd (.var .T)) (.add (.neg (.num 90634396499999983 23)) (.mul (.rd (.var .T)) (.add (.num 23643735666666669 26) (.mul (.neg (.num 12786509000000005 30)) (.rd (.var .T)))))))))) (.div (.neg (.num 44927762000000002 13)) (.rd (.var .T)))) (.sub (.add (.add (.neg (.num 30373711599999997 16)) (.mul (.num 58206271000000021 17) (.rd (.var .logT)))) (.mul (.rd (.var .T)) (.add (.neg (.num 49974672500000005 20)) (.mul (.rd (.var .T)) (.add (.num 10049558333333332 23) (.mul (.rd (.var .T)) (.add (.neg (.num 13143870916666673 27)) (.mul (.num 75994398999999995 32) (.rd (.var .T)))))))))) (.div (.neg (.num 46623957000000009 13)) (.rd (.var .T)))),
  .set (.var .Kc) (.exp (.rd (.var .Kc))),
  .set (.var .jTemp) (.mul (.mul (.neg (.rd (.var .mwAvg))) (.rd (.var .rhoInv))) (.sub (.mul (.num 2 0) (.rd (.arr .fwd 61))) (.mul (.num 2 0) (.rd (.arr .rev 61))))),
  .set (.var .kf) (.exp (.sub (.num 23431316038048621 15) (.div (.num 30193173891549759 14) (.rd (.var .T))))),
  .set (.var .kr) (.div (.rd (.var .kf)) (.rd (.var .Kc))),
  .set (.arr .jac 30) (.add (.rd (.arr .jac 30)) (.mul (.neg (.num 69581919558703875 16)) (.sub (.mul (.rd (.var .jTemp)) (.num 92803892982949643 17)) (.mul (.num 71961070170503627 18) (.sub (.mul (.rd (.var .kf)) (.rd (.arr .C 8))) (.mul (.rd (.var .kr)) (.rd (.arr .C 7)))))))),
  .set (.arr .jac 29) (.add (.rd (.arr .jac 29)) (.mul (.num 69581919558703875 16) (.sub (.mul (.rd (.var .jTemp)) (.num 92803892982949643 17)) (.mul (.num 71961070170503627 18) (.sub (.mul (.rd (.var .kf)) (.rd (.arr .C 8))) (.mul (.rd (.var .kr)) (.rd (.arr .C 7)))))))),
  .set (.arr .jac 51) (.add (.rd (.arr .jac 51)) (.mul (.neg (.num 13916383911740775 15)) (.sub (.mul (.rd (.var .jTemp)) (.num 96401946491474821 17)) (.mul (.num 35980535085251814 18) (.sub (.mul (.rd (.var .kf)) (.rd (.arr .C 8))) (.mul (.rd (.var .kr)) (.rd (.arr .C 7)))))))),
  .set (.arr .jac 50) (.add (.rd (.arr .jac 50)) (.mul (.num 13916383911740775 15) (.sub (.mul (.rd (.var .jTemp)) (.num 96401946491474821 17)) (.mul (.num 35980535085251814 18) (.sub (.mul (.rd (.var .kf)) (.rd (.arr .C 8))) (.mul (.rd (.var .kr)) (.rd (.arr .C 7)))))))),
  .set (.arr .jac 72) (.add (.rd (.arr .jac 72)) (.mul (.neg (.num 87671287673287746 17)) (.sub (.mul (.rd (.var .jTemp)) (.num 42886781649405936 17)) (.mul (.num 57113218350594064 17) (.sub (.mul (.rd (.var .kf)) (.rd (.arr .C 8))) (.mul (.rd (.var .kr)) (.rd (.arr .C 7)))))))),
  .set (.arr .jac 71) (.add (.rd (.arr .jac 71)) (.mul (.num 87671287673287746 17) (.sub (.mul (.rd (.var .jTemp)) (.num 42886781649405936 17)) (.mul (.num 57113218350594064 17) (.sub (.mul (.rd (.var .kf)) (.rd (.arr .C 8))) (.mul (.rd (.var .kr)) (.rd (.arr .C 7)))))))),
  .set (.arr .jac 93) (.add (.rd (.arr .jac 93)) (.mul (.neg (.num 43835643836643873 17)) (.sub (.mul (.rd (.var .jTemp)) (.neg (.num 14226436701188128 17))) (.mul (.num 11422643670118813 16) (.sub (.mul (.rd (.var .kf)) (.rd (.arr .C 8))) (.mul (.rd (.var .kr)) (.rd (.arr .C 7)))))))),
  .set (.arr .jac 92) (.add (.rd (.arr .jac 92)) (.mul (.num 43835643836643873 17) (.sub (.mul (.rd (.var .jTemp)) (.neg (.num 14226436701188128 17))) (.mul (.num 11422643670118813 16) (.sub (.mul (.rd (.var .kf)) (.rd (.arr .C 8))) (.mul (.rd (.var .kr)) (.rd (.arr .C 7)))))))),
  .set (.arr .jac 114) (.add (.rd (.arr .jac 114)) (.mul (.neg (.num 8247544883562038 16)) (.sub (.mul (.rd (.var .jTemp)) (.num 39288728140880758 17)) (.mul (.num 60711271859119242 17) (.sub (.mul (.rd (.var .kf)) (.rd (.arr .C 8))) (.mul (.rd (.var .kr)) (.rd (.arr .C 7)))))))),
  .set (.arr .jac 113) (.add (.rd (.arr .jac 113)) (.mul (.num 8247544883562038 16) (.sub (.mul (.rd (.var .jTemp)) (.num 39288728140880758 17)) (.mul (.num 60711271859119242 17) (.sub (.mul (.rd (.var .kf)) (.rd (.arr .C 8))) (.mul (.rd (.var .kr)) (.rd (.arr .C 7)))))))),
  .set (.arr .jac 135) (.add (.rd (.arr .jac 135)) (.mul (.neg (.num 77861015759954877 17)) (.sub (.mul (.rd (.var .jTemp)) (.num 35690674632355568 17)) (.mul (.num 64309325367644432 17) (.sub (.mul (.rd (.var .kf)) (.rd (.arr .C 8))) (.mul (.rd (.var .kr)) (.rd (.arr .C 7)))))))),
  .set (.arr .jac 134) (.add (.rd (.arr .jac 134)) (.mul (.num 77861015759954877 17) (.sub (.mul (.rd (.var .jTemp)) (.num 35690674632355568 17)) (.mul (.num 64309325367644432 17) (.sub (.mul (.rd (.var .kf)) (.rd (.arr .C 8))) (.mul (.rd (.var .kr)) (.rd (.arr .C 7)))))))),
  .set (.arr .jac 156) (.add (.rd (.arr .jac 156)) (.mul (.neg (.num 42497017275865467 17)) (.sub (.mul (.rd (.var .jTemp)) (.neg (.num 17824490209713328 17))) (.mul (.num 11782449020971333 16) (.sub (.mul (.rd (.var .kf)) (.rd (.arr .C 8))) (.mul (.rd (.var .kr)) (.rd (.arr .C 7)))))))),
  .set (.arr .jac 155) (.add (.rd (.arr .jac 155)) (.mul (.num 42497017275865467 17) (.sub (.mul (.rd (.var .jTemp)) (.neg (.num 17824490209713328 17))) (.mul (.num 11782449020971333 16) (.sub (.mul (.rd (.var .kf)) (.rd (.arr .C 8))) (.mul (.rd (.var .kr)) (.rd (.arr .C 7)))))))),
  .set (.arr .jac 177) (.add (.rd (.arr .jac 177)) (.neg (.sub (.sub (.mul (.rd (.var .jTemp)) (.num 49928106040377707 17)) (.mul (.rd (.var .kr)) (.rd (.arr .C 20)))) (.mul (.num 50071893959622293 17) (.sub (.mul (.rd (.var .kf)) (.rd (.arr .C 8))) (.mul (.rd (.var .kr)) (.rd (.arr .C 7)))))))),
  .set (.arr .jac 176) (.add (.rd (.arr .jac 176)) (.sub (.sub (.mul (.rd (.var .jTemp)) (.num 49928106040377707 17)) (.mul (.rd (.var .kr)) (.rd (.arr .C 20)))) (.mul (.num 50071893959622293 17) (.sub (.mul (.rd (.var .kf)) (.rd (.arr .C 8))) (.mul (.rd (.var .kr)) (.rd (.arr .C 7))))))),
  .set (.arr .jac 198) (.add (.rd (.arr .jac 198)) (.neg (.sub (.add (.mul (.rd (.var .jTemp)) (.num 49928106040377707 17)) (.mul (.rd (.var .kf)) (.rd (.arr .C 20)))) (.mul (.num 50071893959622293 17) (.sub (.mul (.rd (.var .kf)) (.rd (.arr .C 8))) (.mul (.rd (.var .kr)) (.rd (.arr .C 7)))))))),
  .set (.arr .jac 197) (.add (.rd (.arr .jac 197)) (.sub (.add (.mul (.rd (.var .jTemp)) (.num 49928106040377707 17)) (.mul (.rd (.var .kf)) (.rd (.arr .C 20)))) (.mul (.num 50071893959622293 17) (.sub (.mul (.rd (.var .kf)) (.rd (.arr .C 8))) (.mul (.rd (.var .kr)) (.rd (.arr .C 7))))))),
  .set (.arr .jac 219) (.add (.rd (.arr .jac 219)) (.mul (.neg (.num 93295962306166613 17)) (.sub (.mul (.rd (.var .jTemp)) (.num 46330052531852528 17)) (.mul (.num 53669947468147472 17) (.sub (.mul (.rd (.var .kf)) (.rd (.arr .C 8))) (.mul (.rd (.var .kr)) (.rd (.arr .C 7)))))))),
  .set (.arr .jac 218) (.add (.rd (.arr .jac 218)) (.mul (.num 93295962306166613 17) (.sub (.mul (.rd (.var .jTemp)) (.num 46330052531852528 17)) (.mul (.num 53669947468147472 17) (.sub (.mul (.rd (.var .kf)) (.rd (.arr .C 8))) (.mul (.rd (.var .kr)) (.rd (.arr .C 7)))))))),
  .set (.arr .jac 240) (.add (.rd (.arr .jac 240)) (.mul (.neg (.num 87434331748402383 17)) (.sub (.mul (.rd (.var .jTemp)) (.num 42731999023327338 17)) (.mul (.num 57268000976672662 17) (.sub (.mul (.rd (.var .kf)) (.rd (.arr .C 8))) (.mul (.rd (.var .kr)) (.rd (.arr .C 7)))))))),
  .set (.arr .jac 239) (.add (.rd (.arr .jac 239)) (.mul (.num 87434331748402383 17) (.sub (.mul (.rd (.var .jTemp)) (.num 42731999023327338 17)) (.mul (.num 57268000976672662 17) (.sub (.mul (.rd (.var .kf)) (.rd (.arr .C 8))) (.mul (.rd (.var .kr)) (.rd (.arr .C 7)))))))),
  .set (.arr .jac 261) (.add (.rd (.arr .jac 261)) (.mul (.neg (.num 50077399822922919 17)) (.sub (.mul (.rd (.var .jTemp)) (.num 10994706834011048 20)) (.mul (.num 99989005293165989 17) (.sub (.mul (.rd (.var .kf)) (.rd (.arr .C 8))) (.mul (.rd (.var .kr)) (.rd (.arr .C 7)))))))),
  .set (.arr .jac 260) (.add (.rd (.arr .jac 260)) (.mul (.num 50077399822922919 17) (.sub (.mul (.rd (.var .jTemp)) (.num 10994706834011048 20)) (.mul (.num 99989005293165989 17) (.sub (.mul (.rd (.var .kf)) (.rd (.arr .C 8))) (.mul (.rd (.var .kr)) (.rd (.arr .C 7)))))))),
  .set (.arr .jac 282) (.add (.rd (.arr .jac 282)) (.mul (.neg (.num 31872173924898545 17)) (.sub (.mul (.rd (.var .jTemp)) (.neg (.num 57102223643760053 17))) (.mul (.num 15710222364376005 16) (.sub (.mul (.rd (.var .kf)) (.rd (.arr .C 8))) (.mul (.rd (.var .kr)) (.rd (.arr .C 7)))))))),
  .set (.arr .jac 281) (.add (.rd (.arr .jac 281)) (.mul (.num 31872173924898545 17) (.sub (.mul (.rd (.var .jTemp)) (.neg (.num 57102223643760053 17))) (.mul (.num 15710222364376005 16) (.sub (.mul (.rd (.var .kf)) (.rd (.arr .C 8))) (.mul (.rd (.var .kr)) (.rd (.arr .C 7)))))))),
  .set (.arr .jac 303) (.add (.rd (.arr .jac 303)) (.mul (.neg (.num 48337982117516021 17)) (.sub (.mul (.rd (.var .jTemp)) (.neg (.num 35870588016911675 18))) (.mul (.num 10358705880169117 16) (.sub (.mul (.rd (.var .kf)) (.rd (.arr .C 8))) (.mul (.rd (.var .kr)) (.rd (.arr .C 7)))))))),
  .set (.arr .jac 302) (.add (.rd (.arr .jac 302)) (.mul (.num 48337982117516021 17) (.sub (.mul (.rd (.var .jTemp)) (.neg (.num 35870588016911675 18))) (.mul (.num 10358705880169117 16) (.sub (.mul (.rd (.var .kf)) (.rd (.arr .C 8))) (.mul (.rd (.var .kr)) (.rd (.arr .C 7)))))))),
  .set (.arr .jac 324) (.add (.rd (.arr .jac 324)) (.mul (.neg (.num 46715344025300498 17)) (.sub (.mul (.rd (.var .jTemp)) (.neg (.num 71851123102163683 18))) (.mul (.num 10718511231021637 16) (.sub (.mul (.rd (.var .kf)) (.rd (.arr .C 8))) (.mul (.rd (.var .kr)) (.rd (.arr .C 7)))))))),
  .set (.arr .jac 323) (.add (.rd (.arr .jac 323)) (.mul (.num 46715344025300498 17) (.sub (.mul (.rd (.var .jTemp)) (.neg (.num 71851123102163683 18))) (.mul (.num 10718511231021637 16) (.sub (.mul (.rd (.var .kf)) (.rd (.arr .C 8))) (.mul (.rd (.var .kr)) (.rd (.arr .C 7)))))))),
  .set (.arr .jac 345) (.add (.rd (.arr .jac 345)) (.mul (.neg (.num 45198107121751407 17)) (.sub (.mul (.rd (.var .jTemp)) (.neg (.num 10783165818741525 17))) (.mul (.num 11078316581874152 16) (.sub (.mul (.rd (.var .kf)) (.rd (.arr .C 8))) (.mul (.rd (.var .kr)) (.rd (.arr .C 7)))))))),
  .set (.arr .jac 344) (.add (.rd (.arr .jac 344)) (.mul (.num 45198107121751407 17) (.sub (.mul (.rd (.var .jTemp)) (.neg (.num 10783165818741525 17))) (.mul (.num 11078316581874152 16) (.sub (.mul (.rd (.var .kf)) (.rd (.arr .C 8))) (.mul (.rd (.var .kr)) (.rd (.arr .C 7)))))))),
  .set (.arr .jac 366) (.add (.rd (.arr .jac 366)) (.mul (.neg (.num 5 1)) (.sub (.mul (.rd (.var .jTemp)) (.neg (.num 14378791924458678 19))) (.mul (.num 10014378791924459 16) (.sub (.mul (.rd (.var .kf)) (.rd (.arr .C 8))) (.mul (.rd (.var .kr)) (.rd (.arr .C 7)))))))),
  .set (.arr .jac 365) (.add (.rd (.arr .jac 365)) (.mul (.num 5 1) (.sub (.mul (.rd (.var .jTemp)) (.neg (.num 14378791924458678 19))) (.mul (.num 10014378791924459 16) (.sub (.mul (.rd (.var .kf)) (.rd (.arr .C 8))) (.mul (.rd (.var .kr)) (.rd (.arr .C 7)))))))),
  .set (.arr .jac 387) (.add (.rd (.arr .jac 387)) (.mul (.neg (.num 48265861942006144 17)) (.sub (.mul (.rd (.var .jTemp)) (.neg (.num 37418414277697654 18))) (.mul (.num 10374184142776977 16) (.sub (.mul (.rd (.var .kf)) (.rd (.arr .C 8))) (.mul (.rd (.var .kr)) (.rd (.arr .C 7)))))))),
  .set (.arr .jac 386) (.add (.rd (.arr .jac 386)) (.mul (.num 48265861942006144 17) (.sub (.mul (.rd (.var .jTemp)) (.neg (.num 37418414277697654 18))) (.mul (.num 10374184142776977 16) (.sub (.mul (.rd (.var .kf)) (.rd (.arr .C 8))) (.mul (.rd (.var .kr)) (.rd (.arr .C 7)))))))),
  .set (.arr .jac 408) (.add (.rd (.arr .jac 408)) (.mul (.neg (.num 46647981153083307 17)) (.sub (.mul (.rd (.var .jTemp)) (.neg (.num 73398949362949439 18))) (.mul (.num 10733989493629494 16) (.sub (.mul (.rd (.var .kf)) (.rd (.arr .C 8))) (.mul (.rd (.var .kr)) (.rd (.arr .C 7)))))))),
  .set (.arr .jac 407) (.add (.rd (.arr .jac 407)) (.mul (.num 46647981153083307 17) (.sub (.mul (.rd (.var .jTemp)) (.neg (.num 73398949362949439 18))) (.mul (.num 10733989493629494 16) (.sub (.mul (.rd (.var .kf)) (.rd (.arr .C 8))) (.mul (.rd (.var .kr)) (.rd (.arr .C 7)))))))),
  .set (.arr .jac 429) (.add (.rd (.arr .jac 429)) (.mul (.neg (.num 3511284670071092 16)) (.sub (.mul (.rd (.var .jTemp)) (.neg (.num 42602775520927771 17))) (.mul (.num 14260277552092777 16) (.sub (.mul (.rd (.var .kf)) (.rd (.arr .C 8))) (.mul (.rd (.var .kr)) (.rd (.arr .C 7)))))))),
  .set (.arr .jac 428) (.add (.rd (.arr .jac 428)) (.mul (.num 3511284670071092 16) (.sub (.mul (.rd (.var .jTemp)) (.neg (.num 42602775520927771 17))) (.mul (.num 14260277552092777 16) (.sub (.mul (.rd (.var .kf)) (.rd (.arr .C 8))) (.mul (.rd (.var .kr)) (.rd (.arr .C 7))))))))]

/-- utilities/mechanisms/drm19/lib/src/jacobs/jacob_1.c:2099-2103 -/
def jacobT62 : List CStmt := [
  .set (.var .jTemp) (.mul (.mul (.div (.num 1 0) (.rd (.var .T))) (.sub (.add (.mul (.sub (.rd (.arr .fwd 62)) (.rd (.arr .rev 62))) (.div (.num 30193173891549759 14) (.rd (.var .T)))) (.mul (.rd (.arr .fwd 62)) (.neg (.num 1 0)))) (.mul (.rd (.arr .rev 62)) (.add (.neg (.num 1 0)) (.mul (.neg (.rd (.var .T))) (.sub (.rd (.arr .dBdT 7)) (.rd (.arr .dBdT 8)))))))) (.rd (.var .rhoInv))),
  .set (.arr .jac 9) (.add (.rd (.arr .jac 9)) (.mul (.neg (.rd (.var .jTemp))) (.num 14026879999999998 15))),
  .set (.arr .jac 8) (.add (.rd (.arr .jac 8)) (.mul (.rd (.var .jTemp)) (.num 14026879999999998 15)))]

/-- utilities/mechanisms/drm19/lib/src/jacobs/jacob_1.c:2104-2155 -/
def jacobS62 : List CStmt := [
  .ite (.rd (.var .T)) (.num 1000 0) (.var .Kc) (.sub (.add (.add (.num 27675762569999995 16) (.mul (.neg (.num 43592543999999966 17)) (.rd (.var .logT)))) (.mul (.rd (.var .T)) (.add (.num 16677431665000002 19) (.mul (.rd (.var .T)) (.add (.neg (.num 90634396499999983 23)) (.mul (.rd (.var .T)) (.add (.num 23643735666666669 26) (.mul (.neg (.num 12786509000000005 30)) (.rd (.var .T)))))))))) (.div (.neg (.num 44927762000000002 13)) (.rd (.var .T)))) (.sub (.add (.add (.neg (.num 30373711599999997 16)) (.mul (.num 58206271000000021 17) (.rd (.var .logT)))) (.mul (.rd (.var .T)) (.add (.neg (.num 49974672500000005 20)) (.mul (.rd (.var .T)) (.add (.num 10049558333333332 23) (.mul (.rd (.var .T)) (.add (.neg (.num 13143870916666673 27)) (.mul (.num 75994398999999995 32) (.rd (.var .T)))))))))) (.div (.neg (.num 46623957000000009 13)) (.rd (.var .T)))),
  .set (.var .Kc) (.exp (.rd (.var .Kc))),
  .set (.var .jTemp) (.mul (.mul (.neg (.rd (.var .mwAvg))) (.rd (.var .rhoInv))) (.sub (.mul (.num 2 0) (.rd (.arr .fwd 62))) (.mul (.num 2 0) (.rd (.arr .rev 62))))),
  .set (.var .kf) (.exp (.sub (.num 22920490414282632 15) (.div (.num 30193173891549759 14) (.rd (.var .T))))),
  .set (.var .kr) (.div (.rd (.var .kf)) (.rd (.var .Kc))),
  .set (.arr .jac 30) (.add (.rd (.arr .jac 30)) (.mul (.neg (.num 69581919558703875 16)) (.mul (.rd (.var .jTemp)) (.num 92803892982949643 17)))),
  .set (.arr .jac 29) (.add (.rd (.arr .jac 29)) (.mul (.num 69581919558703875 16) (.mul (.rd (.var .jTemp)) (.num 92803892982949643 17)))),
  .set (.arr .jac 51) (.add (.rd (.arr .jac 51)) (.mul (.neg (.num 13916383911740775 15)) (.mul (.rd (.var .jTemp)) (.num 96401946491474821 17)))),
  .set (.arr .jac 50) (.add (.rd (.arr .jac 50)) (.mul (.num 13916383911740775 15) (.mul (.rd (.var .jTemp)) (.num 96401946491474821 17)))),
  .set (.arr .jac 72) (.add (.rd (.arr .jac 72)) (.mul (.neg (.num 87671287673287746 17)) (.mul (.rd (.var .jTemp)) (.num 42886781649405936 17)))),
  .set (.arr .jac 71) (.add (.rd (.arr .jac 71)) (.mul (.num 87671287673287746 17) (.mul (.rd (.var .jTemp)) (.num 42886781649405936 17)))),
  .set (.arr .jac 93) (.add (.rd (.arr .jac 93)) (.mul (.neg (.num 43835643836643873 17)) (.mul (.rd (.var .jTemp)) (.neg (.num 14226436701188128 17))))),
  .set (.arr .jac 92) (.add (.rd (.arr .jac 92)) (.mul (.num 43835643836643873 17) (.mul (.rd (.var .jTemp)) (.neg (.num 14226436701188128 17))))),
  .set (.arr .jac 114) (.add (.rd (.arr .jac 114)) (.mul (.neg (.num 8247544883562038 16)) (.mul (.rd (.var .jTemp)) (.num 39288728140880758 17)))),
  .set (.arr .jac 113) (.add (.rd (.arr .jac 113)) (.mul (.num 8247544883562038 16) (.mul (.rd (.var .jTemp)) (.num 39288728140880758 17)))),
  .set (.arr .jac 135) (.add (.rd (.arr .jac 135)) (.mul (.neg (.num 77861015759954877 17)) (.mul (.rd (.var .jTemp)) (.num 35690674632355568 17)))),
  .set (.arr .jac 134) (.add (.rd (.arr .jac 134)) (.mul (.num 77861015759954877 17) (.mul (.rd (.var .jTemp)) (.num 35690674632355568 17)))),
  .set (.arr .jac 156) (.add (.rd (.arr .jac 156)) (.mul (.neg (.num 42497017275865467 17)) (.mul (.rd (.var .jTemp)) (.neg (.num 17824490209713328 17))))),
  .set (.arr .jac 155) (.add (.rd (.arr .jac 155)) (.mul (.num 42497017275865467 17) (.mul (.rd (.var .jTemp)) (.neg (.num 17824490209713328 17))))),
  .set (.arr .jac 177) (.add (.rd (.arr .jac 177)) (.neg (.sub (.mul (.rd (.var .jTemp)) (.num 49928106040377707 17)) (.mul (.rd (.var .kr)) (.rd (.arr .C 19)))))),
  .set (.arr .jac 176) (.add (.rd (.arr .jac 176)) (.sub (.mul (.rd (.var .jTemp)) (.num 49928106040377707 17)) (.mul (.rd (.var .kr)) (.rd (.arr .C 19))))),
  .set (.arr .jac 198) (.add (.rd (.arr .jac 198)) (.neg (.add (.mul (.rd (.var .jTemp)) (.num 49928106040377707 17)) (.mul (.rd (.var .kf)) (.rd (.arr .C 19)))))),
  .set (.arr .jac 197) (.add (.rd (.arr .jac 197)) (.add (.mul (.rd (.var .jTemp)) (.num 49928106040377707 17)) (.mul (.rd (.var .kf)) (.rd (.arr .C 19))))),
  .set (.arr .jac 219) (.add (.rd (.arr .jac 219)) (.mul (.neg (.num 93295962306166613 17)) (.mul (.rd (.var .jTemp)) (.num 46330052531852528 17)))),
  .set (.arr .jac 218) (.add (.rd (.arr .jac 218)) (.mul (.num 93295962306166613 17) (.mul (.rd (.var .jTemp)) (.num 46330052531852528 17)))),
  .set (.arr .jac 240) (.add (.rd (.arr .jac 240)) (.mul (.neg (.num 87434331748402383 17)) (.mul (.rd (.var .jTemp)) (.num 42731999023327338 17)))),
  .set (.arr .jac 239) (.add (.rd (.arr .jac 239)) (.mul (.num 87434331748402383 17) (.mul (.rd (.var .jTemp)) (.num 42731999023327338 17)))),
  .set (.arr .jac 261) (.add (.rd (.arr .jac 261)) (.mul (.neg (.num 50077399822922919 17)) (.mul (.rd (.var .jTemp)) (.num 10994706834011048 20)))),
  .set (.arr .jac 260) (.add (.rd (.arr .jac 260)) (.mul (.num 50077399822922919 17) (.mul (.rd (.var .jTemp)) (.num 10994706834011048 20)))),
  .set (.arr .jac 282) (.add (.rd (.arr .jac 282)) (.mul (.neg (.num 31872173924898545 17)) (.mul (.rd (.var .jTemp)) (.neg (.num 57102223643760053 17))))),
  .set (.arr .jac 281) (.add (.rd (.arr .jac 281)) (.mul (.num 31872173924898545 17) (.mul (.rd (.var .jTemp)) (.neg (.num 57102223643760053 17))))),
  .set (.arr .jac 303) (.add (.rd (.arr .jac 303)) (.mul (.neg (.num 48337982117516021 17)) (.mul (.rd (.var .jTemp)) (.neg (.num 35870588016911675 18))))),
  .set (.arr .jac 302) (.add (.rd (.arr .jac 302)) (.mul (.num 48337982117516021 17) (.mul (.rd (.var .jTemp)) (.neg (.num 35870588016911675 18))))),
  .set (.arr .jac 324) (.add (.rd (.arr .jac 324)) (.mul (.neg (.num 46715344025300498 17)) (.mul (.rd (.var .jTemp)) (.neg (.num 71851123102163683 18))))),
  .set (.arr .jac 323) (.add (.rd (.arr .jac 323)) (.mul (.num 46715344025300498 17) (.mul (.rd (.var .jTemp)) (.neg (.num 71851123102163683 18))))),
  .set (.arr .jac 345) (.add (.rd (.arr .jac 345)) (.mul (.neg (.num 45198107121751407 17)) (.mul (.rd (.var .jTemp)) (.neg (.num 10783165818741525 17))))),
  .set (.arr .jac 344) (.add (.rd (.arr .jac 344)) (.mul (.num 45198107121751407 17) (.mul (.rd (.var .jTemp)) (.neg (.num 10783165818741525 17))))),
  .set (.arr .jac 366) (.add (.rd (.arr .jac 366)) (.mul (.neg (.num 5 1)) (.mul (.rd (.var .jTemp)) (.neg (.num 14378791924458678 19))))),
  .set (.arr .jac 365) (.add (.rd (.arr .jac 365)) (.mul (.num 5 1) (.mul (.rd (.var .jTemp)) (.neg (.num 14378791924458678 19))))),
  .set (.arr .jac 387) (.add (.rd (.arr .jac 387)) (.mul (.neg (.num 48265861942006144 17)) (.mul (.rd (.var .jTemp)) (.neg (.num 37418414277697654 18))))),
  .set (.arr .jac 386) (.add (.rd (.arr .jac 386)) (.mul (.num 48265861942006144 17) (.mul (.rd (.var .jTemp)) (.neg (.num 37418414277697654 18))))),
  .set (.arr .jac 408) (.add (.rd (.arr .jac 408)) (.mul (.neg (.num 46647981153083307 17)) (.mul (.rd (.var .jTemp)) (.neg (.num 73398949362949439 18))))),
  .set (.arr .jac 407) (.add (.rd (.arr .jac 407)) (.mul (.num 46647981153083307 17) (.mul (.rd (.var .jTemp)) (.neg (.num 73398949362949439 18))))),
  .set (.arr .jac 429) (.add (.rd (.arr .jac 429)) (.mul (.neg (.num 3511284670071092 16)) (.sub (.add (.mul (.rd (.var .jTemp)) (.neg (.num 42602775520927771 17))) (.mul (.rd (.var .kf)) (.rd (.arr .C 8)))) (.mul (.rd (.var .kr)) (.rd (.arr .C 7)))))),
  .set (.arr .jac 428) (.add (.rd (.arr .jac 428)) (.mul (.num 3511284670071092 16) (.sub (.add (.mul (.rd (.var .jTemp)) (.neg (.num 42602775520927771 17))) (.mul (.rd (.var .kf)) (.rd (.arr .C 8)))) (.mul (.rd (.var .kr)) (.rd (.arr .C 7))))))]

/-- utilities/mechanisms/drm19/lib/src/jacobs/jacob_1.c:2156-2163 -/
def jacobT63 : List CStmt := [
  .set (.var .jTemp) (.mul (.mul (.div (.num 1 0) (.rd (.var .T))) (.sub (.mul (.rd (.arr .fwd 63)) (.neg (.num 1 0))) (.mul (.rd (.arr .rev 63)) (.add (.neg (.num 2 0)) (.mul (.neg (.rd (.var .T))) (.sub (.sub (.add (.add (.rd (.arr .dBdT 1)) (.rd (.arr .dBdT 11))) (.rd (.arr .dBdT 4))) (.rd (.arr .dBdT 8))) (.rd (.arr .dBdT 3)))))))) (.rd (.var .rhoInv))),
  .set (.arr .jac 9) (.add (.rd (.arr .jac 9)) (.mul (.neg (.rd (.var .jTemp))) (.num 14026879999999998 15))),
  .set (.arr .jac 2) (.add (.rd (.arr .jac 2)) (.mul (.rd (.var .jTemp)) (.num 10079400000000001 16))),
  .set (.arr .jac 4) (.add (.rd (.arr .jac 4)) (.mul (.neg (.rd (.var .jTemp))) (.num 31998799999999999 15))),
  .set (.arr .jac 5) (.add (.rd (.arr .jac 5)) (.mul (.rd (.var .jTemp)) (.num 17007339999999999 15))),
  .set (.arr .jac 12) (.add (.rd (.arr .jac 12)) (.mul (.rd (.var .jTemp)) (.num 28010399999999997 15)))]

/-- utilities/mechanisms/drm19/lib/src/jacobs/jacob_1.c:2164-2275 -/
def jacobS63 : List CStmt := [
  .ite (.rd (.var .T)) (.num 1000 0) (.var .Kc) (.sub (.add (.add (.neg (.num 20212442240000006 16)) (.mul (.num 10904884300000006 16) (.rd (.var .logT)))) (.mul (.rd (.var .T)) (.add (.num 11758385753526666 19) (.mul (.rd (.var .T)) (.add (.neg (.num 20742519119993197 22)) (.mul (.rd (.var .T)) (.add (.num 11162772880250679 25) (.mul (.neg (.num 23635927699638658 29)) (.rd (.var .T)))))))))) (.div (.neg (.num 34688218280000001 12)) (.rd (.var .T)))) (.sub (.add (.add (.neg (.num 49645291039999995 16)) (.mul (.num 17334970300000001 16) (.rd (.var .logT)))) (.mul (.rd (.var .T)) (.add (.neg (.num 17640083935421484 19)) (.mul (.rd (.var .T)) (.add (.num 3162609353593658 22) (.mul (.rd (.var .T)) (.add (.neg (.num 40439142277929365 27)) (.mul (.num 23509941199098679 31) (.rd (.var .T)))))))))) (.div (.neg (.num 34657097480000004 12)) (.rd (.var .T)))),
  .set (.var .Kc) (.mul (.num 12186597134166982 15) (.exp (.rd (.var .Kc)))),
  .set (.var .jTemp) (.mul (.mul (.neg (.rd (.var .mwAvg))) (.rd (.var .rhoInv))) (.sub (.mul (.num 2 0) (.rd (.arr .fwd 63))) (.mul (.num 3 0) (.rd (.arr .rev 63))))),
  .set (.var .kf) (.num 28000000000 0),
  .set (.var .kr) (.div (.rd (.var .kf)) (.rd (.var .Kc))),
  .set (.arr .jac 30) (.add (.rd (.arr .jac 30)) (.mul (.neg (.num 69581919558703875 16)) (.mul (.rd (.var .jTemp)) (.num 92803892982949643 17)))),
  .set (.arr .jac 23) (.add (.rd (.arr .jac 23)) (.mul (.num 5 1) (.mul (.rd (.var .jTemp)) (.num 92803892982949643 17)))),
  .set (.arr .jac 25) (.add (.rd (.arr .jac 25)) (.mul (.neg (.num 15873365478103855 15)) (.mul (.rd (.var .jTemp)) (.num 92803892982949643 17)))),
  .set (.arr .jac 26) (.add (.rd (.arr .jac 26)) (.mul (.num 84366827390519266 16) (.mul (.rd (.var .jTemp)) (.num 92803892982949643 17)))),
  .set (.arr .jac 33) (.add (.rd (.arr .jac 33)) (.mul (.num 13894874694922315 15) (.mul (.rd (.var .jTemp)) (.num 92803892982949643 17)))),
  .set (.arr .jac 51) (.add (.rd (.arr .jac 51)) (.mul (.neg (.num 13916383911740775 15)) (.sub (.mul (.rd (.var .jTemp)) (.num 96401946491474821 17)) (.mul (.mul (.rd (.var .kr)) (.rd (.arr .C 11))) (.rd (.arr .C 4)))))),
  .set (.arr .jac 44) (.add (.rd (.arr .jac 44)) (.sub (.mul (.rd (.var .jTemp)) (.num 96401946491474821 17)) (.mul (.mul (.rd (.var .kr)) (.rd (.arr .C 11))) (.rd (.arr .C 4))))),
  .set (.arr .jac 46) (.add (.rd (.arr .jac 46)) (.mul (.neg (.num 3174673095620771 14)) (.sub (.mul (.rd (.var .jTemp)) (.num 96401946491474821 17)) (.mul (.mul (.rd (.var .kr)) (.rd (.arr .C 11))) (.rd (.arr .C 4)))))),
  .set (.arr .jac 47) (.add (.rd (.arr .jac 47)) (.mul (.num 16873365478103853 15) (.sub (.mul (.rd (.var .jTemp)) (.num 96401946491474821 17)) (.mul (.mul (.rd (.var .kr)) (.rd (.arr .C 11))) (.rd (.arr .C 4)))))),
  .set (.arr .jac 54) (.add (.rd (.arr .jac 54)) (.mul (.num 2778974938984463 14) (.sub (.mul (.rd (.var .jTemp)) (.num 96401946491474821 17)) (.mul (.mul (.rd (.var .kr)) (.rd (.arr .C 11))) (.rd (.arr .C 4)))))),
  .set (.arr .jac 72) (.add (.rd (.arr .jac 72)) (.mul (.neg (.num 87671287673287746 17)) (.mul (.rd (.var .jTemp)) (.num 42886781649405936 17)))),
  .set (.arr .jac 65) (.add (.rd (.arr .jac 65)) (.mul (.num 62998612447966798 18) (.mul (.rd (.var .jTemp)) (.num 42886781649405936 17)))),
  .set (.arr .jac 67) (.add (.rd (.arr .jac 67)) (.mul (.neg (.num 2 0)) (.mul (.rd (.var .jTemp)) (.num 42886781649405936 17)))),
  .set (.arr .jac 68) (.add (.rd (.arr .jac 68)) (.mul (.num 10629986124479667 16) (.mul (.rd (.var .jTemp)) (.num 42886781649405936 17)))),
  .set (.arr .jac 75) (.add (.rd (.arr .jac 75)) (.mul (.num 17507156518369438 16) (.mul (.rd (.var .jTemp)) (.num 42886781649405936 17)))),
  .set (.arr .jac 93) (.add (.rd (.arr .jac 93)) (.mul (.neg (.num 43835643836643873 17)) (.add (.mul (.rd (.var .jTemp)) (.neg (.num 14226436701188128 17))) (.mul (.rd (.var .kf)) (.rd (.arr .C 8)))))),
  .set (.arr .jac 86) (.add (.rd (.arr .jac 86)) (.mul (.num 31499306223983399 18) (.add (.mul (.rd (.var .jTemp)) (.neg (.num 14226436701188128 17))) (.mul (.rd (.var .kf)) (.rd (.arr .C 8)))))),
  .set (.arr .jac 88) (.add (.rd (.arr .jac 88)) (.neg (.add (.mul (.rd (.var .jTemp)) (.neg (.num 14226436701188128 17))) (.mul (.rd (.var .kf)) (.rd (.arr .C 8)))))),
  .set (.arr .jac 89) (.add (.rd (.arr .jac 89)) (.mul (.num 53149930622398334 17) (.add (.mul (.rd (.var .jTemp)) (.neg (.num 14226436701188128 17))) (.mul (.rd (.var .kf)) (.rd (.arr .C 8)))))),
  .set (.arr .jac 96) (.add (.rd (.arr .jac 96)) (.mul (.num 87535782591847189 17) (.add (.mul (.rd (.var .jTemp)) (.neg (.num 14226436701188128 17))) (.mul (.rd (.var .kf)) (.rd (.arr .C 8)))))),
  .set (.arr .jac 114) (.add (.rd (.arr .jac 114)) (.mul (.neg (.num 8247544883562038 16)) (.sub (.mul (.rd (.var .jTemp)) (.num 39288728140880758 17)) (.mul (.mul (.rd (.var .kr)) (.rd (.arr .C 1))) (.rd (.arr .C 11)))))),
  .set (.arr .jac 107) (.add (.rd (.arr .jac 107)) (.mul (.num 59264999700129481 18) (.sub (.mul (.rd (.var .jTemp)) (.num 39288728140880758 17)) (.mul (.mul (.rd (.var .kr)) (.rd (.arr .C 1))) (.rd (.arr .C 11)))))),
  .set (.arr .jac 109) (.add (.rd (.arr .jac 109)) (.mul (.neg (.num 18814700005997411 16)) (.sub (.mul (.rd (.var .jTemp)) (.num 39288728140880758 17)) (.mul (.mul (.rd (.var .kr)) (.rd (.arr .C 1))) (.rd (.arr .C 11)))))),
  .set (.arr .jac 110) (.add (.rd (.arr .jac 110)) (.sub (.mul (.rd (.var .jTemp)) (.num 39288728140880758 17)) (.mul (.mul (.rd (.var .kr)) (.rd (.arr .C 1))) (.rd (.arr .C 11))))),
  .set (.arr .jac 117) (.add (.rd (.arr .jac 117)) (.mul (.num 16469594892558153 16) (.sub (.mul (.rd (.var .jTemp)) (.num 39288728140880758 17)) (.mul (.mul (.rd (.var .kr)) (.rd (.arr .C 1))) (.rd (.arr .C 11)))))),
  .set (.arr .jac 135) (.add (.rd (.arr .jac 135)) (.mul (.neg (.num 77861015759954877 17)) (.mul (.rd (.var .jTemp)) (.num 35690674632355568 17)))),
  .set (.arr .jac 128) (.add (.rd (.arr .jac 128)) (.mul (.num 55949172036182618 18) (.mul (.rd (.var .jTemp)) (.num 35690674632355568 17)))),
  .set (.arr .jac 130) (.add (.rd (.arr .jac 130)) (.mul (.neg (.num 17762033118552694 16)) (.mul (.rd (.var .jTemp)) (.num 35690674632355568 17)))),
  .set (.arr .jac 131) (.add (.rd (.arr .jac 131)) (.mul (.num 94405082796381734 17) (.mul (.rd (.var .jTemp)) (.num 35690674632355568 17)))),
  .set (.arr .jac 138) (.add (.rd (.arr .jac 138)) (.mul (.num 15548134694548181 16) (.mul (.rd (.var .jTemp)) (.num 35690674632355568 17)))),
  .set (.arr .jac 156) (.add (.rd (.arr .jac 156)) (.mul (.neg (.num 42497017275865467 17)) (.mul (.rd (.var .jTemp)) (.neg (.num 17824490209713328 17))))),
  .set (.arr .jac 149) (.add (.rd (.arr .jac 149)) (.mul (.num 3053739933116691 17) (.mul (.rd (.var .jTemp)) (.neg (.num 17824490209713328 17))))),
  .set (.arr .jac 151) (.add (.rd (.arr .jac 151)) (.mul (.neg (.num 96946260066883305 17)) (.mul (.rd (.var .jTemp)) (.neg (.num 17824490209713328 17))))),
  .set (.arr .jac 152) (.add (.rd (.arr .jac 152)) (.mul (.num 51526869966558342 17) (.mul (.rd (.var .jTemp)) (.neg (.num 17824490209713328 17))))),
  .set (.arr .jac 159) (.add (.rd (.arr .jac 159)) (.mul (.num 84862667443073736 17) (.mul (.rd (.var .jTemp)) (.neg (.num 17824490209713328 17))))),
  .set (.arr .jac 177) (.add (.rd (.arr .jac 177)) (.neg (.mul (.rd (.var .jTemp)) (.num 49928106040377707 17)))),
  .set (.arr .jac 170) (.add (.rd (.arr .jac 170)) (.mul (.num 71857747410685777 18) (.mul (.rd (.var .jTemp)) (.num 49928106040377707 17)))),
  .set (.arr .jac 172) (.add (.rd (.arr .jac 172)) (.mul (.neg (.num 22812485741661725 16)) (.mul (.rd (.var .jTemp)) (.num 49928106040377707 17)))),
  .set (.arr .jac 173) (.add (.rd (.arr .jac 173)) (.mul (.num 12124820344937721 16) (.mul (.rd (.var .jTemp)) (.num 49928106040377707 17)))),
  .set (.arr .jac 180) (.add (.rd (.arr .jac 180)) (.mul (.num 19969087922617146 16) (.mul (.rd (.var .jTemp)) (.num 49928106040377707 17)))),
  .set (.arr .jac 198) (.add (.rd (.arr .jac 198)) (.neg (.add (.mul (.rd (.var .jTemp)) (.num 49928106040377707 17)) (.mul (.rd (.var .kf)) (.rd (.arr .C 3)))))),
  .set (.arr .jac 191) (.add (.rd (.arr .jac 191)) (.mul (.num 71857747410685777 18) (.add (.mul (.rd (.var .jTemp)) (.num 49928106040377707 17)) (.mul (.rd (.var .kf)) (.rd (.arr .C 3)))))),
  .set (.arr .jac 193) (.add (.rd (.arr .jac 193)) (.mul (.neg (.num 22812485741661725 16)) (.add (.mul (.rd (.var .jTemp)) (.num 49928106040377707 17)) (.mul (.rd (.var .kf)) (.rd (.arr .C 3)))))),
  .set (.arr .jac 194) (.add (.rd (.arr .jac 194)) (.mul (.num 12124820344937721 16) (.add (.mul (.rd (.var .jTemp)) (.num 49928106040377707 17)) (.mul (.rd (.var .kf)) (.rd (.arr .C 3)))))),
  .set (.arr .jac 201) (.add (.rd (.arr .jac 201)) (.mul (.num 19969087922617146 16) (.add (.mul (.rd (.var .jTemp)) (.num 49928106040377707 17)) (.mul (.rd (.var .kf)) (.rd (.arr .C 3)))))),
  .set (.arr .jac 219) (.add (.rd (.arr .jac 219)) (.mul (.neg (.num 93295962306166613 17)) (.mul (.rd (.var .jTemp)) (.num 46330052531852528 17)))),
  .set (.arr .jac 212) (.add (.rd (.arr .jac 212)) (.mul (.num 67040376938333812 18) (.mul (.rd (.var .jTemp)) (.num 46330052531852528 17)))),
  .set (.arr .jac 214) (.add (.rd (.arr .jac 214)) (.mul (.neg (.num 21283128098640356 16)) (.mul (.rd (.var .jTemp)) (.num 46330052531852528 17)))),
  .set (.arr .jac 215) (.add (.rd (.arr .jac 215)) (.mul (.num 11311967818703517 16) (.mul (.rd (.var .jTemp)) (.num 46330052531852528 17)))),
  .set (.arr .jac 222) (.add (.rd (.arr .jac 222)) (.mul (.num 18630352741170162 16) (.mul (.rd (.var .jTemp)) (.num 46330052531852528 17)))),
  .set (.arr .jac 240) (.add (.rd (.arr .jac 240)) (.mul (.neg (.num 87434331748402383 17)) (.mul (.rd (.var .jTemp)) (.num 42731999023327338 17)))),
  .set (.arr .jac 233) (.add (.rd (.arr .jac 233)) (.mul (.num 6282834125798803 17) (.mul (.rd (.var .jTemp)) (.num 42731999023327338 17)))),
  .set (.arr .jac 235) (.add (.rd (.arr .jac 235)) (.mul (.neg (.num 19945944463421503 16)) (.mul (.rd (.var .jTemp)) (.num 42731999023327338 17)))),
  .set (.arr .jac 236) (.add (.rd (.arr .jac 236)) (.mul (.num 10601255644290632 16) (.mul (.rd (.var .jTemp)) (.num 42731999023327338 17)))),
  .set (.arr .jac 243) (.add (.rd (.arr .jac 243)) (.mul (.num 17459838581391229 16) (.mul (.rd (.var .jTemp)) (.num 42731999023327338 17)))),
  .set (.arr .jac 261) (.add (.rd (.arr .jac 261)) (.mul (.neg (.num 50077399822922919 17)) (.sub (.mul (.rd (.var .jTemp)) (.num 10994706834011048 20)) (.mul (.mul (.rd (.var .kr)) (.rd (.arr .C 1))) (.rd (.arr .C 4)))))),
  .set (.arr .jac 254) (.add (.rd (.arr .jac 254)) (.mul (.num 35984491474595155 18) (.sub (.mul (.rd (.var .jTemp)) (.num 10994706834011048 20)) (.mul (.mul (.rd (.var .kr)) (.rd (.arr .C 1))) (.rd (.arr .C 4)))))),
  .set (.arr .jac 256) (.add (.rd (.arr .jac 256)) (.mul (.neg (.num 11423899694399224 16)) (.sub (.mul (.rd (.var .jTemp)) (.num 10994706834011048 20)) (.mul (.mul (.rd (.var .kr)) (.rd (.arr .C 1))) (.rd (.arr .C 4)))))),
  .set (.arr .jac 257) (.add (.rd (.arr .jac 257)) (.mul (.num 60717947619455637 17) (.sub (.mul (.rd (.var .jTemp)) (.num 10994706834011048 20)) (.mul (.mul (.rd (.var .kr)) (.rd (.arr .C 1))) (.rd (.arr .C 4)))))),
  .set (.arr .jac 264) (.add (.rd (.arr .jac 264)) (.sub (.mul (.rd (.var .jTemp)) (.num 10994706834011048 20)) (.mul (.mul (.rd (.var .kr)) (.rd (.arr .C 1))) (.rd (.arr .C 4))))),
  .set (.arr .jac 282) (.add (.rd (.arr .jac 282)) (.mul (.neg (.num 31872173924898545 17)) (.mul (.rd (.var .jTemp)) (.neg (.num 57102223643760053 17))))),
  .set (.arr .jac 275) (.add (.rd (.arr .jac 275)) (.mul (.num 22902626233248052 18) (.mul (.rd (.var .jTemp)) (.neg (.num 57102223643760053 17))))),
  .set (.arr .jac 277) (.add (.rd (.arr .jac 277)) (.mul (.neg (.num 72708351321751064 17)) (.mul (.rd (.var .jTemp)) (.neg (.num 57102223643760053 17))))),
  .set (.arr .jac 278) (.add (.rd (.arr .jac 278)) (.mul (.num 38644438284200339 17) (.mul (.rd (.var .jTemp)) (.neg (.num 57102223643760053 17))))),
  .set (.arr .jac 285) (.add (.rd (.arr .jac 285)) (.mul (.num 63645824339124468 17) (.mul (.rd (.var .jTemp)) (.neg (.num 57102223643760053 17))))),
  .set (.arr .jac 303) (.add (.rd (.arr .jac 303)) (.mul (.neg (.num 48337982117516021 17)) (.mul (.rd (.var .jTemp)) (.neg (.num 35870588016911675 18))))),
  .set (.arr .jac 296) (.add (.rd (.arr .jac 296)) (.mul (.num 34734585093427126 18) (.mul (.rd (.var .jTemp)) (.neg (.num 35870588016911675 18))))),
  .set (.arr .jac 298) (.add (.rd (.arr .jac 298)) (.mul (.neg (.num 11027095278365338 16)) (.mul (.rd (.var .jTemp)) (.neg (.num 35870588016911675 18))))),
  .set (.arr .jac 299) (.add (.rd (.arr .jac 299)) (.mul (.num 58608934901169396 17) (.mul (.rd (.var .jTemp)) (.neg (.num 35870588016911675 18))))),
  .set (.arr .jac 306) (.add (.rd (.arr .jac 306)) (.mul (.num 96526541490657281 17) (.mul (.rd (.var .jTemp)) (.neg (.num 35870588016911675 18))))),
  .set (.arr .jac 324) (.add (.rd (.arr .jac 324)) (.mul (.neg (.num 46715344025300498 17)) (.mul (.rd (.var .jTemp)) (.neg (.num 71851123102163683 18))))),
  .set (.arr .jac 317) (.add (.rd (.arr .jac 317)) (.mul (.num 33568593911733322 18) (.mul (.rd (.var .jTemp)) (.neg (.num 71851123102163683 18))))),
  .set (.arr .jac 319) (.add (.rd (.arr .jac 319)) (.mul (.neg (.num 10656931194939898 16)) (.mul (.rd (.var .jTemp)) (.neg (.num 71851123102163683 18))))),
  .set (.arr .jac 320) (.add (.rd (.arr .jac 320)) (.mul (.num 5664151536587283 16) (.mul (.rd (.var .jTemp)) (.neg (.num 71851123102163683 18))))),
  .set (.arr .jac 327) (.add (.rd (.arr .jac 327)) (.mul (.num 93286281217653322 17) (.mul (.rd (.var .jTemp)) (.neg (.num 71851123102163683 18))))),
  .set (.arr .jac 345) (.add (.rd (.arr .jac 345)) (.mul (.neg (.num 45198107121751407 17)) (.mul (.rd (.var .jTemp)) (.neg (.num 10783165818741525 17))))),
  .set (.arr .jac 338) (.add (.rd (.arr .jac 338)) (.mul (.num 32478341649959309 18) (.mul (.rd (.var .jTemp)) (.neg (.num 10783165818741525 17))))),
  .set (.arr .jac 340) (.add (.rd (.arr .jac 340)) (.mul (.neg (.num 10310811742650532 16)) (.mul (.rd (.var .jTemp)) (.neg (.num 10783165818741525 17))))),
  .set (.arr .jac 341) (.add (.rd (.arr .jac 341)) (.mul (.num 54801892878248593 17) (.mul (.rd (.var .jTemp)) (.neg (.num 10783165818741525 17))))),
  .set (.arr .jac 348) (.add (.rd (.arr .jac 348)) (.mul (.num 90256497505012201 17) (.mul (.rd (.var .jTemp)) (.neg (.num 10783165818741525 17))))),
  .set (.arr .jac 366) (.add (.rd (.arr .jac 366)) (.mul (.neg (.num 5 1)) (.mul (.rd (.var .jTemp)) (.neg (.num 14378791924458678 19))))),
  .set (.arr .jac 359) (.add (.rd (.arr .jac 359)) (.mul (.num 35928873705342888 18) (.mul (.rd (.var .jTemp)) (.neg (.num 14378791924458678 19))))),
  .set (.arr .jac 361) (.add (.rd (.arr .jac 361)) (.mul (.neg (.num 11406242870830863 16)) (.mul (.rd (.var .jTemp)) (.neg (.num 14378791924458678 19))))),
  .set (.arr .jac 362) (.add (.rd (.arr .jac 362)) (.mul (.num 60624101724688606 17) (.mul (.rd (.var .jTemp)) (.neg (.num 14378791924458678 19))))),
  .set (.arr .jac 369) (.add (.rd (.arr .jac 369)) (.mul (.num 99845439613085729 17) (.mul (.rd (.var .jTemp)) (.neg (.num 14378791924458678 19))))),
  .set (.arr .jac 387) (.add (.rd (.arr .jac 387)) (.mul (.neg (.num 48265861942006144 17)) (.mul (.rd (.var .jTemp)) (.neg (.num 37418414277697654 18))))),
  .set (.arr .jac 380) (.add (.rd (.arr .jac 380)) (.mul (.num 3468276115987709 17) (.mul (.rd (.var .jTemp)) (.neg (.num 37418414277697654 18))))),
  .set (.arr .jac 382) (.add (.rd (.arr .jac 382)) (.mul (.neg (.num 11010642873610286 16)) (.mul (.rd (.var .jTemp)) (.neg (.num 37418414277697654 18))))),
  .set (.arr .jac 383) (.add (.rd (.arr .jac 383)) (.mul (.num 58521490484039129 17) (.mul (.rd (.var .jTemp)) (.neg (.num 37418414277697654 18))))),
  .set (.arr .jac 390) (.add (.rd (.arr .jac 390)) (.mul (.num 96382524078082144 17) (.mul (.rd (.var .jTemp)) (.neg (.num 37418414277697654 18))))),
  .set (.arr .jac 408) (.add (.rd (.arr .jac 408)) (.mul (.neg (.num 46647981153083307 17)) (.mul (.rd (.var .jTemp)) (.neg (.num 73398949362949439 18))))),
  .set (.arr .jac 401) (.add (.rd (.arr .jac 401)) (.mul (.num 33520188469166906 18) (.mul (.rd (.var .jTemp)) (.neg (.num 73398949362949439 18))))),
  .set (.arr .jac 403) (.add (.rd (.arr .jac 403)) (.mul (.neg (.num 10641564049320178 16)) (.mul (.rd (.var .jTemp)) (.neg (.num 73398949362949439 18))))),
  .set (.arr .jac 404) (.add (.rd (.arr .jac 404)) (.mul (.num 56559839093517583 17) (.mul (.rd (.var .jTemp)) (.neg (.num 73398949362949439 18))))),
  .set (.arr .jac 411) (.add (.rd (.arr .jac 411)) (.mul (.num 9315176370585081 16) (.mul (.rd (.var .jTemp)) (.neg (.num 73398949362949439 18))))),
  .set (.arr .jac 429) (.add (.rd (.arr .jac 429)) (.mul (.neg (.num 3511284670071092 16)) (.mul (.rd (.var .jTemp)) (.neg (.num 42602775520927771 17))))),
  .set (.arr .jac 422) (.add (.rd (.arr .jac 422)) (.mul (.num 2523130069089817 17) (.mul (.rd (.var .jTemp)) (.neg (.num 42602775520927771 17))))),
  .set (.arr .jac 424) (.add (.rd (.arr .jac 424)) (.mul (.neg (.num 80101131470912179 17)) (.mul (.rd (.var .jTemp)) (.neg (.num 42602775520927771 17))))),
  .set (.arr .jac 425) (.add (.rd (.arr .jac 425)) (.mul (.num 42573695804545908 17) (.mul (.rd (.var .jTemp)) (.neg (.num 42602775520927771 17))))),
  .set (.arr .jac 432) (.add (.rd (.arr .jac 432)) (.mul (.num 70117152297987373 17) (.mul (.rd (.var .jTemp)) (.neg (.num 42602775520927771 17)))))]

/-- utilities/mechanisms/drm19/lib/src/jacobs/jacob_1.c:2276-2282 -/
def jacobT64 : List CStmt := [
  .set (.var .jTemp) (.mul (.mul (.div (.num 1 0) (.rd (.var .T))) (.sub (.mul (.rd (.arr .fwd 64)) (.neg (.num 1 0))) (.mul (.rd (.arr .rev 64)) (.add (.neg (.num 1 0)) (.mul (.neg (.rd (.var .T))) (.sub (.sub (.add (.rd (.arr .dBdT 5)) (.rd (.arr .dBdT 11))) (.rd (.arr .dBdT 8))) (.rd (.arr .dBdT 3)))))))) (.rd (.var .rhoInv))),
  .set (.arr .jac 9) (.add (.rd (.arr .jac 9)) (.mul (.neg (.rd (.var .jTemp))) (.num 14026879999999998 15))),
  .set (.arr .jac 12) (.add (.rd (.arr .jac 12)) (.mul (.rd (.var .jTemp)) (.num 28010399999999997 15))),
  .set (.arr .jac 4) (.add (.rd (.arr .jac 4)) (.mul (.neg (.rd (.var .jTemp))) (.num 31998799999999999 15))),
  .set (.arr .jac 6) (.add (.rd (.arr .jac 6)) (.mul (.rd (.var .jTemp)) (.num 18015280000000001 15)))]

/-- utilities/mechanisms/drm19/lib/src/jacobs/jacob_1.c:2283-2374 -/
def jacobS64 : List CStmt := [
  .ite (.rd (.var .T)) (.num 1000 0) (.var .Kc) (.sub (.add (.add (.neg (.num 2629325100000024 17)) (.mul (.neg (.num 20288643999999945 17)) (.rd (.var .logT)))) (.mul (.rd (.var .T)) (.add (.num 13582802849999998 19) (.mul (.rd (.var .T)) (.add (.neg (.num 17571746283333328 22)) (.mul (.rd (.var .T)) (.add (.num 98237418033333352 26) (.mul (.neg (.num 21596610345 23)) (.rd (.var .T)))))))))) (.div (.neg (.num 94070685440000001 12)) (.rd (.var .T)))) (.sub (.add (.add (.neg (.num 1468877 6)) (.mul (.num 17460184000000023 17) (.rd (.var .logT)))) (.mul (.rd (.var .T)) (.add (.neg (.num 94976421999999985 20)) (.mul (.rd (.var .T)) (.add (.num 26783130833333332 23) (.mul (.rd (.var .T)) (.add (.neg (.num 41197127833333337 27)) (.mul (.num 26049371749999998 31) (.rd (.var .T)))))))))) (.div (.neg (.num 93993711479999998 12)) (.rd (.var .T)))),
  .set (.var .Kc) (.exp (.rd (.var .Kc))),
  .set (.var .jTemp) (.mul (.mul (.neg (.rd (.var .mwAvg))) (.rd (.var .rhoInv))) (.sub (.mul (.num 2 0) (.rd (.arr .fwd 64))) (.mul (.num 2 0) (.rd (.arr .rev 64))))),
  .set (.var .kf) (.num 12000000000 0),
  .set (.var .kr) (.div (.rd (.var .kf)) (.rd (.var .Kc))),
  .set (.arr .jac 30) (.add (.rd (.arr .jac 30)) (.mul (.neg (.num 69581919558703875 16)) (.mul (.rd (.var .jTemp)) (.num 92803892982949643 17)))),
  .set (.arr .jac 33) (.add (.rd (.arr .jac 33)) (.mul (.num 13894874694922315 15) (.mul (.rd (.var .jTemp)) (.num 92803892982949643 17)))),
  .set (.arr .jac 25) (.add (.rd (.arr .jac 25)) (.mul (.neg (.num 15873365478103855 15)) (.mul (.rd (.var .jTemp)) (.num 92803892982949643 17)))),
  .set (.arr .jac 27) (.add (.rd (.arr .jac 27)) (.mul (.num 89366827390519283 16) (.mul (.rd (.var .jTemp)) (.num 92803892982949643 17)))),
  .set (.arr .jac 51) (.add (.rd (.arr .jac 51)) (.mul (.neg (.num 13916383911740775 15)) (.mul (.rd (.var .jTemp)) (.num 96401946491474821 17)))),
  .set (.arr .jac 54) (.add (.rd (.arr .jac 54)) (.mul (.num 2778974938984463 14) (.mul (.rd (.var .jTemp)) (.num 96401946491474821 17)))),
  .set (.arr .jac 46) (.add (.rd (.arr .jac 46)) (.mul (.neg (.num 3174673095620771 14)) (.mul (.rd (.var .jTemp)) (.num 96401946491474821 17)))),
  .set (.arr .jac 48) (.add (.rd (.arr .jac 48)) (.mul (.num 17873365478103857 15) (.mul (.rd (.var .jTemp)) (.num 96401946491474821 17)))),
  .set (.arr .jac 72) (.add (.rd (.arr .jac 72)) (.mul (.neg (.num 87671287673287746 17)) (.mul (.rd (.var .jTemp)) (.num 42886781649405936 17)))),
  .set (.arr .jac 75) (.add (.rd (.arr .jac 75)) (.mul (.num 17507156518369438 16) (.mul (.rd (.var .jTemp)) (.num 42886781649405936 17)))),
  .set (.arr .jac 67) (.add (.rd (.arr .jac 67)) (.mul (.neg (.num 2 0)) (.mul (.rd (.var .jTemp)) (.num 42886781649405936 17)))),
  .set (.arr .jac 69) (.add (.rd (.arr .jac 69)) (.mul (.num 11259972248959336 16) (.mul (.rd (.var .jTemp)) (.num 42886781649405936 17)))),
  .set (.arr .jac 93) (.add (.rd (.arr .jac 93)) (.mul (.neg (.num 43835643836643873 17)) (.add (.mul (.rd (.var .jTemp)) (.neg (.num 14226436701188128 17))) (.mul (.rd (.var .kf)) (.rd (.arr .C 8)))))),
  .set (.arr .jac 96) (.add (.rd (.arr .jac 96)) (.mul (.num 87535782591847189 17) (.add (.mul (.rd (.var .jTemp)) (.neg (.num 14226436701188128 17))) (.mul (.rd (.var .kf)) (.rd (.arr .C 8)))))),
  .set (.arr .jac 88) (.add (.rd (.arr .jac 88)) (.neg (.add (.mul (.rd (.var .jTemp)) (.neg (.num 14226436701188128 17))) (.mul (.rd (.var .kf)) (.rd (.arr .C 8)))))),
  .set (.arr .jac 90) (.add (.rd (.arr .jac 90)) (.mul (.num 56299861244796678 17) (.add (.mul (.rd (.var .jTemp)) (.neg (.num 14226436701188128 17))) (.mul (.rd (.var .kf)) (.rd (.arr .C 8)))))),
  .set (.arr .jac 114) (.add (.rd (.arr .jac 114)) (.mul (.neg (.num 8247544883562038 16)) (.mul (.rd (.var .jTemp)) (.num 39288728140880758 17)))),
  .set (.arr .jac 117) (.add (.rd (.arr .jac 117)) (.mul (.num 16469594892558153 16) (.mul (.rd (.var .jTemp)) (.num 39288728140880758 17)))),
  .set (.arr .jac 109) (.add (.rd (.arr .jac 109)) (.mul (.neg (.num 18814700005997411 16)) (.mul (.rd (.var .jTemp)) (.num 39288728140880758 17)))),
  .set (.arr .jac 111) (.add (.rd (.arr .jac 111)) (.mul (.num 10592649997001296 16) (.mul (.rd (.var .jTemp)) (.num 39288728140880758 17)))),
  .set (.arr .jac 135) (.add (.rd (.arr .jac 135)) (.mul (.neg (.num 77861015759954877 17)) (.sub (.mul (.rd (.var .jTemp)) (.num 35690674632355568 17)) (.mul (.rd (.var .kr)) (.rd (.arr .C 11)))))),
  .set (.arr .jac 138) (.add (.rd (.arr .jac 138)) (.mul (.num 15548134694548181 16) (.sub (.mul (.rd (.var .jTemp)) (.num 35690674632355568 17)) (.mul (.rd (.var .kr)) (.rd (.arr .C 11)))))),
  .set (.arr .jac 130) (.add (.rd (.arr .jac 130)) (.mul (.neg (.num 17762033118552694 16)) (.sub (.mul (.rd (.var .jTemp)) (.num 35690674632355568 17)) (.mul (.rd (.var .kr)) (.rd (.arr .C 11)))))),
  .set (.arr .jac 132) (.add (.rd (.arr .jac 132)) (.sub (.mul (.rd (.var .jTemp)) (.num 35690674632355568 17)) (.mul (.rd (.var .kr)) (.rd (.arr .C 11))))),
  .set (.arr .jac 156) (.add (.rd (.arr .jac 156)) (.mul (.neg (.num 42497017275865467 17)) (.mul (.rd (.var .jTemp)) (.neg (.num 17824490209713328 17))))),
  .set (.arr .jac 159) (.add (.rd (.arr .jac 159)) (.mul (.num 84862667443073736 17) (.mul (.rd (.var .jTemp)) (.neg (.num 17824490209713328 17))))),
  .set (.arr .jac 151) (.add (.rd (.arr .jac 151)) (.mul (.neg (.num 96946260066883305 17)) (.mul (.rd (.var .jTemp)) (.neg (.num 17824490209713328 17))))),
  .set (.arr .jac 153) (.add (.rd (.arr .jac 153)) (.mul (.num 54580609899675037 17) (.mul (.rd (.var .jTemp)) (.neg (.num 17824490209713328 17))))),
  .set (.arr .jac 177) (.add (.rd (.arr .jac 177)) (.neg (.mul (.rd (.var .jTemp)) (.num 49928106040377707 17)))),
  .set (.arr .jac 180) (.add (.rd (.arr .jac 180)) (.mul (.num 19969087922617146 16) (.mul (.rd (.var .jTemp)) (.num 49928106040377707 17)))),
  .set (.arr .jac 172) (.add (.rd (.arr .jac 172)) (.mul (.neg (.num 22812485741661725 16)) (.mul (.rd (.var .jTemp)) (.num 49928106040377707 17)))),
  .set (.arr .jac 174) (.add (.rd (.arr .jac 174)) (.mul (.num 1284339781904458 15) (.mul (.rd (.var .jTemp)) (.num 49928106040377707 17)))),
  .set (.arr .jac 198) (.add (.rd (.arr .jac 198)) (.neg (.add (.mul (.rd (.var .jTemp)) (.num 49928106040377707 17)) (.mul (.rd (.var .kf)) (.rd (.arr .C 3)))))),
  .set (.arr .jac 201) (.add (.rd (.arr .jac 201)) (.mul (.num 19969087922617146 16) (.add (.mul (.rd (.var .jTemp)) (.num 49928106040377707 17)) (.mul (.rd (.var .kf)) (.rd (.arr .C 3)))))),
  .set (.arr .jac 193) (.add (.rd (.arr .jac 193)) (.mul (.neg (.num 22812485741661725 16)) (.add (.mul (.rd (.var .jTemp)) (.num 49928106040377707 17)) (.mul (.rd (.var .kf)) (.rd (.arr .C 3)))))),
  .set (.arr .jac 195) (.add (.rd (.arr .jac 195)) (.mul (.num 1284339781904458 15) (.add (.mul (.rd (.var .jTemp)) (.num 49928106040377707 17)) (.mul (.rd (.var .kf)) (.rd (.arr .C 3)))))),
  .set (.arr .jac 219) (.add (.rd (.arr .jac 219)) (.mul (.neg (.num 93295962306166613 17)) (.mul (.rd (.var .jTemp)) (.num 46330052531852528 17)))),
  .set (.arr .jac 222) (.add (.rd (.arr .jac 222)) (.mul (.num 18630352741170162 16) (.mul (.rd (.var .jTemp)) (.num 46330052531852528 17)))),
  .set (.arr .jac 214) (.add (.rd (.arr .jac 214)) (.mul (.neg (.num 21283128098640356 16)) (.mul (.rd (.var .jTemp)) (.num 46330052531852528 17)))),
  .set (.arr .jac 216) (.add (.rd (.arr .jac 216)) (.mul (.num 11982371588086855 16) (.mul (.rd (.var .jTemp)) (.num 46330052531852528 17)))),
  .set (.arr .jac 240) (.add (.rd (.arr .jac 240)) (.mul (.neg (.num 87434331748402383 17)) (.mul (.rd (.var .jTemp)) (.num 42731999023327338 17)))),
  .set (.arr .jac 243) (.add (.rd (.arr .jac 243)) (.mul (.num 17459838581391229 16) (.mul (.rd (.var .jTemp)) (.num 42731999023327338 17)))),
  .set (.arr .jac 235) (.add (.rd (.arr .jac 235)) (.mul (.neg (.num 19945944463421503 16)) (.mul (.rd (.var .jTemp)) (.num 42731999023327338 17)))),
  .set (.arr .jac 237) (.add (.rd (.arr .jac 237)) (.mul (.num 11229539056870512 16) (.mul (.rd (.var .jTemp)) (.num 42731999023327338 17)))),
  .set (.arr .jac 261) (.add (.rd (.arr .jac 261)) (.mul (.neg (.num 50077399822922919 17)) (.sub (.mul (.rd (.var .jTemp)) (.num 10994706834011048 20)) (.mul (.rd (.var .kr)) (.rd (.arr .C 5)))))),
  .set (.arr .jac 264) (.add (.rd (.arr .jac 264)) (.sub (.mul (.rd (.var .jTemp)) (.num 10994706834011048 20)) (.mul (.rd (.var .kr)) (.rd (.arr .C 5))))),
  .set (.arr .jac 256) (.add (.rd (.arr .jac 256)) (.mul (.neg (.num 11423899694399224 16)) (.sub (.mul (.rd (.var .jTemp)) (.num 10994706834011048 20)) (.mul (.rd (.var .kr)) (.rd (.arr .C 5)))))),
  .set (.arr .jac 258) (.add (.rd (.arr .jac 258)) (.mul (.num 64316396766915152 17) (.sub (.mul (.rd (.var .jTemp)) (.num 10994706834011048 20)) (.mul (.rd (.var .kr)) (.rd (.arr .C 5)))))),
  .set (.arr .jac 282) (.add (.rd (.arr .jac 282)) (.mul (.neg (.num 31872173924898545 17)) (.mul (.rd (.var .jTemp)) (.neg (.num 57102223643760053 17))))),
  .set (.arr .jac 285) (.add (.rd (.arr .jac 285)) (.mul (.num 63645824339124468 17) (.mul (.rd (.var .jTemp)) (.neg (.num 57102223643760053 17))))),
  .set (.arr .jac 277) (.add (.rd (.arr .jac 277)) (.mul (.neg (.num 72708351321751064 17)) (.mul (.rd (.var .jTemp)) (.neg (.num 57102223643760053 17))))),
  .set (.arr .jac 279) (.add (.rd (.arr .jac 279)) (.mul (.num 40934700907525146 17) (.mul (.rd (.var .jTemp)) (.neg (.num 57102223643760053 17))))),
  .set (.arr .jac 303) (.add (.rd (.arr .jac 303)) (.mul (.neg (.num 48337982117516021 17)) (.mul (.rd (.var .jTemp)) (.neg (.num 35870588016911675 18))))),
  .set (.arr .jac 306) (.add (.rd (.arr .jac 306)) (.mul (.num 96526541490657281 17) (.mul (.rd (.var .jTemp)) (.neg (.num 35870588016911675 18))))),
  .set (.arr .jac 298) (.add (.rd (.arr .jac 298)) (.mul (.neg (.num 11027095278365338 16)) (.mul (.rd (.var .jTemp)) (.neg (.num 35870588016911675 18))))),
  .set (.arr .jac 300) (.add (.rd (.arr .jac 300)) (.mul (.num 62082393410512116 17) (.mul (.rd (.var .jTemp)) (.neg (.num 35870588016911675 18))))),
  .set (.arr .jac 324) (.add (.rd (.arr .jac 324)) (.mul (.neg (.num 46715344025300498 17)) (.mul (.rd (.var .jTemp)) (.neg (.num 71851123102163683 18))))),
  .set (.arr .jac 327) (.add (.rd (.arr .jac 327)) (.mul (.num 93286281217653322 17) (.mul (.rd (.var .jTemp)) (.neg (.num 71851123102163683 18))))),
  .set (.arr .jac 319) (.add (.rd (.arr .jac 319)) (.mul (.neg (.num 10656931194939898 16)) (.mul (.rd (.var .jTemp)) (.neg (.num 71851123102163683 18))))),
  .set (.arr .jac 321) (.add (.rd (.arr .jac 321)) (.mul (.num 59998374757046158 17) (.mul (.rd (.var .jTemp)) (.neg (.num 71851123102163683 18))))),
  .set (.arr .jac 345) (.add (.rd (.arr .jac 345)) (.mul (.neg (.num 45198107121751407 17)) (.mul (.rd (.var .jTemp)) (.neg (.num 10783165818741525 17))))),
  .set (.arr .jac 348) (.add (.rd (.arr .jac 348)) (.mul (.num 90256497505012201 17) (.mul (.rd (.var .jTemp)) (.neg (.num 10783165818741525 17))))),
  .set (.arr .jac 340) (.add (.rd (.arr .jac 340)) (.mul (.neg (.num 10310811742650532 16)) (.mul (.rd (.var .jTemp)) (.neg (.num 10783165818741525 17))))),
  .set (.arr .jac 342) (.add (.rd (.arr .jac 342)) (.mul (.num 58049727043244526 17) (.mul (.rd (.var .jTemp)) (.neg (.num 10783165818741525 17))))),
  .set (.arr .jac 366) (.add (.rd (.arr .jac 366)) (.mul (.neg (.num 5 1)) (.mul (.rd (.var .jTemp)) (.neg (.num 14378791924458678 19))))),
  .set (.arr .jac 369) (.add (.rd (.arr .jac 369)) (.mul (.num 99845439613085729 17) (.mul (.rd (.var .jTemp)) (.neg (.num 14378791924458678 19))))),
  .set (.arr .jac 361) (.add (.rd (.arr .jac 361)) (.mul (.neg (.num 11406242870830863 16)) (.mul (.rd (.var .jTemp)) (.neg (.num 14378791924458678 19))))),
  .set (.arr .jac 363) (.add (.rd (.arr .jac 363)) (.mul (.num 64216989095222898 17) (.mul (.rd (.var .jTemp)) (.neg (.num 14378791924458678 19))))),
  .set (.arr .jac 387) (.add (.rd (.arr .jac 387)) (.mul (.neg (.num 48265861942006144 17)) (.mul (.rd (.var .jTemp)) (.neg (.num 37418414277697654 18))))),
  .set (.arr .jac 390) (.add (.rd (.arr .jac 390)) (.mul (.num 96382524078082144 17) (.mul (.rd (.var .jTemp)) (.neg (.num 37418414277697654 18))))),
  .set (.arr .jac 382) (.add (.rd (.arr .jac 382)) (.mul (.neg (.num 11010642873610286 16)) (.mul (.rd (.var .jTemp)) (.neg (.num 37418414277697654 18))))),
  .set (.arr .jac 384) (.add (.rd (.arr .jac 384)) (.mul (.num 61989766600026841 17) (.mul (.rd (.var .jTemp)) (.neg (.num 37418414277697654 18))))),
  .set (.arr .jac 408) (.add (.rd (.arr .jac 408)) (.mul (.neg (.num 46647981153083307 17)) (.mul (.rd (.var .jTemp)) (.neg (.num 73398949362949439 18))))),
  .set (.arr .jac 411) (.add (.rd (.arr .jac 411)) (.mul (.num 9315176370585081 16) (.mul (.rd (.var .jTemp)) (.neg (.num 73398949362949439 18))))),
  .set (.arr .jac 403) (.add (.rd (.arr .jac 403)) (.mul (.neg (.num 10641564049320178 16)) (.mul (.rd (.var .jTemp)) (.neg (.num 73398949362949439 18))))),
  .set (.arr .jac 405) (.add (.rd (.arr .jac 405)) (.mul (.num 59911857940434277 17) (.mul (.rd (.var .jTemp)) (.neg (.num 73398949362949439 18))))),
  .set (.arr .jac 429) (.add (.rd (.arr .jac 429)) (.mul (.neg (.num 3511284670071092 16)) (.mul (.rd (.var .jTemp)) (.neg (.num 42602775520927771 17))))),
  .set (.arr .jac 432) (.add (.rd (.arr .jac 432)) (.mul (.num 70117152297987373 17) (.mul (.rd (.var .jTemp)) (.neg (.num 42602775520927771 17))))),
  .set (.arr .jac 424) (.add (.rd (.arr .jac 424)) (.mul (.neg (.num 80101131470912179 17)) (.mul (.rd (.var .jTemp)) (.neg (.num 42602775520927771 17))))),
  .set (.arr .jac 426) (.add (.rd (.arr .jac 426)) (.mul (.num 45096825873635726 17) (.mul (.rd (.var .jTemp)) (.neg (.num 42602775520927771 17)))))]

/-- utilities/mechanisms/drm19/lib/src/jacobs/jacob_1.c:2375-2381 -/
def jacobT65 : List CStmt := [
  .set (.var .jTemp) (.mul (.mul (.div (.num 1 0) (.rd (.var .T))) (.sub (.mul (.rd (.arr .fwd 65)) (.neg (.num 1 0))) (.mul (.rd (.arr .rev 65)) (.add (.neg (.num 1 0)) (.mul (.neg (.rd (.var .T))) (.sub (.sub (.add (.rd (.arr .dBdT 1)) (.rd (.arr .dBdT 9))) (.rd (.arr .dBdT 0))) (.rd (.arr .dBdT 8)))))))) (.rd (.var .rhoInv))),
  .set (.arr .jac 1) (.add (.rd (.arr .jac 1)) (.mul (.neg (.rd (.var .jTemp))) (.num 20158800000000001 16))),
  .set (.arr .jac 9) (.add (.rd (.arr .jac 9)) (.mul (.neg (.rd (.var .jTemp))) (.num 14026879999999998 15))),
  .set (.arr .jac 10) (.add (.rd (.arr .jac 10)) (.mul (.rd (.var .jTemp)) (.num 1503482 5))),
  .set (.arr .jac 2) (.add (.rd (.arr .jac 2)) (.mul (.rd (.var .jTemp)) (.num 10079400000000001 16)))]

/-- utilities/mechanisms/drm19/lib/src/jacobs/jacob_1.c:2382-2473 -/
def jacobS65 : List CStmt := [
  .ite (.rd (.var .T)) (.num 1000 0) (.var .Kc) (.sub (.add (.add (.num 16133350359999992 16) (.mul (.neg (.num 36934482999999929 17)) (.rd (.var .logT)))) (.mul (.rd (.var .T)) (.add (.neg (.num 18014774046473333 19)) (.mul (.rd (.var .T)) (.add (.num 28292345596673468 22) (.mul (.rd (.var .T)) (.add (.neg (.num 16950186531415987 25)) (.mul (.num 39884137895361337 29) (.rd (.var .T)))))))))) (.div (.neg (.num 76602224270000006 13)) (.rd (.var .T)))) (.sub (.add (.add (.num 34555103860000003 16) (.mul (.neg (.num 84359988999999969 17)) (.rd (.var .logT)))) (.mul (.rd (.var .T)) (.add (.num 13167082250078511 19) (.mul (.rd (.var .T)) (.add (.neg (.num 24578012864063416 23)) (.mul (.rd (.var .T)) (.add (.num 29778752772070638 27) (.mul (.neg (.num 16384670000901322 31)) (.rd (.var .T)))))))))) (.div (.neg (.num 7726596577999997 12)) (.rd (.var .T)))),
  .set (.var .Kc) (.exp (.rd (.var .Kc))),
  .set (.var .jTemp) (.mul (.mul (.neg (.rd (.var .mwAvg))) (.rd (.var .rhoInv))) (.sub (.mul (.num 2 0) (.rd (.arr .fwd 65))) (.mul (.num 2 0) (.rd (.arr .rev 65))))),
  .set (.var .kf) (.num 70000000000 0),
  .set (.var .kr) (.div (.rd (.var .kf)) (.rd (.var .Kc))),
  .set (.arr .jac 22) (.add (.rd (.arr .jac 22)) (.neg (.add (.mul (.rd (.var .jTemp)) (.num 92803892982949643 17)) (.mul (.rd (.var .kf)) (.rd (.arr .C 8)))))),
  .set (.arr .jac 30) (.add (.rd (.arr .jac 30)) (.mul (.neg (.num 69581919558703875 16)) (.add (.mul (.rd (.var .jTemp)) (.num 92803892982949643 17)) (.mul (.rd (.var .kf)) (.rd (.arr .C 8)))))),
  .set (.arr .jac 31) (.add (.rd (.arr .jac 31)) (.mul (.num 74581919558703884 16) (.add (.mul (.rd (.var .jTemp)) (.num 92803892982949643 17)) (.mul (.rd (.var .kf)) (.rd (.arr .C 8)))))),
  .set (.arr .jac 23) (.add (.rd (.arr .jac 23)) (.mul (.num 5 1) (.add (.mul (.rd (.var .jTemp)) (.num 92803892982949643 17)) (.mul (.rd (.var .kf)) (.rd (.arr .C 8)))))),
  .set (.arr .jac 43) (.add (.rd (.arr .jac 43)) (.mul (.neg (.num 2 0)) (.sub (.mul (.rd (.var .jTemp)) (.num 96401946491474821 17)) (.mul (.rd (.var .kr)) (.rd (.arr .C 9)))))),
  .set (.arr .jac 51) (.add (.rd (.arr .jac 51)) (.mul (.neg (.num 13916383911740775 15)) (.sub (.mul (.rd (.var .jTemp)) (.num 96401946491474821 17)) (.mul (.rd (.var .kr)) (.rd (.arr .C 9)))))),
  .set (.arr .jac 52) (.add (.rd (.arr .jac 52)) (.mul (.num 14916383911740777 15) (.sub (.mul (.rd (.var .jTemp)) (.num 96401946491474821 17)) (.mul (.rd (.var .kr)) (.rd (.arr .C 9)))))),
  .set (.arr .jac 44) (.add (.rd (.arr .jac 44)) (.sub (.mul (.rd (.var .jTemp)) (.num 96401946491474821 17)) (.mul (.rd (.var .kr)) (.rd (.arr .C 9))))),
  .set (.arr .jac 64) (.add (.rd (.arr .jac 64)) (.mul (.neg (.num 1259972248959336 16)) (.mul (.rd (.var .jTemp)) (.num 42886781649405936 17)))),
  .set (.arr .jac 72) (.add (.rd (.arr .jac 72)) (.mul (.neg (.num 87671287673287746 17)) (.mul (.rd (.var .jTemp)) (.num 42886781649405936 17)))),
  .set (.arr .jac 73) (.add (.rd (.arr .jac 73)) (.mul (.num 93971148918084424 17) (.mul (.rd (.var .jTemp)) (.num 42886781649405936 17)))),
  .set (.arr .jac 65) (.add (.rd (.arr .jac 65)) (.mul (.num 62998612447966798 18) (.mul (.rd (.var .jTemp)) (.num 42886781649405936 17)))),
  .set (.arr .jac 85) (.add (.rd (.arr .jac 85)) (.mul (.neg (.num 62998612447966798 18)) (.mul (.rd (.var .jTemp)) (.neg (.num 14226436701188128 17))))),
  .set (.arr .jac 93) (.add (.rd (.arr .jac 93)) (.mul (.neg (.num 43835643836643873 17)) (.mul (.rd (.var .jTemp)) (.neg (.num 14226436701188128 17))))),
  .set (.arr .jac 94) (.add (.rd (.arr .jac 94)) (.mul (.num 46985574459042212 17) (.mul (.rd (.var .jTemp)) (.neg (.num 14226436701188128 17))))),
  .set (.arr .jac 86) (.add (.rd (.arr .jac 86)) (.mul (.num 31499306223983399 18) (.mul (.rd (.var .jTemp)) (.neg (.num 14226436701188128 17))))),
  .set (.arr .jac 106) (.add (.rd (.arr .jac 106)) (.mul (.neg (.num 11852999940025896 17)) (.mul (.rd (.var .jTemp)) (.num 39288728140880758 17)))),
  .set (.arr .jac 114) (.add (.rd (.arr .jac 114)) (.mul (.neg (.num 8247544883562038 16)) (.mul (.rd (.var .jTemp)) (.num 39288728140880758 17)))),
  .set (.arr .jac 115) (.add (.rd (.arr .jac 115)) (.mul (.num 88401948805633335 17) (.mul (.rd (.var .jTemp)) (.num 39288728140880758 17)))),
  .set (.arr .jac 107) (.add (.rd (.arr .jac 107)) (.mul (.num 59264999700129481 18) (.mul (.rd (.var .jTemp)) (.num 39288728140880758 17)))),
  .set (.arr .jac 127) (.add (.rd (.arr .jac 127)) (.mul (.neg (.num 11189834407236524 17)) (.mul (.rd (.var .jTemp)) (.num 35690674632355568 17)))),
  .set (.arr .jac 135) (.add (.rd (.arr .jac 135)) (.mul (.neg (.num 77861015759954877 17)) (.mul (.rd (.var .jTemp)) (.num 35690674632355568 17)))),
  .set (.arr .jac 136) (.add (.rd (.arr .jac 136)) (.mul (.num 83455932963573143 17) (.mul (.rd (.var .jTemp)) (.num 35690674632355568 17)))),
  .set (.arr .jac 128) (.add (.rd (.arr .jac 128)) (.mul (.num 55949172036182618 18) (.mul (.rd (.var .jTemp)) (.num 35690674632355568 17)))),
  .set (.arr .jac 148) (.add (.rd (.arr .jac 148)) (.mul (.neg (.num 61074798662333819 18)) (.mul (.rd (.var .jTemp)) (.neg (.num 17824490209713328 17))))),
  .set (.arr .jac 156) (.add (.rd (.arr .jac 156)) (.mul (.neg (.num 42497017275865467 17)) (.mul (.rd (.var .jTemp)) (.neg (.num 17824490209713328 17))))),
  .set (.arr .jac 157) (.add (.rd (.arr .jac 157)) (.mul (.num 45550757208982162 17) (.mul (.rd (.var .jTemp)) (.neg (.num 17824490209713328 17))))),
  .set (.arr .jac 149) (.add (.rd (.arr .jac 149)) (.mul (.num 3053739933116691 17) (.mul (.rd (.var .jTemp)) (.neg (.num 17824490209713328 17))))),
  .set (.arr .jac 169) (.add (.rd (.arr .jac 169)) (.mul (.neg (.num 14371549482137155 17)) (.mul (.rd (.var .jTemp)) (.num 49928106040377707 17)))),
  .set (.arr .jac 177) (.add (.rd (.arr .jac 177)) (.neg (.mul (.rd (.var .jTemp)) (.num 49928106040377707 17)))),
  .set (.arr .jac 178) (.add (.rd (.arr .jac 178)) (.mul (.num 10718577474106858 16) (.mul (.rd (.var .jTemp)) (.num 49928106040377707 17)))),
  .set (.arr .jac 170) (.add (.rd (.arr .jac 170)) (.mul (.num 71857747410685777 18) (.mul (.rd (.var .jTemp)) (.num 49928106040377707 17)))),
  .set (.arr .jac 190) (.add (.rd (.arr .jac 190)) (.mul (.neg (.num 14371549482137155 17)) (.add (.mul (.rd (.var .jTemp)) (.num 49928106040377707 17)) (.mul (.rd (.var .kf)) (.rd (.arr .C 0)))))),
  .set (.arr .jac 198) (.add (.rd (.arr .jac 198)) (.neg (.add (.mul (.rd (.var .jTemp)) (.num 49928106040377707 17)) (.mul (.rd (.var .kf)) (.rd (.arr .C 0)))))),
  .set (.arr .jac 199) (.add (.rd (.arr .jac 199)) (.mul (.num 10718577474106858 16) (.add (.mul (.rd (.var .jTemp)) (.num 49928106040377707 17)) (.mul (.rd (.var .kf)) (.rd (.arr .C 0)))))),
  .set (.arr .jac 191) (.add (.rd (.arr .jac 191)) (.mul (.num 71857747410685777 18) (.add (.mul (.rd (.var .jTemp)) (.num 49928106040377707 17)) (.mul (.rd (.var .kf)) (.rd (.arr .C 0)))))),
  .set (.arr .jac 211) (.add (.rd (.arr .jac 211)) (.mul (.neg (.num 13408075387666762 17)) (.sub (.mul (.rd (.var .jTemp)) (.num 46330052531852528 17)) (.mul (.rd (.var .kr)) (.rd (.arr .C 1)))))),
  .set (.arr .jac 219) (.add (.rd (.arr .jac 219)) (.mul (.neg (.num 93295962306166613 17)) (.sub (.mul (.rd (.var .jTemp)) (.num 46330052531852528 17)) (.mul (.rd (.var .kr)) (.rd (.arr .C 1)))))),
  .set (.arr .jac 220) (.add (.rd (.arr .jac 220)) (.sub (.mul (.rd (.var .jTemp)) (.num 46330052531852528 17)) (.mul (.rd (.var .kr)) (.rd (.arr .C 1))))),
  .set (.arr .jac 212) (.add (.rd (.arr .jac 212)) (.mul (.num 67040376938333812 18) (.sub (.mul (.rd (.var .jTemp)) (.num 46330052531852528 17)) (.mul (.rd (.var .kr)) (.rd (.arr .C 1)))))),
  .set (.arr .jac 232) (.add (.rd (.arr .jac 232)) (.mul (.neg (.num 12565668251597606 17)) (.mul (.rd (.var .jTemp)) (.num 42731999023327338 17)))),
  .set (.arr .jac 240) (.add (.rd (.arr .jac 240)) (.mul (.neg (.num 87434331748402383 17)) (.mul (.rd (.var .jTemp)) (.num 42731999023327338 17)))),
  .set (.arr .jac 241) (.add (.rd (.arr .jac 241)) (.mul (.num 93717165874201191 17) (.mul (.rd (.var .jTemp)) (.num 42731999023327338 17)))),
  .set (.arr .jac 233) (.add (.rd (.arr .jac 233)) (.mul (.num 6282834125798803 17) (.mul (.rd (.var .jTemp)) (.num 42731999023327338 17)))),
  .set (.arr .jac 253) (.add (.rd (.arr .jac 253)) (.mul (.neg (.num 7196898294919031 17)) (.mul (.rd (.var .jTemp)) (.num 10994706834011048 20)))),
  .set (.arr .jac 261) (.add (.rd (.arr .jac 261)) (.mul (.neg (.num 50077399822922919 17)) (.mul (.rd (.var .jTemp)) (.num 10994706834011048 20)))),
  .set (.arr .jac 262) (.add (.rd (.arr .jac 262)) (.mul (.num 53675848970382434 17) (.mul (.rd (.var .jTemp)) (.num 10994706834011048 20)))),
  .set (.arr .jac 254) (.add (.rd (.arr .jac 254)) (.mul (.num 35984491474595155 18) (.mul (.rd (.var .jTemp)) (.num 10994706834011048 20)))),
  .set (.arr .jac 274) (.add (.rd (.arr .jac 274)) (.mul (.neg (.num 45805252466496103 18)) (.mul (.rd (.var .jTemp)) (.neg (.num 57102223643760053 17))))),
  .set (.arr .jac 282) (.add (.rd (.arr .jac 282)) (.mul (.neg (.num 31872173924898545 17)) (.mul (.rd (.var .jTemp)) (.neg (.num 57102223643760053 17))))),
  .set (.arr .jac 283) (.add (.rd (.arr .jac 283)) (.mul (.num 34162436548223352 17) (.mul (.rd (.var .jTemp)) (.neg (.num 57102223643760053 17))))),
  .set (.arr .jac 275) (.add (.rd (.arr .jac 275)) (.mul (.num 22902626233248052 18) (.mul (.rd (.var .jTemp)) (.neg (.num 57102223643760053 17))))),
  .set (.arr .jac 295) (.add (.rd (.arr .jac 295)) (.mul (.neg (.num 69469170186854251 18)) (.mul (.rd (.var .jTemp)) (.neg (.num 35870588016911675 18))))),
  .set (.arr .jac 303) (.add (.rd (.arr .jac 303)) (.mul (.neg (.num 48337982117516021 17)) (.mul (.rd (.var .jTemp)) (.neg (.num 35870588016911675 18))))),
  .set (.arr .jac 304) (.add (.rd (.arr .jac 304)) (.mul (.num 5181144062685874 16) (.mul (.rd (.var .jTemp)) (.neg (.num 35870588016911675 18))))),
  .set (.arr .jac 296) (.add (.rd (.arr .jac 296)) (.mul (.num 34734585093427126 18) (.mul (.rd (.var .jTemp)) (.neg (.num 35870588016911675 18))))),
  .set (.arr .jac 316) (.add (.rd (.arr .jac 316)) (.mul (.neg (.num 67137187823466643 18)) (.mul (.rd (.var .jTemp)) (.neg (.num 71851123102163683 18))))),
  .set (.arr .jac 324) (.add (.rd (.arr .jac 324)) (.mul (.neg (.num 46715344025300498 17)) (.mul (.rd (.var .jTemp)) (.neg (.num 71851123102163683 18))))),
  .set (.arr .jac 325) (.add (.rd (.arr .jac 325)) (.mul (.num 50072203416473837 17) (.mul (.rd (.var .jTemp)) (.neg (.num 71851123102163683 18))))),
  .set (.arr .jac 317) (.add (.rd (.arr .jac 317)) (.mul (.num 33568593911733322 18) (.mul (.rd (.var .jTemp)) (.neg (.num 71851123102163683 18))))),
  .set (.arr .jac 337) (.add (.rd (.arr .jac 337)) (.mul (.neg (.num 64956683299918619 18)) (.mul (.rd (.var .jTemp)) (.neg (.num 10783165818741525 17))))),
  .set (.arr .jac 345) (.add (.rd (.arr .jac 345)) (.mul (.neg (.num 45198107121751407 17)) (.mul (.rd (.var .jTemp)) (.neg (.num 10783165818741525 17))))),
  .set (.arr .jac 346) (.add (.rd (.arr .jac 346)) (.mul (.num 4844594128674734 16) (.mul (.rd (.var .jTemp)) (.neg (.num 10783165818741525 17))))),
  .set (.arr .jac 338) (.add (.rd (.arr .jac 338)) (.mul (.num 32478341649959309 18) (.mul (.rd (.var .jTemp)) (.neg (.num 10783165818741525 17))))),
  .set (.arr .jac 358) (.add (.rd (.arr .jac 358)) (.mul (.neg (.num 71857747410685777 18)) (.mul (.rd (.var .jTemp)) (.neg (.num 14378791924458678 19))))),
  .set (.arr .jac 366) (.add (.rd (.arr .jac 366)) (.mul (.neg (.num 5 1)) (.mul (.rd (.var .jTemp)) (.neg (.num 14378791924458678 19))))),
  .set (.arr .jac 367) (.add (.rd (.arr .jac 367)) (.mul (.num 53592887370534292 17) (.mul (.rd (.var .jTemp)) (.neg (.num 14378791924458678 19))))),
  .set (.arr .jac 359) (.add (.rd (.arr .jac 359)) (.mul (.num 35928873705342888 18) (.mul (.rd (.var .jTemp)) (.neg (.num 14378791924458678 19))))),
  .set (.arr .jac 379) (.add (.rd (.arr .jac 379)) (.mul (.neg (.num 6936552231975418 17)) (.mul (.rd (.var .jTemp)) (.neg (.num 37418414277697654 18))))),
  .set (.arr .jac 387) (.add (.rd (.arr .jac 387)) (.mul (.neg (.num 48265861942006144 17)) (.mul (.rd (.var .jTemp)) (.neg (.num 37418414277697654 18))))),
  .set (.arr .jac 388) (.add (.rd (.arr .jac 388)) (.mul (.num 51734138057993861 17) (.mul (.rd (.var .jTemp)) (.neg (.num 37418414277697654 18))))),
  .set (.arr .jac 380) (.add (.rd (.arr .jac 380)) (.mul (.num 3468276115987709 17) (.mul (.rd (.var .jTemp)) (.neg (.num 37418414277697654 18))))),
  .set (.arr .jac 400) (.add (.rd (.arr .jac 400)) (.mul (.neg (.num 67040376938333812 18)) (.mul (.rd (.var .jTemp)) (.neg (.num 73398949362949439 18))))),
  .set (.arr .jac 408) (.add (.rd (.arr .jac 408)) (.mul (.neg (.num 46647981153083307 17)) (.mul (.rd (.var .jTemp)) (.neg (.num 73398949362949439 18))))),
  .set (.arr .jac 409) (.add (.rd (.arr .jac 409)) (.mul (.num 5 1) (.mul (.rd (.var .jTemp)) (.neg (.num 73398949362949439 18))))),
  .set (.arr .jac 401) (.add (.rd (.arr .jac 401)) (.mul (.num 33520188469166906 18) (.mul (.rd (.var .jTemp)) (.neg (.num 73398949362949439 18))))),
  .set (.arr .jac 421) (.add (.rd (.arr .jac 421)) (.mul (.neg (.num 5046260138179634 17)) (.mul (.rd (.var .jTemp)) (.neg (.num 42602775520927771 17))))),
  .set (.arr .jac 429) (.add (.rd (.arr .jac 429)) (.mul (.neg (.num 3511284670071092 16)) (.mul (.rd (.var .jTemp)) (.neg (.num 42602775520927771 17))))),
  .set (.arr .jac 430) (.add (.rd (.arr .jac 430)) (.mul (.num 37635976769800739 17) (.mul (.rd (.var .jTemp)) (.neg (.num 42602775520927771 17))))),
  .set (.arr .jac 422) (.add (.rd (.arr .jac 422)) (.mul (.num 2523130069089817 17) (.mul (.rd (.var .jTemp)) (.neg (.num 42602775520927771 17)))))]

/-- utilities/mechanisms/drm19/lib/src/jacobs/jacob_1.c:2474-2478 -/
def jacobT66 : List CStmt := [
  .set (.var .jTemp) (.mul (.mul (.div (.num 1 0) (.rd (.var .T))) (.sub (.mul (.rd (.arr .fwd 66)) (.neg (.num 1 0))) (.mul (.rd (.arr .rev 66)) (.add (.neg (.num 1 0)) (.mul (.neg (.rd (.var .T))) (.sub (.rd (.arr .dBdT 7)) (.rd (.arr .dBdT 8)))))))) (.rd (.var .rhoInv))),
  .set (.arr .jac 9) (.add (.rd (.arr .jac 9)) (.mul (.neg (.rd (.var .jTemp))) (.num 14026879999999998 15))),
  .set (.arr .jac 8) (.add (.rd (.arr .jac 8)) (.mul (.rd (.var .jTemp)) (.num 14026879999999998 15)))]

/-- utilities/mechanisms/drm19/lib/src/jacobs/jacob_1.c:2479-2530 -/
def jacobS66 : List CStmt := [
  .ite (.rd (.var .T)) (.num 1000 0) (.var .Kc) (.sub (.add (.add (.num 27675762569999995 16) (.mul (.neg (.num 43592543999999966 17)) (.rd (.var .logT)))) (.mul (.rd (.var .T)) (.add (.num 16677431665000002 19) (.mul (.rd (.var .T)) (.add (.neg (.num 90634396499999983 23)) (.mul (.rd (.var .T)) (.add (.num 23643735666666669 26) (.mul (.neg (.num 12786509000000005 30)) (.rd (.var .T)))))))))) (.div (.neg (.num 44927762000000002 13)) (.rd (.var .T)))) (.sub (.add (.add (.neg (.num 30373711599999997 16)) (.mul (.num 58206271000000021 17) (.rd (.var .logT)))) (.mul (.rd (.var .T)) (.add (.neg (.num 49974672500000005 20)) (.mul (.rd (.var .T)) (.add (.num 10049558333333332 23) (.mul (.rd (.var .T)) (.add (.neg (.num 13143870916666673 27)) (.mul (.num 75994398999999995 32) (.rd (.var .T)))))))))) (.div (.neg (.num 46623957000000009 13)) (.rd (.var .T)))),
  .set (.var .Kc) (.exp (.rd (.var .Kc))),
  .set (.var .jTemp) (.mul (.mul (.neg (.rd (.var .mwAvg))) (.rd (.var .rhoInv))) (.sub (.mul (.num 2 0) (.rd (.arr .fwd 66))) (.mul (.num 2 0) (.rd (.arr .rev 66))))),
  .set (.var .kf) (.num 30000000000 0),
  .set (.var .kr) (.div (.rd (.var .kf)) (.rd (.var .Kc))),
  .set (.arr .jac 30) (.add (.rd (.arr .jac 30)) (.mul (.neg (.num 69581919558703875 16)) (.mul (.rd (.var .jTemp)) (.num 92803892982949643 17)))),
  .set (.arr .jac 29) (.add (.rd (.arr .jac 29)) (.mul (.num 69581919558703875 16) (.mul (.rd (.var .jTemp)) (.num 92803892982949643 17)))),
  .set (.arr .jac 51) (.add (.rd (.arr .jac 51)) (.mul (.neg (.num 13916383911740775 15)) (.mul (.rd (.var .jTemp)) (.num 96401946491474821 17)))),
  .set (.arr .jac 50) (.add (.rd (.arr .jac 50)) (.mul (.num 13916383911740775 15) (.mul (.rd (.var .jTemp)) (.num 96401946491474821 17)))),
  .set (.arr .jac 72) (.add (.rd (.arr .jac 72)) (.mul (.neg (.num 87671287673287746 17)) (.mul (.rd (.var .jTemp)) (.num 42886781649405936 17)))),
  .set (.arr .jac 71) (.add (.rd (.arr .jac 71)) (.mul (.num 87671287673287746 17) (.mul (.rd (.var .jTemp)) (.num 42886781649405936 17)))),
  .set (.arr .jac 93) (.add (.rd (.arr .jac 93)) (.mul (.neg (.num 43835643836643873 17)) (.mul (.rd (.var .jTemp)) (.neg (.num 14226436701188128 17))))),
  .set (.arr .jac 92) (.add (.rd (.arr .jac 92)) (.mul (.num 43835643836643873 17) (.mul (.rd (.var .jTemp)) (.neg (.num 14226436701188128 17))))),
  .set (.arr .jac 114) (.add (.rd (.arr .jac 114)) (.mul (.neg (.num 8247544883562038 16)) (.mul (.rd (.var .jTemp)) (.num 39288728140880758 17)))),
  .set (.arr .jac 113) (.add (.rd (.arr .jac 113)) (.mul (.num 8247544883562038 16) (.mul (.rd (.var .jTemp)) (.num 39288728140880758 17)))),
  .set (.arr .jac 135) (.add (.rd (.arr .jac 135)) (.mul (.neg (.num 77861015759954877 17)) (.sub (.add (.mul (.rd (.var .jTemp)) (.num 35690674632355568 17)) (.mul (.rd (.var .kf)) (.rd (.arr .C 8)))) (.mul (.rd (.var .kr)) (.rd (.arr .C 7)))))),
  .set (.arr .jac 134) (.add (.rd (.arr .jac 134)) (.mul (.num 77861015759954877 17) (.sub (.add (.mul (.rd (.var .jTemp)) (.num 35690674632355568 17)) (.mul (.rd (.var .kf)) (.rd (.arr .C 8)))) (.mul (.rd (.var .kr)) (.rd (.arr .C 7)))))),
  .set (.arr .jac 156) (.add (.rd (.arr .jac 156)) (.mul (.neg (.num 42497017275865467 17)) (.mul (.rd (.var .jTemp)) (.neg (.num 17824490209713328 17))))),
  .set (.arr .jac 155) (.add (.rd (.arr .jac 155)) (.mul (.num 42497017275865467 17) (.mul (.rd (.var .jTemp)) (.neg (.num 17824490209713328 17))))),
  .set (.arr .jac 177) (.add (.rd (.arr .jac 177)) (.neg (.sub (.mul (.rd (.var .jTemp)) (.num 49928106040377707 17)) (.mul (.rd (.var .kr)) (.rd (.arr .C 5)))))),
  .set (.arr .jac 176) (.add (.rd (.arr .jac 176)) (.sub (.mul (.rd (.var .jTemp)) (.num 49928106040377707 17)) (.mul (.rd (.var .kr)) (.rd (.arr .C 5))))),
  .set (.arr .jac 198) (.add (.rd (.arr .jac 198)) (.neg (.add (.mul (.rd (.var .jTemp)) (.num 49928106040377707 17)) (.mul (.rd (.var .kf)) (.rd (.arr .C 5)))))),
  .set (.arr .jac 197) (.add (.rd (.arr .jac 197)) (.add (.mul (.rd (.var .jTemp)) (.num 49928106040377707 17)) (.mul (.rd (.var .kf)) (.rd (.arr .C 5))))),
  .set (.arr .jac 219) (.add (.rd (.arr .jac 219)) (.mul (.neg (.num 93295962306166613 17)) (.mul (.rd (.var .jTemp)) (.num 46330052531852528 17)))),
  .set (.arr .jac 218) (.add (.rd (.arr .jac 218)) (.mul (.num 93295962306166613 17) (.mul (.rd (.var .jTemp)) (.num 46330052531852528 17)))),
  .set (.arr .jac 240) (.add (.rd (.arr .jac 240)) (.mul (.neg (.num 87434331748402383 17)) (.mul (.rd (.var .jTemp)) (.num 42731999023327338 17)))),
  .set (.arr .jac 239) (.add (.rd (.arr .jac 239)) (.mul (.num 87434331748402383 17) (.mul (.rd (.var .jTemp)) (.num 42731999023327338 17)))),
  .set (.arr .jac 261) (.add (.rd (.arr .jac 261)) (.mul (.neg (.num 50077399822922919 17)) (.mul (.rd (.var .jTemp)) (.num 10994706834011048 20)))),
  .set (.arr .jac 260) (.add (.rd (.arr .jac 260)) (.mul (.num 50077399822922919 17) (.mul (.rd (.var .jTemp)) (.num 10994706834011048 20)))),
  .set (.arr .jac 282) (.add (.rd (.arr .jac 282)) (.mul (.neg (.num 31872173924898545 17)) (.mul (.rd (.var .jTemp)) (.neg (.num 57102223643760053 17))))),
  .set (.arr .jac 281) (.add (.rd (.arr .jac 281)) (.mul (.num 31872173924898545 17) (.mul (.rd (.var .jTemp)) (.neg (.num 57102223643760053 17))))),
  .set (.arr .jac 303) (.add (.rd (.arr .jac 303)) (.mul (.neg (.num 48337982117516021 17)) (.mul (.rd (.var .jTemp)) (.neg (.num 35870588016911675 18))))),
  .set (.arr .jac 302) (.add (.rd (.arr .jac 302)) (.mul (.num 48337982117516021 17) (.mul (.rd (.var .jTemp)) (.neg (.num 35870588016911675 18))))),
  .set (.arr .jac 324) (.add (.rd (.arr .jac 324)) (.mul (.neg (.num 46715344025300498 17)) (.mul (.rd (.var .jTemp)) (.neg (.num 71851123102163683 18))))),
  .set (.arr .jac 323) (.add (.rd (.arr .jac 323)) (.mul (.num 46715344025300498 17) (.mul (.rd (.var .jTemp)) (.neg (.num 71851123102163683 18))))),
  .set (.arr .jac 345) (.add (.rd (.arr .jac 345)) (.mul (.neg (.num 45198107121751407 17)) (.mul (.rd (.var .jTemp)) (.neg (.num 10783165818741525 17))))),
  .set (.arr .jac 344) (.add (.rd (.arr .jac 344)) (.mul (.num 45198107121751407 17) (.mul (.rd (.var .jTemp)) (.neg (.num 10783165818741525 17))))),
  .set (.arr .jac 366) (.add (.rd (.arr .jac 366)) (.mul (.neg (.num 5 1)) (.mul (.rd (.var .jTemp)) (.neg (.num 14378791924458678 19))))),
  .set (.arr .jac 365) (.add (.rd (.arr .jac 365)) (.mul (.num 5 1) (.mul (.rd (.var .jTemp)) (.neg (.num 14378791924458678 19))))),
  .set (.arr .jac 387) (.add (.rd (.arr .jac 387)) (.mul (.neg (.num 48265861942006144 17)) (.mul (.rd (.var .jTemp)) (.neg (.num 37418414277697654 18))))),
  .set (.arr .jac 386) (.add (.rd (.arr .jac 386)) (.mul (.num 48265861942006144 17) (.mul (.rd (.var .jTemp)) (.neg (.num 37418414277697654 18))))),
  .set (.arr .jac 408) (.add (.rd (.arr .jac 408)) (.mul (.neg (.num 46647981153083307 17)) (.mul (.rd (.var .jTemp)) (.neg (.num 73398949362949439 18))))),
  .set (.arr .jac 407) (.add (.rd (.arr .jac 407)) (.mul (.num 46647981153083307 17) (.mul (.rd (.var .jTemp)) (.neg (.num 73398949362949439 18))))),
  .set (.arr .jac 429) (.add (.rd (.arr .jac 429)) (.mul (.neg (.num 3511284670071092 16)) (.mul (.rd (.var .jTemp)) (.neg (.num 42602775520927771 17))))),
  .set (.arr .jac 428) (.add (.rd (.arr .jac 428)) (.mul (.num 3511284670071092 16) (.mul (.rd (.var .jTemp)) (.neg (.num 42602775520927771 17)))))]

/-- utilities/mechanisms/drm19/lib/src/jacobs/jacob_1.c:2531-2537 -/
def jacobT67 : List CStmt := [
  .set (.var .jTemp) (.mul (.mul (.div (.num 1 0) (.rd (.var .T))) (.sub (.add (.mul (.sub (.rd (.arr .fwd 67)) (.rd (.arr .rev 67))) (.div (.neg (.num 28683515196972269 14)) (.rd (.var .T)))) (.mul (.rd (.arr .fwd 67)) (.neg (.num 1 0)))) (.mul (.rd (.arr .rev 67)) (.add (.neg (.num 1 0)) (.mul (.neg (.rd (.var .T))) (.sub (.sub (.add (.rd (.arr .dBdT 1)) (.rd (.arr .dBdT 16))) (.rd (.arr .dBdT 8))) (.rd (.arr .dBdT 9)))))))) (.rd (.var .rhoInv))),
  .set (.arr .jac 9) (.add (.rd (.arr .jac 9)) (.mul (.neg (.rd (.var .jTemp))) (.num 14026879999999998 15))),
  .set (.arr .jac 10) (.add (.rd (.arr .jac 10)) (.mul (.neg (.rd (.var .jTemp))) (.num 1503482 5))),
  .set (.arr .jac 17) (.add (.rd (.arr .jac 17)) (.mul (.rd (.var .jTemp)) (.num 28053759999999997 15))),
  .set (.arr .jac 2) (.add (.rd (.arr .jac 2)) (.mul (.rd (.var .jTemp)) (.num 10079400000000001 16)))]

/-- utilities/mechanisms/drm19/lib/src/jacobs/jacob_1.c:2538-2629 -/
def jacobS67 : List CStmt := [
  .ite (.rd (.var .T)) (.num 1000 0) (.var .Kc) (.sub (.add (.add (.num 42281957739999996 16) (.mul (.neg (.num 141299303 8)) (.rd (.var .logT)))) (.mul (.rd (.var .T)) (.add (.neg (.num 36074300146473341 19)) (.mul (.rd (.var .T)) (.add (.num 71893080730006801 22) (.mul (.rd (.var .T)) (.add (.neg (.num 46332951031415987 25)) (.mul (.num 11250716294536136 28) (.rd (.var .T)))))))))) (.div (.neg (.num 36378379270000005 12)) (.rd (.var .T)))) (.sub (.add (.add (.neg (.num 72062421239999983 16)) (.mul (.neg (.num 41644970000000114 18)) (.rd (.var .logT)))) (.mul (.rd (.var .T)) (.add (.num 13748141684578508 19) (.mul (.rd (.var .T)) (.add (.neg (.num 28528603064063424 23)) (.mul (.rd (.var .T)) (.add (.num 38219881772070648 27) (.mul (.neg (.num 22509492300901323 31)) (.rd (.var .T)))))))))) (.div (.neg (.num 37288037960000001 12)) (.rd (.var .T)))),
  .set (.var .Kc) (.exp (.rd (.var .Kc))),
  .set (.var .jTemp) (.mul (.mul (.neg (.rd (.var .mwAvg))) (.rd (.var .rhoInv))) (.sub (.mul (.num 2 0) (.rd (.arr .fwd 67))) (.mul (.num 2 0) (.rd (.arr .rev 67))))),
  .set (.var .kf) (.exp (.sub (.num 23208172486734412 15) (.div (.neg (.num 28683515196972269 14)) (.rd (.var .T))))),
  .set (.var .kr) (.div (.rd (.var .kf)) (.rd (.var .Kc))),
  .set (.arr .jac 30) (.add (.rd (.arr .jac 30)) (.mul (.neg (.num 69581919558703875 16)) (.mul (.rd (.var .jTemp)) (.num 92803892982949643 17)))),
  .set (.arr .jac 31) (.add (.rd (.arr .jac 31)) (.mul (.neg (.num 74581919558703884 16)) (.mul (.rd (.var .jTemp)) (.num 92803892982949643 17)))),
  .set (.arr .jac 38) (.add (.rd (.arr .jac 38)) (.mul (.num 13916383911740775 15) (.mul (.rd (.var .jTemp)) (.num 92803892982949643 17)))),
  .set (.arr .jac 23) (.add (.rd (.arr .jac 23)) (.mul (.num 5 1) (.mul (.rd (.var .jTemp)) (.num 92803892982949643 17)))),
  .set (.arr .jac 51) (.add (.rd (.arr .jac 51)) (.mul (.neg (.num 13916383911740775 15)) (.sub (.mul (.rd (.var .jTemp)) (.num 96401946491474821 17)) (.mul (.rd (.var .kr)) (.rd (.arr .C 16)))))),
  .set (.arr .jac 52) (.add (.rd (.arr .jac 52)) (.mul (.neg (.num 14916383911740777 15)) (.sub (.mul (.rd (.var .jTemp)) (.num 96401946491474821 17)) (.mul (.rd (.var .kr)) (.rd (.arr .C 16)))))),
  .set (.arr .jac 59) (.add (.rd (.arr .jac 59)) (.mul (.num 2783276782348155 14) (.sub (.mul (.rd (.var .jTemp)) (.num 96401946491474821 17)) (.mul (.rd (.var .kr)) (.rd (.arr .C 16)))))),
  .set (.arr .jac 44) (.add (.rd (.arr .jac 44)) (.sub (.mul (.rd (.var .jTemp)) (.num 96401946491474821 17)) (.mul (.rd (.var .kr)) (.rd (.arr .C 16))))),
  .set (.arr .jac 72) (.add (.rd (.arr .jac 72)) (.mul (.neg (.num 87671287673287746 17)) (.mul (.rd (.var .jTemp)) (.num 42886781649405936 17)))),
  .set (.arr .jac 73) (.add (.rd (.arr .jac 73)) (.mul (.neg (.num 93971148918084424 17)) (.mul (.rd (.var .jTemp)) (.num 42886781649405936 17)))),
  .set (.arr .jac 80) (.add (.rd (.arr .jac 80)) (.mul (.num 17534257534657549 16) (.mul (.rd (.var .jTemp)) (.num 42886781649405936 17)))),
  .set (.arr .jac 65) (.add (.rd (.arr .jac 65)) (.mul (.num 62998612447966798 18) (.mul (.rd (.var .jTemp)) (.num 42886781649405936 17)))),
  .set (.arr .jac 93) (.add (.rd (.arr .jac 93)) (.mul (.neg (.num 43835643836643873 17)) (.mul (.rd (.var .jTemp)) (.neg (.num 14226436701188128 17))))),
  .set (.arr .jac 94) (.add (.rd (.arr .jac 94)) (.mul (.neg (.num 46985574459042212 17)) (.mul (.rd (.var .jTemp)) (.neg (.num 14226436701188128 17))))),
  .set (.arr .jac 101) (.add (.rd (.arr .jac 101)) (.mul (.num 87671287673287746 17) (.mul (.rd (.var .jTemp)) (.neg (.num 14226436701188128 17))))),
  .set (.arr .jac 86) (.add (.rd (.arr .jac 86)) (.mul (.num 31499306223983399 18) (.mul (.rd (.var .jTemp)) (.neg (.num 14226436701188128 17))))),
  .set (.arr .jac 114) (.add (.rd (.arr .jac 114)) (.mul (.neg (.num 8247544883562038 16)) (.mul (.rd (.var .jTemp)) (.num 39288728140880758 17)))),
  .set (.arr .jac 115) (.add (.rd (.arr .jac 115)) (.mul (.neg (.num 88401948805633335 17)) (.mul (.rd (.var .jTemp)) (.num 39288728140880758 17)))),
  .set (.arr .jac 122) (.add (.rd (.arr .jac 122)) (.mul (.num 16495089767124076 16) (.mul (.rd (.var .jTemp)) (.num 39288728140880758 17)))),
  .set (.arr .jac 107) (.add (.rd (.arr .jac 107)) (.mul (.num 59264999700129481 18) (.mul (.rd (.var .jTemp)) (.num 39288728140880758 17)))),
  .set (.arr .jac 135) (.add (.rd (.arr .jac 135)) (.mul (.neg (.num 77861015759954877 17)) (.mul (.rd (.var .jTemp)) (.num 35690674632355568 17)))),
  .set (.arr .jac 136) (.add (.rd (.arr .jac 136)) (.mul (.neg (.num 83455932963573143 17)) (.mul (.rd (.var .jTemp)) (.num 35690674632355568 17)))),
  .set (.arr .jac 143) (.add (.rd (.arr .jac 143)) (.mul (.num 15572203151990975 16) (.mul (.rd (.var .jTemp)) (.num 35690674632355568 17)))),
  .set (.arr .jac 128) (.add (.rd (.arr .jac 128)) (.mul (.num 55949172036182618 18) (.mul (.rd (.var .jTemp)) (.num 35690674632355568 17)))),
  .set (.arr .jac 156) (.add (.rd (.arr .jac 156)) (.mul (.neg (.num 42497017275865467 17)) (.mul (.rd (.var .jTemp)) (.neg (.num 17824490209713328 17))))),
  .set (.arr .jac 157) (.add (.rd (.arr .jac 157)) (.mul (.neg (.num 45550757208982162 17)) (.mul (.rd (.var .jTemp)) (.neg (.num 17824490209713328 17))))),
  .set (.arr .jac 164) (.add (.rd (.arr .jac 164)) (.mul (.num 84994034551730935 17) (.mul (.rd (.var .jTemp)) (.neg (.num 17824490209713328 17))))),
  .set (.arr .jac 149) (.add (.rd (.arr .jac 149)) (.mul (.num 3053739933116691 17) (.mul (.rd (.var .jTemp)) (.neg (.num 17824490209713328 17))))),
  .set (.arr .jac 177) (.add (.rd (.arr .jac 177)) (.neg (.mul (.rd (.var .jTemp)) (.num 49928106040377707 17)))),
  .set (.arr .jac 178) (.add (.rd (.arr .jac 178)) (.mul (.neg (.num 10718577474106858 16)) (.mul (.rd (.var .jTemp)) (.num 49928106040377707 17)))),
  .set (.arr .jac 185) (.add (.rd (.arr .jac 185)) (.mul (.num 2 0) (.mul (.rd (.var .jTemp)) (.num 49928106040377707 17)))),
  .set (.arr .jac 170) (.add (.rd (.arr .jac 170)) (.mul (.num 71857747410685777 18) (.mul (.rd (.var .jTemp)) (.num 49928106040377707 17)))),
  .set (.arr .jac 198) (.add (.rd (.arr .jac 198)) (.neg (.add (.mul (.rd (.var .jTemp)) (.num 49928106040377707 17)) (.mul (.rd (.var .kf)) (.rd (.arr .C 9)))))),
  .set (.arr .jac 199) (.add (.rd (.arr .jac 199)) (.mul (.neg (.num 10718577474106858 16)) (.add (.mul (.rd (.var .jTemp)) (.num 49928106040377707 17)) (.mul (.rd (.var .kf)) (.rd (.arr .C 9)))))),
  .set (.arr .jac 206) (.add (.rd (.arr .jac 206)) (.mul (.num 2 0) (.add (.mul (.rd (.var .jTemp)) (.num 49928106040377707 17)) (.mul (.rd (.var .kf)) (.rd (.arr .C 9)))))),
  .set (.arr .jac 191) (.add (.rd (.arr .jac 191)) (.mul (.num 71857747410685777 18) (.add (.mul (.rd (.var .jTemp)) (.num 49928106040377707 17)) (.mul (.rd (.var .kf)) (.rd (.arr .C 9)))))),
  .set (.arr .jac 219) (.add (.rd (.arr .jac 219)) (.mul (.neg (.num 93295962306166613 17)) (.add (.mul (.rd (.var .jTemp)) (.num 46330052531852528 17)) (.mul (.rd (.var .kf)) (.rd (.arr .C 8)))))),
  .set (.arr .jac 220) (.add (.rd (.arr .jac 220)) (.neg (.add (.mul (.rd (.var .jTemp)) (.num 46330052531852528 17)) (.mul (.rd (.var .kf)) (.rd (.arr .C 8)))))),
  .set (.arr .jac 227) (.add (.rd (.arr .jac 227)) (.mul (.num 18659192461233323 16) (.add (.mul (.rd (.var .jTemp)) (.num 46330052531852528 17)) (.mul (.rd (.var .kf)) (.rd (.arr .C 8)))))),
  .set (.arr .jac 212) (.add (.rd (.arr .jac 212)) (.mul (.num 67040376938333812 18) (.add (.mul (.rd (.var .jTemp)) (.num 46330052531852528 17)) (.mul (.rd (.var .kf)) (.rd (.arr .C 8)))))),
  .set (.arr .jac 240) (.add (.rd (.arr .jac 240)) (.mul (.neg (.num 87434331748402383 17)) (.mul (.rd (.var .jTemp)) (.num 42731999023327338 17)))),
  .set (.arr .jac 241) (.add (.rd (.arr .jac 241)) (.mul (.neg (.num 93717165874201191 17)) (.mul (.rd (.var .jTemp)) (.num 42731999023327338 17)))),
  .set (.arr .jac 248) (.add (.rd (.arr .jac 248)) (.mul (.num 17486866349680477 16) (.mul (.rd (.var .jTemp)) (.num 42731999023327338 17)))),
  .set (.arr .jac 233) (.add (.rd (.arr .jac 233)) (.mul (.num 6282834125798803 17) (.mul (.rd (.var .jTemp)) (.num 42731999023327338 17)))),
  .set (.arr .jac 261) (.add (.rd (.arr .jac 261)) (.mul (.neg (.num 50077399822922919 17)) (.mul (.rd (.var .jTemp)) (.num 10994706834011048 20)))),
  .set (.arr .jac 262) (.add (.rd (.arr .jac 262)) (.mul (.neg (.num 53675848970382434 17)) (.mul (.rd (.var .jTemp)) (.num 10994706834011048 20)))),
  .set (.arr .jac 269) (.add (.rd (.arr .jac 269)) (.mul (.num 10015479964584584 16) (.mul (.rd (.var .jTemp)) (.num 10994706834011048 20)))),
  .set (.arr .jac 254) (.add (.rd (.arr .jac 254)) (.mul (.num 35984491474595155 18) (.mul (.rd (.var .jTemp)) (.num 10994706834011048 20)))),
  .set (.arr .jac 282) (.add (.rd (.arr .jac 282)) (.mul (.neg (.num 31872173924898545 17)) (.mul (.rd (.var .jTemp)) (.neg (.num 57102223643760053 17))))),
  .set (.arr .jac 283) (.add (.rd (.arr .jac 283)) (.mul (.neg (.num 34162436548223352 17)) (.mul (.rd (.var .jTemp)) (.neg (.num 57102223643760053 17))))),
  .set (.arr .jac 290) (.add (.rd (.arr .jac 290)) (.mul (.num 63744347849797089 17) (.mul (.rd (.var .jTemp)) (.neg (.num 57102223643760053 17))))),
  .set (.arr .jac 275) (.add (.rd (.arr .jac 275)) (.mul (.num 22902626233248052 18) (.mul (.rd (.var .jTemp)) (.neg (.num 57102223643760053 17))))),
  .set (.arr .jac 303) (.add (.rd (.arr .jac 303)) (.mul (.neg (.num 48337982117516021 17)) (.mul (.rd (.var .jTemp)) (.neg (.num 35870588016911675 18))))),
  .set (.arr .jac 304) (.add (.rd (.arr .jac 304)) (.mul (.neg (.num 5181144062685874 16)) (.mul (.rd (.var .jTemp)) (.neg (.num 35870588016911675 18))))),
  .set (.arr .jac 311) (.add (.rd (.arr .jac 311)) (.mul (.num 96675964235032041 17) (.mul (.rd (.var .jTemp)) (.neg (.num 35870588016911675 18))))),
  .set (.arr .jac 296) (.add (.rd (.arr .jac 296)) (.mul (.num 34734585093427126 18) (.mul (.rd (.var .jTemp)) (.neg (.num 35870588016911675 18))))),
  .set (.arr .jac 324) (.add (.rd (.arr .jac 324)) (.mul (.neg (.num 46715344025300498 17)) (.mul (.rd (.var .jTemp)) (.neg (.num 71851123102163683 18))))),
  .set (.arr .jac 325) (.add (.rd (.arr .jac 325)) (.mul (.neg (.num 50072203416473837 17)) (.mul (.rd (.var .jTemp)) (.neg (.num 71851123102163683 18))))),
  .set (.arr .jac 332) (.add (.rd (.arr .jac 332)) (.mul (.num 93430688050600996 17) (.mul (.rd (.var .jTemp)) (.neg (.num 71851123102163683 18))))),
  .set (.arr .jac 317) (.add (.rd (.arr .jac 317)) (.mul (.num 33568593911733322 18) (.mul (.rd (.var .jTemp)) (.neg (.num 71851123102163683 18))))),
  .set (.arr .jac 345) (.add (.rd (.arr .jac 345)) (.mul (.neg (.num 45198107121751407 17)) (.mul (.rd (.var .jTemp)) (.neg (.num 10783165818741525 17))))),
  .set (.arr .jac 346) (.add (.rd (.arr .jac 346)) (.mul (.neg (.num 4844594128674734 16)) (.mul (.rd (.var .jTemp)) (.neg (.num 10783165818741525 17))))),
  .set (.arr .jac 353) (.add (.rd (.arr .jac 353)) (.mul (.num 90396214243502815 17) (.mul (.rd (.var .jTemp)) (.neg (.num 10783165818741525 17))))),
  .set (.arr .jac 338) (.add (.rd (.arr .jac 338)) (.mul (.num 32478341649959309 18) (.mul (.rd (.var .jTemp)) (.neg (.num 10783165818741525 17))))),
  .set (.arr .jac 366) (.add (.rd (.arr .jac 366)) (.mul (.neg (.num 5 1)) (.sub (.mul (.rd (.var .jTemp)) (.neg (.num 14378791924458678 19))) (.mul (.rd (.var .kr)) (.rd (.arr .C 1)))))),
  .set (.arr .jac 367) (.add (.rd (.arr .jac 367)) (.mul (.neg (.num 53592887370534292 17)) (.sub (.mul (.rd (.var .jTemp)) (.neg (.num 14378791924458678 19))) (.mul (.rd (.var .kr)) (.rd (.arr .C 1)))))),
  .set (.arr .jac 374) (.add (.rd (.arr .jac 374)) (.sub (.mul (.rd (.var .jTemp)) (.neg (.num 14378791924458678 19))) (.mul (.rd (.var .kr)) (.rd (.arr .C 1))))),
  .set (.arr .jac 359) (.add (.rd (.arr .jac 359)) (.mul (.num 35928873705342888 18) (.sub (.mul (.rd (.var .jTemp)) (.neg (.num 14378791924458678 19))) (.mul (.rd (.var .kr)) (.rd (.arr .C 1)))))),
  .set (.arr .jac 387) (.add (.rd (.arr .jac 387)) (.mul (.neg (.num 48265861942006144 17)) (.mul (.rd (.var .jTemp)) (.neg (.num 37418414277697654 18))))),
  .set (.arr .jac 388) (.add (.rd (.arr .jac 388)) (.mul (.neg (.num 51734138057993861 17)) (.mul (.rd (.var .jTemp)) (.neg (.num 37418414277697654 18))))),
  .set (.arr .jac 395) (.add (.rd (.arr .jac 395)) (.mul (.num 96531723884012288 17) (.mul (.rd (.var .jTemp)) (.neg (.num 37418414277697654 18))))),
  .set (.arr .jac 380) (.add (.rd (.arr .jac 380)) (.mul (.num 3468276115987709 17) (.mul (.rd (.var .jTemp)) (.neg (.num 37418414277697654 18))))),
  .set (.arr .jac 408) (.add (.rd (.arr .jac 408)) (.mul (.neg (.num 46647981153083307 17)) (.mul (.rd (.var .jTemp)) (.neg (.num 73398949362949439 18))))),
  .set (.arr .jac 409) (.add (.rd (.arr .jac 409)) (.mul (.neg (.num 5 1)) (.mul (.rd (.var .jTemp)) (.neg (.num 73398949362949439 18))))),
  .set (.arr .jac 416) (.add (.rd (.arr .jac 416)) (.mul (.num 93295962306166613 17) (.mul (.rd (.var .jTemp)) (.neg (.num 73398949362949439 18))))),
  .set (.arr .jac 401) (.add (.rd (.arr .jac 401)) (.mul (.num 33520188469166906 18) (.mul (.rd (.var .jTemp)) (.neg (.num 73398949362949439 18))))),
  .set (.arr .jac 429) (.add (.rd (.arr .jac 429)) (.mul (.neg (.num 3511284670071092 16)) (.mul (.rd (.var .jTemp)) (.neg (.num 42602775520927771 17))))),
  .set (.arr .jac 430) (.add (.rd (.arr .jac 430)) (.mul (.neg (.num 37635976769800739 17)) (.mul (.rd (.var .jTemp)) (.neg (.num 42602775520927771 17))))),
  .set (.arr .jac 437) (.add (.rd (.arr .jac 437)) (.mul (.num 7022569340142184 16) (.mul (.rd (.var .jTemp)) (.neg (.num 42602775520927771 17))))),
  .set (.arr .jac 422) (.add (.rd (.arr .jac 422)) (.mul (.num 2523130069089817 17) (.mul (.rd (.var .jTemp)) (.neg (.num 42602775520927771 17)))))]

/-- utilities/mechanisms/drm19/lib/src/jacobs/jacob_1.c:2630-2635 -/
def jacobT68 : List CStmt := [
  .set (.var .jTemp) (.mul (.mul (.div (.num 1 0) (.rd (.var .T))) (.sub (.add (.mul (.sub (.rd (.arr .fwd 68)) (.rd (.arr .rev 68))) (.div (.neg (.num 28683515196972269 14)) (.rd (.var .T)))) (.mul (.rd (.arr .fwd 68)) (.neg (.num 1 0)))) (.mul (.rd (.arr .rev 68)) (.add (.neg (.num 1 0)) (.mul (.neg (.rd (.var .T))) (.sub (.sub (.mul (.num 2 0) (.rd (.arr .dBdT 9))) (.rd (.arr .dBdT 8))) (.rd (.arr .dBdT 10)))))))) (.rd (.var .rhoInv))),
  .set (.arr .jac 9) (.add (.rd (.arr .jac 9)) (.mul (.neg (.rd (.var .jTemp))) (.num 14026879999999998 15))),
  .set (.arr .jac 10) (.add (.rd (.arr .jac 10)) (.mul (.mul (.rd (.var .jTemp)) (.num 2 0)) (.num 1503482 5))),
  .set (.arr .jac 11) (.add (.rd (.arr .jac 11)) (.mul (.neg (.rd (.var .jTemp))) (.num 16042760000000001 15)))]

/-- utilities/mechanisms/drm19/lib/src/jacobs/jacob_1.c:2636-2707 -/
def jacobS68 : List CStmt := [
  .ite (.rd (.var .T)) (.num 1000 0) (.var .Kc) (.sub (.add (.add (.num 10620850826999998 15) (.mul (.neg (.num 20012994399999995 16)) (.rd (.var .logT)))) (.mul (.rd (.var .T)) (.add (.num 10029748245000001 18) (.mul (.rd (.var .T)) (.add (.neg (.num 76587641633333328 22)) (.mul (.rd (.var .T)) (.add (.num 34516761591666673 25) (.mul (.neg (.num 6762414145 22)) (.rd (.var .T)))))))))) (.div (.neg (.num 73601710999999959 13)) (.rd (.var .T)))) (.sub (.add (.add (.neg (.num 12308221634999999 15)) (.mul (.num 22045455250000003 16) (.rd (.var .logT)))) (.mul (.rd (.var .T)) (.add (.neg (.num 17835161650000004 19)) (.mul (.rd (.var .T)) (.add (.num 29508176666666667 23) (.mul (.rd (.var .T)) (.add (.neg (.num 37455171833333327 27)) (.mul (.num 21177993849999999 31) (.rd (.var .T)))))))))) (.div (.neg (.num 79064865100000025 13)) (.rd (.var .T)))),
  .set (.var .Kc) (.exp (.rd (.var .Kc))),
  .set (.var .jTemp) (.mul (.mul (.neg (.rd (.var .mwAvg))) (.rd (.var .rhoInv))) (.sub (.mul (.num 2 0) (.rd (.arr .fwd 68))) (.mul (.num 2 0) (.rd (.arr .rev 68))))),
  .set (.var .kf) (.exp (.sub (.num 23495854559186192 15) (.div (.neg (.num 28683515196972269 14)) (.rd (.var .T))))),
  .set (.var .kr) (.div (.rd (.var .kf)) (.rd (.var .Kc))),
  .set (.arr .jac 30) (.add (.rd (.arr .jac 30)) (.mul (.neg (.num 69581919558703875 16)) (.mul (.rd (.var .jTemp)) (.num 92803892982949643 17)))),
  .set (.arr .jac 31) (.add (.rd (.arr .jac 31)) (.mul (.num 14916383911740777 15) (.mul (.rd (.var .jTemp)) (.num 92803892982949643 17)))),
  .set (.arr .jac 32) (.add (.rd (.arr .jac 32)) (.mul (.neg (.num 79581919558703893 16)) (.mul (.rd (.var .jTemp)) (.num 92803892982949643 17)))),
  .set (.arr .jac 51) (.add (.rd (.arr .jac 51)) (.mul (.neg (.num 13916383911740775 15)) (.mul (.rd (.var .jTemp)) (.num 96401946491474821 17)))),
  .set (.arr .jac 52) (.add (.rd (.arr .jac 52)) (.mul (.num 29832767823481554 15) (.mul (.rd (.var .jTemp)) (.num 96401946491474821 17)))),
  .set (.arr .jac 53) (.add (.rd (.arr .jac 53)) (.mul (.neg (.num 15916383911740779 15)) (.mul (.rd (.var .jTemp)) (.num 96401946491474821 17)))),
  .set (.arr .jac 72) (.add (.rd (.arr .jac 72)) (.mul (.neg (.num 87671287673287746 17)) (.mul (.rd (.var .jTemp)) (.num 42886781649405936 17)))),
  .set (.arr .jac 73) (.add (.rd (.arr .jac 73)) (.mul (.num 18794229783616885 16) (.mul (.rd (.var .jTemp)) (.num 42886781649405936 17)))),
  .set (.arr .jac 74) (.add (.rd (.arr .jac 74)) (.mul (.neg (.num 10027101016288111 16)) (.mul (.rd (.var .jTemp)) (.num 42886781649405936 17)))),
  .set (.arr .jac 93) (.add (.rd (.arr .jac 93)) (.mul (.neg (.num 43835643836643873 17)) (.mul (.rd (.var .jTemp)) (.neg (.num 14226436701188128 17))))),
  .set (.arr .jac 94) (.add (.rd (.arr .jac 94)) (.mul (.num 93971148918084424 17) (.mul (.rd (.var .jTemp)) (.neg (.num 14226436701188128 17))))),
  .set (.arr .jac 95) (.add (.rd (.arr .jac 95)) (.mul (.neg (.num 50135505081440557 17)) (.mul (.rd (.var .jTemp)) (.neg (.num 14226436701188128 17))))),
  .set (.arr .jac 114) (.add (.rd (.arr .jac 114)) (.mul (.neg (.num 8247544883562038 16)) (.mul (.rd (.var .jTemp)) (.num 39288728140880758 17)))),
  .set (.arr .jac 115) (.add (.rd (.arr .jac 115)) (.mul (.num 17680389761126667 16) (.mul (.rd (.var .jTemp)) (.num 39288728140880758 17)))),
  .set (.arr .jac 116) (.add (.rd (.arr .jac 116)) (.mul (.neg (.num 9432844877564629 16)) (.mul (.rd (.var .jTemp)) (.num 39288728140880758 17)))),
  .set (.arr .jac 135) (.add (.rd (.arr .jac 135)) (.mul (.neg (.num 77861015759954877 17)) (.mul (.rd (.var .jTemp)) (.num 35690674632355568 17)))),
  .set (.arr .jac 136) (.add (.rd (.arr .jac 136)) (.mul (.num 16691186592714629 16) (.mul (.rd (.var .jTemp)) (.num 35690674632355568 17)))),
  .set (.arr .jac 137) (.add (.rd (.arr .jac 137)) (.mul (.neg (.num 89050850167191409 17)) (.mul (.rd (.var .jTemp)) (.num 35690674632355568 17)))),
  .set (.arr .jac 156) (.add (.rd (.arr .jac 156)) (.mul (.neg (.num 42497017275865467 17)) (.mul (.rd (.var .jTemp)) (.neg (.num 17824490209713328 17))))),
  .set (.arr .jac 157) (.add (.rd (.arr .jac 157)) (.mul (.num 91101514417964324 17) (.mul (.rd (.var .jTemp)) (.neg (.num 17824490209713328 17))))),
  .set (.arr .jac 158) (.add (.rd (.arr .jac 158)) (.mul (.neg (.num 48604497142098857 17)) (.mul (.rd (.var .jTemp)) (.neg (.num 17824490209713328 17))))),
  .set (.arr .jac 177) (.add (.rd (.arr .jac 177)) (.neg (.mul (.rd (.var .jTemp)) (.num 49928106040377707 17)))),
  .set (.arr .jac 178) (.add (.rd (.arr .jac 178)) (.mul (.num 21437154948213717 16) (.mul (.rd (.var .jTemp)) (.num 49928106040377707 17)))),
  .set (.arr .jac 179) (.add (.rd (.arr .jac 179)) (.mul (.neg (.num 11437154948213717 16)) (.mul (.rd (.var .jTemp)) (.num 49928106040377707 17)))),
  .set (.arr .jac 198) (.add (.rd (.arr .jac 198)) (.neg (.add (.mul (.rd (.var .jTemp)) (.num 49928106040377707 17)) (.mul (.rd (.var .kf)) (.rd (.arr .C 10)))))),
  .set (.arr .jac 199) (.add (.rd (.arr .jac 199)) (.mul (.num 21437154948213717 16) (.add (.mul (.rd (.var .jTemp)) (.num 49928106040377707 17)) (.mul (.rd (.var .kf)) (.rd (.arr .C 10)))))),
  .set (.arr .jac 200) (.add (.rd (.arr .jac 200)) (.mul (.neg (.num 11437154948213717 16)) (.add (.mul (.rd (.var .jTemp)) (.num 49928106040377707 17)) (.mul (.rd (.var .kf)) (.rd (.arr .C 10)))))),
  .set (.arr .jac 219) (.add (.rd (.arr .jac 219)) (.mul (.neg (.num 93295962306166613 17)) (.sub (.mul (.rd (.var .jTemp)) (.num 46330052531852528 17)) (.mul (.mul (.rd (.var .kr)) (.num 2 0)) (.rd (.arr .C 9)))))),
  .set (.arr .jac 220) (.add (.rd (.arr .jac 220)) (.mul (.num 2 0) (.sub (.mul (.rd (.var .jTemp)) (.num 46330052531852528 17)) (.mul (.mul (.rd (.var .kr)) (.num 2 0)) (.rd (.arr .C 9)))))),
  .set (.arr .jac 221) (.add (.rd (.arr .jac 221)) (.mul (.neg (.num 10670403769383339 16)) (.sub (.mul (.rd (.var .jTemp)) (.num 46330052531852528 17)) (.mul (.mul (.rd (.var .kr)) (.num 2 0)) (.rd (.arr .C 9)))))),
  .set (.arr .jac 240) (.add (.rd (.arr .jac 240)) (.mul (.neg (.num 87434331748402383 17)) (.add (.mul (.rd (.var .jTemp)) (.num 42731999023327338 17)) (.mul (.rd (.var .kf)) (.rd (.arr .C 8)))))),
  .set (.arr .jac 241) (.add (.rd (.arr .jac 241)) (.mul (.num 18743433174840238 16) (.add (.mul (.rd (.var .jTemp)) (.num 42731999023327338 17)) (.mul (.rd (.var .kf)) (.rd (.arr .C 8)))))),
  .set (.arr .jac 242) (.add (.rd (.arr .jac 242)) (.neg (.add (.mul (.rd (.var .jTemp)) (.num 42731999023327338 17)) (.mul (.rd (.var .kf)) (.rd (.arr .C 8)))))),
  .set (.arr .jac 261) (.add (.rd (.arr .jac 261)) (.mul (.neg (.num 50077399822922919 17)) (.mul (.rd (.var .jTemp)) (.num 10994706834011048 20)))),
  .set (.arr .jac 262) (.add (.rd (.arr .jac 262)) (.mul (.num 10735169794076487 16) (.mul (.rd (.var .jTemp)) (.num 10994706834011048 20)))),
  .set (.arr .jac 263) (.add (.rd (.arr .jac 263)) (.mul (.neg (.num 5727429811784196 16)) (.mul (.rd (.var .jTemp)) (.num 10994706834011048 20)))),
  .set (.arr .jac 282) (.add (.rd (.arr .jac 282)) (.mul (.neg (.num 31872173924898545 17)) (.mul (.rd (.var .jTemp)) (.neg (.num 57102223643760053 17))))),
  .set (.arr .jac 283) (.add (.rd (.arr .jac 283)) (.mul (.num 68324873096446703 17) (.mul (.rd (.var .jTemp)) (.neg (.num 57102223643760053 17))))),
  .set (.arr .jac 284) (.add (.rd (.arr .jac 284)) (.mul (.neg (.num 36452699171548159 17)) (.mul (.rd (.var .jTemp)) (.neg (.num 57102223643760053 17))))),
  .set (.arr .jac 303) (.add (.rd (.arr .jac 303)) (.mul (.neg (.num 48337982117516021 17)) (.mul (.rd (.var .jTemp)) (.neg (.num 35870588016911675 18))))),
  .set (.arr .jac 304) (.add (.rd (.arr .jac 304)) (.mul (.num 10362288125371748 16) (.mul (.rd (.var .jTemp)) (.neg (.num 35870588016911675 18))))),
  .set (.arr .jac 305) (.add (.rd (.arr .jac 305)) (.mul (.neg (.num 5528489913620146 16)) (.mul (.rd (.var .jTemp)) (.neg (.num 35870588016911675 18))))),
  .set (.arr .jac 324) (.add (.rd (.arr .jac 324)) (.mul (.neg (.num 46715344025300498 17)) (.mul (.rd (.var .jTemp)) (.neg (.num 71851123102163683 18))))),
  .set (.arr .jac 325) (.add (.rd (.arr .jac 325)) (.mul (.num 10014440683294767 16) (.mul (.rd (.var .jTemp)) (.neg (.num 71851123102163683 18))))),
  .set (.arr .jac 326) (.add (.rd (.arr .jac 326)) (.mul (.neg (.num 53429062807647176 17)) (.mul (.rd (.var .jTemp)) (.neg (.num 71851123102163683 18))))),
  .set (.arr .jac 345) (.add (.rd (.arr .jac 345)) (.mul (.neg (.num 45198107121751407 17)) (.mul (.rd (.var .jTemp)) (.neg (.num 10783165818741525 17))))),
  .set (.arr .jac 346) (.add (.rd (.arr .jac 346)) (.mul (.num 96891882573494681 17) (.mul (.rd (.var .jTemp)) (.neg (.num 10783165818741525 17))))),
  .set (.arr .jac 347) (.add (.rd (.arr .jac 347)) (.mul (.neg (.num 51693775451743273 17)) (.mul (.rd (.var .jTemp)) (.neg (.num 10783165818741525 17))))),
  .set (.arr .jac 366) (.add (.rd (.arr .jac 366)) (.mul (.neg (.num 5 1)) (.mul (.rd (.var .jTemp)) (.neg (.num 14378791924458678 19))))),
  .set (.arr .jac 367) (.add (.rd (.arr .jac 367)) (.mul (.num 10718577474106858 16) (.mul (.rd (.var .jTemp)) (.neg (.num 14378791924458678 19))))),
  .set (.arr .jac 368) (.add (.rd (.arr .jac 368)) (.mul (.neg (.num 57185774741068585 17)) (.mul (.rd (.var .jTemp)) (.neg (.num 14378791924458678 19))))),
  .set (.arr .jac 387) (.add (.rd (.arr .jac 387)) (.mul (.neg (.num 48265861942006144 17)) (.mul (.rd (.var .jTemp)) (.neg (.num 37418414277697654 18))))),
  .set (.arr .jac 388) (.add (.rd (.arr .jac 388)) (.mul (.num 10346827611598772 16) (.mul (.rd (.var .jTemp)) (.neg (.num 37418414277697654 18))))),
  .set (.arr .jac 389) (.add (.rd (.arr .jac 389)) (.mul (.neg (.num 55202414173981573 17)) (.mul (.rd (.var .jTemp)) (.neg (.num 37418414277697654 18))))),
  .set (.arr .jac 408) (.add (.rd (.arr .jac 408)) (.mul (.neg (.num 46647981153083307 17)) (.mul (.rd (.var .jTemp)) (.neg (.num 73398949362949439 18))))),
  .set (.arr .jac 409) (.add (.rd (.arr .jac 409)) (.mul (.rd (.var .jTemp)) (.neg (.num 73398949362949439 18)))),
  .set (.arr .jac 410) (.add (.rd (.arr .jac 410)) (.mul (.neg (.num 53352018846916693 17)) (.mul (.rd (.var .jTemp)) (.neg (.num 73398949362949439 18))))),
  .set (.arr .jac 429) (.add (.rd (.arr .jac 429)) (.mul (.neg (.num 3511284670071092 16)) (.mul (.rd (.var .jTemp)) (.neg (.num 42602775520927771 17))))),
  .set (.arr .jac 430) (.add (.rd (.arr .jac 430)) (.mul (.num 75271953539601477 17) (.mul (.rd (.var .jTemp)) (.neg (.num 42602775520927771 17))))),
  .set (.arr .jac 431) (.add (.rd (.arr .jac 431)) (.mul (.neg (.num 40159106838890563 17)) (.mul (.rd (.var .jTemp)) (.neg (.num 42602775520927771 17)))))]

/-- utilities/mechanisms/drm19/lib/src/jacobs/jacob_1.c:2708-2712 -/
def jacobT69 : List CStmt := [
  .set (.var .jTemp) (.mul (.mul (.div (.num 1 0) (.rd (.var .T))) (.sub (.mul (.rd (.arr .fwd 69)) (.neg (.num 1 0))) (.mul (.rd (.arr .rev 69)) (.add (.neg (.num 1 0)) (.mul (.neg (.rd (.var .T))) (.sub (.rd (.arr .dBdT 7)) (.rd (.arr .dBdT 8)))))))) (.rd (.var .rhoInv))),
  .set (.arr .jac 9) (.add (.rd (.arr .jac 9)) (.mul (.neg (.rd (.var .jTemp))) (.num 14026879999999998 15))),
  .set (.arr .jac 8) (.add (.rd (.arr .jac 8)) (.mul (.rd (.var .jTemp)) (.num 14026879999999998 15)))]

/-- utilities/mechanisms/drm19/lib/src/jacobs/jacob_1.c:2713-2764 -/
def jacobS69 : List CStmt := [
  .ite (.rd (.var .T)) (.num 1000 0) (.var .Kc) (.sub (.add (.add (.num 27675762569999995 16) (.mul (.neg (.num 43592543999999966 17)) (.rd (.var .logT)))) (.mul (.rd (.var .T)) (.add (.num 16677431665000002 19) (.mul (.rd (.var .T)) (.add (.neg (.num 90634396499999983 23)) (.mul (.rd (.var .T)) (.add (.num 23643735666666669 26) (.mul (.neg (.num 12786509000000005 30)) (.rd (.var .T)))))))))) (.div (.neg (.num 44927762000000002 13)) (.rd (.var .T)))) (.sub (.add (.add (.neg (.num 30373711599999997 16)) (.mul (.num 58206271000000021 17) (.rd (.var .logT)))) (.mul (.rd (.var .T)) (.add (.neg (.num 49974672500000005 20)) (.mul (.rd (.var .T)) (.add (.num 10049558333333332 23) (.mul (.rd (.var .T)) (.add (.neg (.num 13143870916666673 27)) (.mul (.num 75994398999999995 32) (.rd (.var .T)))))))))) (.div (.neg (.num 46623957000000009 13)) (.rd (.var .T)))),
  .set (.var .Kc) (.exp (.rd (.var .Kc))),
  .set (.var .jTemp) (.mul (.mul (.neg (.rd (.var .mwAvg))) (.rd (.var .rhoInv))) (.sub (.mul (.num 2 0) (.rd (.arr .fwd 69))) (.mul (.num 2 0) (.rd (.arr .rev 69))))),
  .set (.var .kf) (.num 9000000000 0),
  .set (.var .kr) (.div (.rd (.var .kf)) (.rd (.var .Kc))),
  .set (.arr .jac 30) (.add (.rd (.arr .jac 30)) (.mul (.neg (.num 69581919558703875 16)) (.mul (.rd (.var .jTemp)) (.num 92803892982949643 17)))),
  .set (.arr .jac 29) (.add (.rd (.arr .jac 29)) (.mul (.num 69581919558703875 16) (.mul (.rd (.var .jTemp)) (.num 92803892982949643 17)))),
  .set (.arr .jac 51) (.add (.rd (.arr .jac 51)) (.mul (.neg (.num 13916383911740775 15)) (.mul (.rd (.var .jTemp)) (.num 96401946491474821 17)))),
  .set (.arr .jac 50) (.add (.rd (.arr .jac 50)) (.mul (.num 13916383911740775 15) (.mul (.rd (.var .jTemp)) (.num 96401946491474821 17)))),
  .set (.arr .jac 72) (.add (.rd (.arr .jac 72)) (.mul (.neg (.num 87671287673287746 17)) (.mul (.rd (.var .jTemp)) (.num 42886781649405936 17)))),
  .set (.arr .jac 71) (.add (.rd (.arr .jac 71)) (.mul (.num 87671287673287746 17) (.mul (.rd (.var .jTemp)) (.num 42886781649405936 17)))),
  .set (.arr .jac 93) (.add (.rd (.arr .jac 93)) (.mul (.neg (.num 43835643836643873 17)) (.mul (.rd (.var .jTemp)) (.neg (.num 14226436701188128 17))))),
  .set (.arr .jac 92) (.add (.rd (.arr .jac 92)) (.mul (.num 43835643836643873 17) (.mul (.rd (.var .jTemp)) (.neg (.num 14226436701188128 17))))),
  .set (.arr .jac 114) (.add (.rd (.arr .jac 114)) (.mul (.neg (.num 8247544883562038 16)) (.mul (.rd (.var .jTemp)) (.num 39288728140880758 17)))),
  .set (.arr .jac 113) (.add (.rd (.arr .jac 113)) (.mul (.num 8247544883562038 16) (.mul (.rd (.var .jTemp)) (.num 39288728140880758 17)))),
  .set (.arr .jac 135) (.add (.rd (.arr .jac 135)) (.mul (.neg (.num 77861015759954877 17)) (.mul (.rd (.var .jTemp)) (.num 35690674632355568 17)))),
  .set (.arr .jac 134) (.add (.rd (.arr .jac 134)) (.mul (.num 77861015759954877 17) (.mul (.rd (.var .jTemp)) (.num 35690674632355568 17)))),
  .set (.arr .jac 156) (.add (.rd (.arr .jac 156)) (.mul (.neg (.num 42497017275865467 17)) (.mul (.rd (.var .jTemp)) (.neg (.num 17824490209713328 17))))),
  .set (.arr .jac 155) (.add (.rd (.arr .jac 155)) (.mul (.num 42497017275865467 17) (.mul (.rd (.var .jTemp)) (.neg (.num 17824490209713328 17))))),
  .set (.arr .jac 177) (.add (.rd (.arr .jac 177)) (.neg (.sub (.mul (.rd (.var .jTemp)) (.num 49928106040377707 17)) (.mul (.rd (.var .kr)) (.rd (.arr .C 11)))))),
  .set (.arr .jac 176) (.add (.rd (.arr .jac 176)) (.sub (.mul (.rd (.var .jTemp)) (.num 49928106040377707 17)) (.mul (.rd (.var .kr)) (.rd (.arr .C 11))))),
  .set (.arr .jac 198) (.add (.rd (.arr .jac 198)) (.neg (.add (.mul (.rd (.var .jTemp)) (.num 49928106040377707 17)) (.mul (.rd (.var .kf)) (.rd (.arr .C 11)))))),
  .set (.arr .jac 197) (.add (.rd (.arr .jac 197)) (.add (.mul (.rd (.var .jTemp)) (.num 49928106040377707 17)) (.mul (.rd (.var .kf)) (.rd (.arr .C 11))))),
  .set (.arr .jac 219) (.add (.rd (.arr .jac 219)) (.mul (.neg (.num 93295962306166613 17)) (.mul (.rd (.var .jTemp)) (.num 46330052531852528 17)))),
  .set (.arr .jac 218) (.add (.rd (.arr .jac 218)) (.mul (.num 93295962306166613 17) (.mul (.rd (.var .jTemp)) (.num 46330052531852528 17)))),
  .set (.arr .jac 240) (.add (.rd (.arr .jac 240)) (.mul (.neg (.num 87434331748402383 17)) (.mul (.rd (.var .jTemp)) (.num 42731999023327338 17)))),
  .set (.arr .jac 239) (.add (.rd (.arr .jac 239)) (.mul (.num 87434331748402383 17) (.mul (.rd (.var .jTemp)) (.num 42731999023327338 17)))),
  .set (.arr .jac 261) (.add (.rd (.arr .jac 261)) (.mul (.neg (.num 50077399822922919 17)) (.sub (.add (.mul (.rd (.var .jTemp)) (.num 10994706834011048 20)) (.mul (.rd (.var .kf)) (.rd (.arr .C 8)))) (.mul (.rd (.var .kr)) (.rd (.arr .C 7)))))),
  .set (.arr .jac 260) (.add (.rd (.arr .jac 260)) (.mul (.num 50077399822922919 17) (.sub (.add (.mul (.rd (.var .jTemp)) (.num 10994706834011048 20)) (.mul (.rd (.var .kf)) (.rd (.arr .C 8)))) (.mul (.rd (.var .kr)) (.rd (.arr .C 7)))))),
  .set (.arr .jac 282) (.add (.rd (.arr .jac 282)) (.mul (.neg (.num 31872173924898545 17)) (.mul (.rd (.var .jTemp)) (.neg (.num 57102223643760053 17))))),
  .set (.arr .jac 281) (.add (.rd (.arr .jac 281)) (.mul (.num 31872173924898545 17) (.mul (.rd (.var .jTemp)) (.neg (.num 57102223643760053 17))))),
  .set (.arr .jac 303) (.add (.rd (.arr .jac 303)) (.mul (.neg (.num 48337982117516021 17)) (.mul (.rd (.var .jTemp)) (.neg (.num 35870588016911675 18))))),
  .set (.arr .jac 302) (.add (.rd (.arr .jac 302)) (.mul (.num 48337982117516021 17) (.mul (.rd (.var .jTemp)) (.neg (.num 35870588016911675 18))))),
  .set (.arr .jac 324) (.add (.rd (.arr .jac 324)) (.mul (.neg (.num 46715344025300498 17)) (.mul (.rd (.var .jTemp)) (.neg (.num 71851123102163683 18))))),
  .set (.arr .jac 323) (.add (.rd (.arr .jac 323)) (.mul (.num 46715344025300498 17) (.mul (.rd (.var .jTemp)) (.neg (.num 71851123102163683 18))))),
  .set (.arr .jac 345) (.add (.rd (.arr .jac 345)) (.mul (.neg (.num 45198107121751407 17)) (.mul (.rd (.var .jTemp)) (.neg (.num 10783165818741525 17))))),
  .set (.arr .jac 344) (.add (.rd (.arr .jac 344)) (.mul (.num 45198107121751407 17) (.mul (.rd (.var .jTemp)) (.neg (.num 10783165818741525 17))))),
  .set (.arr .jac 366) (.add (.rd (.arr .jac 366)) (.mul (.neg (.num 5 1)) (.mul (.rd (.var .jTemp)) (.neg (.num 14378791924458678 19))))),
  .set (.arr .jac 365) (.add (.rd (.arr .jac 365)) (.mul (.num 5 1) (.mul (.rd (.var .jTemp)) (.neg (.num 14378791924458678 19))))),
  .set (.arr .jac 387) (.add (.rd (.arr .jac 387)) (.mul (.neg (.num 48265861942006144 17)) (.mul (.rd (.var .jTemp)) (.neg (.num 37418414277697654 18))))),
  .set (.arr .jac 386) (.add (.rd (.arr .jac 386)) (.mul (.num 48265861942006144 17) (.mul (.rd (.var .jTemp)) (.neg (.num 37418414277697654 18))))),
  .set (.arr .jac 408) (.add (.rd (.arr .jac 408)) (.mul (.neg (.num 46647981153083307 17)) (.mul (.rd (.var .jTemp)) (.neg (.num 73398949362949439 18))))),
  .set (.arr .jac 407) (.add (.rd (.arr .jac 407)) (.mul (.num 46647981153083307 17) (.mul (.rd (.var .jTemp)) (.neg (.num 73398949362949439 18))))),
  .set (.arr .jac 429) (.add (.rd (.arr .jac 429)) (.mul (.neg (.num 3511284670071092 16)) (.mul (.rd (.var .jTemp)) (.neg (.num 42602775520927771 17))))),
  .set (.arr .jac 428) (.add (.rd (.arr .jac 428)) (.mul (.num 3511284670071092 16) (.mul (.rd (.var .jTemp)) (.neg (.num 42602775520927771 17)))))]

/-- utilities/mechanisms/drm19/lib/src/jacobs/jacob_1.c:2765-2769 -/
def jacobT70 : List CStmt := [
  .set (.var .jTemp) (.mul (.mul (.div (.num 1 0) (.rd (.var .T))) (.sub (.mul (.rd (.arr .fwd 70)) (.neg (.num 1 0))) (.mul (.rd (.arr .rev 70)) (.add (.neg (.num 1 0)) (.mul (.neg (.rd (.var .T))) (.sub (.rd (.arr .dBdT 7)) (.rd (.arr .dBdT 8)))))))) (.rd (.var .rhoInv))),
  .set (.arr .jac 9) (.add (.rd (.arr .jac 9)) (.mul (.neg (.rd (.var .jTemp))) (.num 14026879999999998 15))),
  .set (.arr .jac 8) (.add (.rd (.arr .jac 8)) (.mul (.rd (.var .jTemp)) (.num 14026879999999998 15)))]

/-- utilities/mechanisms/drm19/lib/src/jacobs/jacob_1.c:2770-2821 -/
def jacobS70 : List CStmt := [
  .ite (.rd (.var .T)) (.num 1000 0) (.var .Kc) (.sub (.add (.add (.num 27675762569999995 16) (.mul (.neg (.num 43592543999999966 17)) (.rd (.var .logT)))) (.mul (.rd (.var .T)) (.add (.num 16677431665000002 19) (.mul (.rd (.var .T)) (.add (.neg (.num 90634396499999983 23)) (.mul (.rd (.var .T)) (.add (.num 23643735666666669 26) (.mul (.neg (.num 12786509000000005 30)) (.rd (.var .T)))))))))) (.div (.neg (.num 44927762000000002 13)) (.rd (.var .T)))) (.sub (.add (.add (.neg (.num 30373711599999997 16)) (.mul (.num 58206271000000021 17) (.rd (.var .logT)))) (.mul (.rd (.var .T)) (.add (.neg (.num 49974672500000005 20)) (.mul (.rd (.var .T)) (.add (.num 10049558333333332 23) (.mul (.rd (.var .T)) (.add (.neg (.num 13143870916666673 27)) (.mul (.num 75994398999999995 32) (.rd (.var .T)))))))))) (.div (.neg (.num 46623957000000009 13)) (.rd (.var .T)))),
  .set (.var .Kc) (.exp (.rd (.var .Kc))),
  .set (.var .jTemp) (.mul (.mul (.neg (.rd (.var .mwAvg))) (.rd (.var .rhoInv))) (.sub (.mul (.num 2 0) (.rd (.arr .fwd 70))) (.mul (.num 2 0) (.rd (.arr .rev 70))))),
  .set (.var .kf) (.num 7000000000 0),
  .set (.var .kr) (.div (.rd (.var .kf)) (.rd (.var .Kc))),
  .set (.arr .jac 30) (.add (.rd (.arr .jac 30)) (.mul (.neg (.num 69581919558703875 16)) (.mul (.rd (.var .jTemp)) (.num 92803892982949643 17)))),
  .set (.arr .jac 29) (.add (.rd (.arr .jac 29)) (.mul (.num 69581919558703875 16) (.mul (.rd (.var .jTemp)) (.num 92803892982949643 17)))),
  .set (.arr .jac 51) (.add (.rd (.arr .jac 51)) (.mul (.neg (.num 13916383911740775 15)) (.mul (.rd (.var .jTemp)) (.num 96401946491474821 17)))),
  .set (.arr .jac 50) (.add (.rd (.arr .jac 50)) (.mul (.num 13916383911740775 15) (.mul (.rd (.var .jTemp)) (.num 96401946491474821 17)))),
  .set (.arr .jac 72) (.add (.rd (.arr .jac 72)) (.mul (.neg (.num 87671287673287746 17)) (.mul (.rd (.var .jTemp)) (.num 42886781649405936 17)))),
  .set (.arr .jac 71) (.add (.rd (.arr .jac 71)) (.mul (.num 87671287673287746 17) (.mul (.rd (.var .jTemp)) (.num 42886781649405936 17)))),
  .set (.arr .jac 93) (.add (.rd (.arr .jac 93)) (.mul (.neg (.num 43835643836643873 17)) (.mul (.rd (.var .jTemp)) (.neg (.num 14226436701188128 17))))),
  .set (.arr .jac 92) (.add (.rd (.arr .jac 92)) (.mul (.num 43835643836643873 17) (.mul (.rd (.var .jTemp)) (.neg (.num 14226436701188128 17))))),
  .set (.arr .jac 114) (.add (.rd (.arr .jac 114)) (.mul (.neg (.num 8247544883562038 16)) (.mul (.rd (.var .jTemp)) (.num 39288728140880758 17)))),
  .set (.arr .jac 113) (.add (.rd (.arr .jac 113)) (.mul (.num 8247544883562038 16) (.mul (.rd (.var .jTemp)) (.num 39288728140880758 17)))),
  .set (.arr .jac 135) (.add (.rd (.arr .jac 135)) (.mul (.neg (.num 77861015759954877 17)) (.mul (.rd (.var .jTemp)) (.num 35690674632355568 17)))),
  .set (.arr .jac 134) (.add (.rd (.arr .jac 134)) (.mul (.num 77861015759954877 17) (.mul (.rd (.var .jTemp)) (.num 35690674632355568 17)))),
  .set (.arr .jac 156) (.add (.rd (.arr .jac 156)) (.mul (.neg (.num 42497017275865467 17)) (.mul (.rd (.var .jTemp)) (.neg (.num 17824490209713328 17))))),
  .set (.arr .jac 155) (.add (.rd (.arr .jac 155)) (.mul (.num 42497017275865467 17) (.mul (.rd (.var .jTemp)) (.neg (.num 17824490209713328 17))))),
  .set (.arr .jac 177) (.add (.rd (.arr .jac 177)) (.neg (.sub (.mul (.rd (.var .jTemp)) (.num 49928106040377707 17)) (.mul (.rd (.var .kr)) (.rd (.arr .C 12)))))),
  .set (.arr .jac 176) (.add (.rd (.arr .jac 176)) (.sub (.mul (.rd (.var .jTemp)) (.num 49928106040377707 17)) (.mul (.rd (.var .kr)) (.rd (.arr .C 12))))),
  .set (.arr .jac 198) (.add (.rd (.arr .jac 198)) (.neg (.add (.mul (.rd (.var .jTemp)) (.num 49928106040377707 17)) (.mul (.rd (.var .kf)) (.rd (.arr .C 12)))))),
  .set (.arr .jac 197) (.add (.rd (.arr .jac 197)) (.add (.mul (.rd (.var .jTemp)) (.num 49928106040377707 17)) (.mul (.rd (.var .kf)) (.rd (.arr .C 12))))),
  .set (.arr .jac 219) (.add (.rd (.arr .jac 219)) (.mul (.neg (.num 93295962306166613 17)) (.mul (.rd (.var .jTemp)) (.num 46330052531852528 17)))),
  .set (.arr .jac 218) (.add (.rd (.arr .jac 218)) (.mul (.num 93295962306166613 17) (.mul (.rd (.var .jTemp)) (.num 46330052531852528 17)))),
  .set (.arr .jac 240) (.add (.rd (.arr .jac 240)) (.mul (.neg (.num 87434331748402383 17)) (.mul (.rd (.var .jTemp)) (.num 42731999023327338 17)))),
  .set (.arr .jac 239) (.add (.rd (.arr .jac 239)) (.mul (.num 87434331748402383 17) (.mul (.rd (.var .jTemp)) (.num 42731999023327338 17)))),
  .set (.arr .jac 261) (.add (.rd (.arr .jac 261)) (.mul (.neg (.num 50077399822922919 17)) (.mul (.rd (.var .jTemp)) (.num 10994706834011048 20)))),
  .set (.arr .jac 260) (.add (.rd (.arr .jac 260)) (.mul (.num 50077399822922919 17) (.mul (.rd (.var .jTemp)) (.num 10994706834011048 20)))),
  .set (.arr .jac 282) (.add (.rd (.arr .jac 282)) (.mul (.neg (.num 31872173924898545 17)) (.sub (.add (.mul (.rd (.var .jTemp)) (.neg (.num 57102223643760053 17))) (.mul (.rd (.var .kf)) (.rd (.arr .C 8)))) (.mul (.rd (.var .kr)) (.rd (.arr .C 7)))))),
  .set (.arr .jac 281) (.add (.rd (.arr .jac 281)) (.mul (.num 31872173924898545 17) (.sub (.add (.mul (.rd (.var .jTemp)) (.neg (.num 57102223643760053 17))) (.mul (.rd (.var .kf)) (.rd (.arr .C 8)))) (.mul (.rd (.var .kr)) (.rd (.arr .C 7)))))),
  .set (.arr .jac 303) (.add (.rd (.arr .jac 303)) (.mul (.neg (.num 48337982117516021 17)) (.mul (.rd (.var .jTemp)) (.neg (.num 35870588016911675 18))))),
  .set (.arr .jac 302) (.add (.rd (.arr .jac 302)) (.mul (.num 48337982117516021 17) (.mul (.rd (.var .jTemp)) (.neg (.num 35870588016911675 18))))),
  .set (.arr .jac 324) (.add (.rd (.arr .jac 324)) (.mul (.neg (.num 46715344025300498 17)) (.mul (.rd (.var .jTemp)) (.neg (.num 71851123102163683 18))))),
  .set (.arr .jac 323) (.add (.rd (.arr .jac 323)) (.mul (.num 46715344025300498 17) (.mul (.rd (.var .jTemp)) (.neg (.num 71851123102163683 18))))),
  .set (.arr .jac 345) (.add (.rd (.arr .jac 345)) (.mul (.neg (.num 45198107121751407 17)) (.mul (.rd (.var .jTemp)) (.neg (.num 10783165818741525 17))))),
  .set (.arr .jac 344) (.add (.rd (.arr .jac 344)) (.mul (.num 45198107121751407 17) (.mul (.rd (.var .jTemp)) (.neg (.num 10783165818741525 17))))),
  .set (.arr .jac 366) (.add (.rd (.arr .jac 366)) (.mul (.neg (.num 5 1)) (.mul (.rd (.var .jTemp)) (.neg (.num 14378791924458678 19))))),
  .set (.arr .jac 365) (.add (.rd (.arr .jac 365)) (.mul (.num 5 1) (.mul (.rd (.var .jTemp)) (.neg (.num 14378791924458678 19))))),
  .set (.arr .jac 387) (.add (.rd (.arr .jac 387)) (.mul (.neg (.num 48265861942006144 17)) (.mul (.rd (.var .jTemp)) (.neg (.num 37418414277697654 18))))),
  .set (.arr .jac 386) (.add (.rd (.arr .jac 386)) (.mul (.num 48265861942006144 17) (.mul (.rd (.var .jTemp)) (.neg (.num 37418414277697654 18))))),
  .set (.arr .jac 408) (.add (.rd (.arr .jac 408)) (.mul (.neg (.num 46647981153083307 17)) (.mul (.rd (.var .jTemp)) (.neg (.num 73398949362949439 18))))),
  .set (.arr .jac 407) (.add (.rd (.arr .jac 407)) (.mul (.num 46647981153083307 17) (.mul (.rd (.var .jTemp)) (.neg (.num 73398949362949439 18))))),
  .set (.arr .jac 429) (.add (.rd (.arr .jac 429)) (.mul (.neg (.num 3511284670071092 16)) (.mul (.rd (.var .jTemp)) (.neg (.num 42602775520927771 17))))),
  .set (.arr .jac 428) (.add (.rd (.arr .jac 428)) (.mul (.num 3511284670071092 16) (.mul (.rd (.var .jTemp)) (.neg (.num 42602775520927771 17)))))]

/-- utilities/mechanisms/drm19/lib/src/jacobs/jacob_1.c:2822-2828 -/
def jacobT71 : List CStmt := [
  .set (.var .jTemp) (.mul (.mul (.div (.num 1 0) (.rd (.var .T))) (.sub (.mul (.rd (.arr .fwd 71)) (.neg (.num 1 0))) (.mul (.rd (.arr .rev 71)) (.add (.neg (.num 1 0)) (.mul (.neg (.rd (.var .T))) (.sub (.sub (.add (.rd (.arr .dBdT 14)) (.rd (.arr .dBdT 11))) (.rd (.arr .dBdT 8))) (.rd (.arr .dBdT 12)))))))) (.rd (.var .rhoInv))),
  .set (.arr .jac 9) (.add (.rd (.arr .jac 9)) (.mul (.neg (.rd (.var .jTemp))) (.num 14026879999999998 15))),
  .set (.arr .jac 12) (.add (.rd (.arr .jac 12)) (.mul (.rd (.var .jTemp)) (.num 28010399999999997 15))),
  .set (.arr .jac 13) (.add (.rd (.arr .jac 13)) (.mul (.neg (.rd (.var .jTemp))) (.num 44009799999999998 15))),
  .set (.arr .jac 15) (.add (.rd (.arr .jac 15)) (.mul (.rd (.var .jTemp)) (.num 3002628 5)))]

/-- utilities/mechanisms/drm19/lib/src/jacobs/jacob_1.c:2829-2920 -/
def jacobS71 : List CStmt := [
  .ite (.rd (.var .T)) (.num 1000 0) (.var .Kc) (.sub (.add (.add (.neg (.num 68385900630000007 16)) (.mul (.num 18178789900000001 16) (.rd (.var .logT)))) (.mul (.rd (.var .T)) (.add (.neg (.num 85683349750000012 19)) (.mul (.rd (.var .T)) (.add (.num 62049026033333328 22) (.mul (.rd (.var .T)) (.add (.neg (.num 27327125521666662 25)) (.mul (.num 52366964395000002 29) (.rd (.var .T)))))))))) (.div (.neg (.num 30777889300000003 12)) (.rd (.var .T)))) (.sub (.add (.add (.num 12250493990000001 15) (.mul (.neg (.num 16736230200000002 16)) (.rd (.var .logT)))) (.mul (.rd (.var .T)) (.add (.num 10961358100000001 19) (.mul (.rd (.var .T)) (.add (.neg (.num 19911339849999998 23)) (.mul (.rd (.var .T)) (.add (.num 24589078333333314 27) (.mul (.neg (.num 13785141350000004 31)) (.rd (.var .T)))))))))) (.div (.neg (.num 30314538400000005 12)) (.rd (.var .T)))),
  .set (.var .Kc) (.exp (.rd (.var .Kc))),
  .set (.var .jTemp) (.mul (.mul (.neg (.rd (.var .mwAvg))) (.rd (.var .rhoInv))) (.sub (.mul (.num 2 0) (.rd (.arr .fwd 71))) (.mul (.num 2 0) (.rd (.arr .rev 71))))),
  .set (.var .kf) (.num 14000000000 0),
  .set (.var .kr) (.div (.rd (.var .kf)) (.rd (.var .Kc))),
  .set (.arr .jac 30) (.add (.rd (.arr .jac 30)) (.mul (.neg (.num 69581919558703875 16)) (.mul (.rd (.var .jTemp)) (.num 92803892982949643 17)))),
  .set (.arr .jac 33) (.add (.rd (.arr .jac 33)) (.mul (.num 13894874694922315 15) (.mul (.rd (.var .jTemp)) (.num 92803892982949643 17)))),
  .set (.arr .jac 34) (.add (.rd (.arr .jac 34)) (.mul (.neg (.num 21831557433974243 15)) (.mul (.rd (.var .jTemp)) (.num 92803892982949643 17)))),
  .set (.arr .jac 36) (.add (.rd (.arr .jac 36)) (.mul (.num 14894874694922317 15) (.mul (.rd (.var .jTemp)) (.num 92803892982949643 17)))),
  .set (.arr .jac 51) (.add (.rd (.arr .jac 51)) (.mul (.neg (.num 13916383911740775 15)) (.mul (.rd (.var .jTemp)) (.num 96401946491474821 17)))),
  .set (.arr .jac 54) (.add (.rd (.arr .jac 54)) (.mul (.num 2778974938984463 14) (.mul (.rd (.var .jTemp)) (.num 96401946491474821 17)))),
  .set (.arr .jac 55) (.add (.rd (.arr .jac 55)) (.mul (.neg (.num 43663114867948487 15)) (.mul (.rd (.var .jTemp)) (.num 96401946491474821 17)))),
  .set (.arr .jac 57) (.add (.rd (.arr .jac 57)) (.mul (.num 29789749389844633 15) (.mul (.rd (.var .jTemp)) (.num 96401946491474821 17)))),
  .set (.arr .jac 72) (.add (.rd (.arr .jac 72)) (.mul (.neg (.num 87671287673287746 17)) (.mul (.rd (.var .jTemp)) (.num 42886781649405936 17)))),
  .set (.arr .jac 75) (.add (.rd (.arr .jac 75)) (.mul (.num 17507156518369438 16) (.mul (.rd (.var .jTemp)) (.num 42886781649405936 17)))),
  .set (.arr .jac 76) (.add (.rd (.arr .jac 76)) (.mul (.neg (.num 2750715651836944 15)) (.mul (.rd (.var .jTemp)) (.num 42886781649405936 17)))),
  .set (.arr .jac 78) (.add (.rd (.arr .jac 78)) (.mul (.num 18767128767328776 16) (.mul (.rd (.var .jTemp)) (.num 42886781649405936 17)))),
  .set (.arr .jac 93) (.add (.rd (.arr .jac 93)) (.mul (.neg (.num 43835643836643873 17)) (.mul (.rd (.var .jTemp)) (.neg (.num 14226436701188128 17))))),
  .set (.arr .jac 96) (.add (.rd (.arr .jac 96)) (.mul (.num 87535782591847189 17) (.mul (.rd (.var .jTemp)) (.neg (.num 14226436701188128 17))))),
  .set (.arr .jac 97) (.add (.rd (.arr .jac 97)) (.mul (.neg (.num 1375357825918472 15)) (.mul (.rd (.var .jTemp)) (.neg (.num 14226436701188128 17))))),
  .set (.arr .jac 99) (.add (.rd (.arr .jac 99)) (.mul (.num 93835643836643878 17) (.mul (.rd (.var .jTemp)) (.neg (.num 14226436701188128 17))))),
  .set (.arr .jac 114) (.add (.rd (.arr .jac 114)) (.mul (.neg (.num 8247544883562038 16)) (.mul (.rd (.var .jTemp)) (.num 39288728140880758 17)))),
  .set (.arr .jac 117) (.add (.rd (.arr .jac 117)) (.mul (.num 16469594892558153 16) (.mul (.rd (.var .jTemp)) (.num 39288728140880758 17)))),
  .set (.arr .jac 118) (.add (.rd (.arr .jac 118)) (.mul (.neg (.num 25876944895556862 16)) (.mul (.rd (.var .jTemp)) (.num 39288728140880758 17)))),
  .set (.arr .jac 120) (.add (.rd (.arr .jac 120)) (.mul (.num 17654894886560744 16) (.mul (.rd (.var .jTemp)) (.num 39288728140880758 17)))),
  .set (.arr .jac 135) (.add (.rd (.arr .jac 135)) (.mul (.neg (.num 77861015759954877 17)) (.mul (.rd (.var .jTemp)) (.num 35690674632355568 17)))),
  .set (.arr .jac 138) (.add (.rd (.arr .jac 138)) (.mul (.num 15548134694548181 16) (.mul (.rd (.var .jTemp)) (.num 35690674632355568 17)))),
  .set (.arr .jac 139) (.add (.rd (.arr .jac 139)) (.mul (.neg (.num 2442915125382453 15)) (.mul (.rd (.var .jTemp)) (.num 35690674632355568 17)))),
  .set (.arr .jac 141) (.add (.rd (.arr .jac 141)) (.mul (.num 16667118135271835 16) (.mul (.rd (.var .jTemp)) (.num 35690674632355568 17)))),
  .set (.arr .jac 156) (.add (.rd (.arr .jac 156)) (.mul (.neg (.num 42497017275865467 17)) (.mul (.rd (.var .jTemp)) (.neg (.num 17824490209713328 17))))),
  .set (.arr .jac 159) (.add (.rd (.arr .jac 159)) (.mul (.num 84862667443073736 17) (.mul (.rd (.var .jTemp)) (.neg (.num 17824490209713328 17))))),
  .set (.arr .jac 160) (.add (.rd (.arr .jac 160)) (.mul (.neg (.num 13333579747651541 16)) (.mul (.rd (.var .jTemp)) (.neg (.num 17824490209713328 17))))),
  .set (.arr .jac 162) (.add (.rd (.arr .jac 162)) (.mul (.num 90970147309307126 17) (.mul (.rd (.var .jTemp)) (.neg (.num 17824490209713328 17))))),
  .set (.arr .jac 177) (.add (.rd (.arr .jac 177)) (.neg (.mul (.rd (.var .jTemp)) (.num 49928106040377707 17)))),
  .set (.arr .jac 180) (.add (.rd (.arr .jac 180)) (.mul (.num 19969087922617146 16) (.mul (.rd (.var .jTemp)) (.num 49928106040377707 17)))),
  .set (.arr .jac 181) (.add (.rd (.arr .jac 181)) (.mul (.neg (.num 31375330793448009 16)) (.mul (.rd (.var .jTemp)) (.num 49928106040377707 17)))),
  .set (.arr .jac 183) (.add (.rd (.arr .jac 183)) (.mul (.num 21406242870830865 16) (.mul (.rd (.var .jTemp)) (.num 49928106040377707 17)))),
  .set (.arr .jac 198) (.add (.rd (.arr .jac 198)) (.neg (.add (.mul (.rd (.var .jTemp)) (.num 49928106040377707 17)) (.mul (.rd (.var .kf)) (.rd (.arr .C 12)))))),
  .set (.arr .jac 201) (.add (.rd (.arr .jac 201)) (.mul (.num 19969087922617146 16) (.add (.mul (.rd (.var .jTemp)) (.num 49928106040377707 17)) (.mul (.rd (.var .kf)) (.rd (.arr .C 12)))))),
  .set (.arr .jac 202) (.add (.rd (.arr .jac 202)) (.mul (.neg (.num 31375330793448009 16)) (.add (.mul (.rd (.var .jTemp)) (.num 49928106040377707 17)) (.mul (.rd (.var .kf)) (.rd (.arr .C 12)))))),
  .set (.arr .jac 204) (.add (.rd (.arr .jac 204)) (.mul (.num 21406242870830865 16) (.add (.mul (.rd (.var .jTemp)) (.num 49928106040377707 17)) (.mul (.rd (.var .kf)) (.rd (.arr .C 12)))))),
  .set (.arr .jac 219) (.add (.rd (.arr .jac 219)) (.mul (.neg (.num 93295962306166613 17)) (.mul (.rd (.var .jTemp)) (.num 46330052531852528 17)))),
  .set (.arr .jac 222) (.add (.rd (.arr .jac 222)) (.mul (.num 18630352741170162 16) (.mul (.rd (.var .jTemp)) (.num 46330052531852528 17)))),
  .set (.arr .jac 223) (.add (.rd (.arr .jac 223)) (.mul (.neg (.num 2927191679049034 15)) (.mul (.rd (.var .jTemp)) (.num 46330052531852528 17)))),
  .set (.arr .jac 225) (.add (.rd (.arr .jac 225)) (.mul (.num 19971160279936839 16) (.mul (.rd (.var .jTemp)) (.num 46330052531852528 17)))),
  .set (.arr .jac 240) (.add (.rd (.arr .jac 240)) (.mul (.neg (.num 87434331748402383 17)) (.mul (.rd (.var .jTemp)) (.num 42731999023327338 17)))),
  .set (.arr .jac 243) (.add (.rd (.arr .jac 243)) (.mul (.num 17459838581391229 16) (.mul (.rd (.var .jTemp)) (.num 42731999023327338 17)))),
  .set (.arr .jac 244) (.add (.rd (.arr .jac 244)) (.mul (.neg (.num 27432810813101982 16)) (.mul (.rd (.var .jTemp)) (.num 42731999023327338 17)))),
  .set (.arr .jac 246) (.add (.rd (.arr .jac 246)) (.mul (.num 18716405406550991 16) (.mul (.rd (.var .jTemp)) (.num 42731999023327338 17)))),
  .set (.arr .jac 261) (.add (.rd (.arr .jac 261)) (.mul (.neg (.num 50077399822922919 17)) (.sub (.mul (.rd (.var .jTemp)) (.num 10994706834011048 20)) (.mul (.rd (.var .kr)) (.rd (.arr .C 14)))))),
  .set (.arr .jac 264) (.add (.rd (.arr .jac 264)) (.sub (.mul (.rd (.var .jTemp)) (.num 10994706834011048 20)) (.mul (.rd (.var .kr)) (.rd (.arr .C 14))))),
  .set (.arr .jac 265) (.add (.rd (.arr .jac 265)) (.mul (.neg (.num 15711949847199613 16)) (.sub (.mul (.rd (.var .jTemp)) (.num 10994706834011048 20)) (.mul (.rd (.var .kr)) (.rd (.arr .C 14)))))),
  .set (.arr .jac 267) (.add (.rd (.arr .jac 267)) (.mul (.num 10719689829491903 16) (.sub (.mul (.rd (.var .jTemp)) (.num 10994706834011048 20)) (.mul (.rd (.var .kr)) (.rd (.arr .C 14)))))),
  .set (.arr .jac 282) (.add (.rd (.arr .jac 282)) (.mul (.neg (.num 31872173924898545 17)) (.add (.mul (.rd (.var .jTemp)) (.neg (.num 57102223643760053 17))) (.mul (.rd (.var .kf)) (.rd (.arr .C 8)))))),
  .set (.arr .jac 285) (.add (.rd (.arr .jac 285)) (.mul (.num 63645824339124468 17) (.add (.mul (.rd (.var .jTemp)) (.neg (.num 57102223643760053 17))) (.mul (.rd (.var .kf)) (.rd (.arr .C 8)))))),
  .set (.arr .jac 286) (.add (.rd (.arr .jac 286)) (.neg (.add (.mul (.rd (.var .jTemp)) (.neg (.num 57102223643760053 17))) (.mul (.rd (.var .kf)) (.rd (.arr .C 8)))))),
  .set (.arr .jac 288) (.add (.rd (.arr .jac 288)) (.mul (.num 68226349585774082 17) (.add (.mul (.rd (.var .jTemp)) (.neg (.num 57102223643760053 17))) (.mul (.rd (.var .kf)) (.rd (.arr .C 8)))))),
  .set (.arr .jac 303) (.add (.rd (.arr .jac 303)) (.mul (.neg (.num 48337982117516021 17)) (.mul (.rd (.var .jTemp)) (.neg (.num 35870588016911675 18))))),
  .set (.arr .jac 306) (.add (.rd (.arr .jac 306)) (.mul (.num 96526541490657281 17) (.mul (.rd (.var .jTemp)) (.neg (.num 35870588016911675 18))))),
  .set (.arr .jac 307) (.add (.rd (.arr .jac 307)) (.mul (.neg (.num 15166201788248397 16)) (.mul (.rd (.var .jTemp)) (.neg (.num 35870588016911675 18))))),
  .set (.arr .jac 309) (.add (.rd (.arr .jac 309)) (.mul (.num 10347345850934271 16) (.mul (.rd (.var .jTemp)) (.neg (.num 35870588016911675 18))))),
  .set (.arr .jac 324) (.add (.rd (.arr .jac 324)) (.mul (.neg (.num 46715344025300498 17)) (.sub (.mul (.rd (.var .jTemp)) (.neg (.num 71851123102163683 18))) (.mul (.rd (.var .kr)) (.rd (.arr .C 11)))))),
  .set (.arr .jac 327) (.add (.rd (.arr .jac 327)) (.mul (.num 93286281217653322 17) (.sub (.mul (.rd (.var .jTemp)) (.neg (.num 71851123102163683 18))) (.mul (.rd (.var .kr)) (.rd (.arr .C 11)))))),
  .set (.arr .jac 328) (.add (.rd (.arr .jac 328)) (.mul (.neg (.num 14657093719235283 16)) (.sub (.mul (.rd (.var .jTemp)) (.neg (.num 71851123102163683 18))) (.mul (.rd (.var .kr)) (.rd (.arr .C 11)))))),
  .set (.arr .jac 330) (.add (.rd (.arr .jac 330)) (.sub (.mul (.rd (.var .jTemp)) (.neg (.num 71851123102163683 18))) (.mul (.rd (.var .kr)) (.rd (.arr .C 11))))),
  .set (.arr .jac 345) (.add (.rd (.arr .jac 345)) (.mul (.neg (.num 45198107121751407 17)) (.mul (.rd (.var .jTemp)) (.neg (.num 10783165818741525 17))))),
  .set (.arr .jac 348) (.add (.rd (.arr .jac 348)) (.mul (.num 90256497505012201 17) (.mul (.rd (.var .jTemp)) (.neg (.num 10783165818741525 17))))),
  .set (.arr .jac 349) (.add (.rd (.arr .jac 349)) (.mul (.neg (.num 14181055621826488 16)) (.mul (.rd (.var .jTemp)) (.neg (.num 10783165818741525 17))))),
  .set (.arr .jac 351) (.add (.rd (.arr .jac 351)) (.mul (.num 96752165835004078 17) (.mul (.rd (.var .jTemp)) (.neg (.num 10783165818741525 17))))),
  .set (.arr .jac 366) (.add (.rd (.arr .jac 366)) (.mul (.neg (.num 5 1)) (.mul (.rd (.var .jTemp)) (.neg (.num 14378791924458678 19))))),
  .set (.arr .jac 369) (.add (.rd (.arr .jac 369)) (.mul (.num 99845439613085729 17) (.mul (.rd (.var .jTemp)) (.neg (.num 14378791924458678 19))))),
  .set (.arr .jac 370) (.add (.rd (.arr .jac 370)) (.mul (.neg (.num 15687665396724004 16)) (.mul (.rd (.var .jTemp)) (.neg (.num 14378791924458678 19))))),
  .set (.arr .jac 372) (.add (.rd (.arr .jac 372)) (.mul (.num 10703121435415432 16) (.mul (.rd (.var .jTemp)) (.neg (.num 14378791924458678 19))))),
  .set (.arr .jac 387) (.add (.rd (.arr .jac 387)) (.mul (.neg (.num 48265861942006144 17)) (.mul (.rd (.var .jTemp)) (.neg (.num 37418414277697654 18))))),
  .set (.arr .jac 390) (.add (.rd (.arr .jac 390)) (.mul (.num 96382524078082144 17) (.mul (.rd (.var .jTemp)) (.neg (.num 37418414277697654 18))))),
  .set (.arr .jac 391) (.add (.rd (.arr .jac 391)) (.mul (.neg (.num 15143573844613358 16)) (.mul (.rd (.var .jTemp)) (.neg (.num 37418414277697654 18))))),
  .set (.arr .jac 393) (.add (.rd (.arr .jac 393)) (.mul (.num 10331907631005757 16) (.mul (.rd (.var .jTemp)) (.neg (.num 37418414277697654 18))))),
  .set (.arr .jac 408) (.add (.rd (.arr .jac 408)) (.mul (.neg (.num 46647981153083307 17)) (.mul (.rd (.var .jTemp)) (.neg (.num 73398949362949439 18))))),
  .set (.arr .jac 411) (.add (.rd (.arr .jac 411)) (.mul (.num 9315176370585081 16) (.mul (.rd (.var .jTemp)) (.neg (.num 73398949362949439 18))))),
  .set (.arr .jac 412) (.add (.rd (.arr .jac 412)) (.mul (.neg (.num 1463595839524517 15)) (.mul (.rd (.var .jTemp)) (.neg (.num 73398949362949439 18))))),
  .set (.arr .jac 414) (.add (.rd (.arr .jac 414)) (.mul (.num 99855801399684196 17) (.mul (.rd (.var .jTemp)) (.neg (.num 73398949362949439 18))))),
  .set (.arr .jac 429) (.add (.rd (.arr .jac 429)) (.mul (.neg (.num 3511284670071092 16)) (.mul (.rd (.var .jTemp)) (.neg (.num 42602775520927771 17))))),
  .set (.arr .jac 432) (.add (.rd (.arr .jac 432)) (.mul (.num 70117152297987373 17) (.mul (.rd (.var .jTemp)) (.neg (.num 42602775520927771 17))))),
  .set (.arr .jac 433) (.add (.rd (.arr .jac 433)) (.mul (.neg (.num 11016771803344347 16)) (.mul (.rd (.var .jTemp)) (.neg (.num 42602775520927771 17))))),
  .set (.arr .jac 435) (.add (.rd (.arr .jac 435)) (.mul (.num 75163412436167021 17) (.mul (.rd (.var .jTemp)) (.neg (.num 42602775520927771 17)))))]

/-- utilities/mechanisms/drm19/lib/src/jacobs/jacob_1.c:2921-2927 -/
def jacobT72 : List CStmt := [
  .set (.var .jTemp) (.mul (.mul (.div (.num 1 0) (.rd (.var .T))) (.sub (.add (.mul (.sub (.rd (.arr .fwd 72)) (.rd (.arr .rev 72))) (.div (.num 14492723467943884 12) (.rd (.var .T)))) (.mul (.rd (.arr .fwd 72)) (.neg (.num 1 0)))) (.mul (.rd (.arr .rev 72)) (.add (.neg (.num 1 0)) (.mul (.neg (.rd (.var .T))) (.sub (.sub (.add (.rd (.arr .dBdT 15)) (.rd (.arr .dBdT 2))) (.rd (.arr .dBdT 9))) (.rd (.arr .dBdT 3)))))))) (.rd (.var .rhoInv))),
  .set (.arr .jac 10) (.add (.rd (.arr .jac 10)) (.mul (.neg (.rd (.var .jTemp))) (.num 1503482 5))),
  .set (.arr .jac 3) (.add (.rd (.arr .jac 3)) (.mul (.rd (.var .jTemp)) (.num 159994 4))),
  .set (.arr .jac 4) (.add (.rd (.arr .jac 4)) (.mul (.neg (.rd (.var .jTemp))) (.num 31998799999999999 15))),
  .set (.arr .jac 16) (.add (.rd (.arr .jac 16)) (.mul (.rd (.var .jTemp)) (.num 31034219999999998 15)))]

/-- utilities/mechanisms/drm19/lib/src/jacobs/jacob_1.c:2928-3019 -/
def jacobS72 : List CStmt := [
  .ite (.rd (.var .T)) (.num 1000 0) (.var .Kc) (.sub (.add (.add (.num 12123446059999999 15) (.mul (.neg (.num 218157566 8)) (.rd (.var .logT)))) (.mul (.rd (.var .T)) (.add (.num 24615292849999998 19) (.mul (.rd (.var .T)) (.add (.neg (.num 59933076833333334 23)) (.mul (.rd (.var .T)) (.add (.num 25389725833333334 26) (.mul (.neg (.num 79965800000000011 30)) (.rd (.var .T)))))))))) (.div (.num 14719805059999999 12) (.rd (.var .T)))) (.sub (.add (.add (.neg (.num 69913536600000015 16)) (.mul (.num 77196422000000009 17) (.rd (.var .logT)))) (.mul (.rd (.var .T)) (.add (.neg (.num 46873251185000023 20)) (.mul (.rd (.var .T)) (.add (.num 18844576798333333 23) (.mul (.rd (.var .T)) (.add (.neg (.num 35060823241666667 27)) (.mul (.num 24244697854999999 31) (.rd (.var .T)))))))))) (.div (.num 13658285040000001 12) (.rd (.var .T)))),
  .set (.var .Kc) (.exp (.rd (.var .Kc))),
  .set (.var .jTemp) (.mul (.mul (.neg (.rd (.var .mwAvg))) (.rd (.var .rhoInv))) (.sub (.mul (.num 2 0) (.rd (.arr .fwd 72))) (.mul (.num 2 0) (.rd (.arr .rev 72))))),
  .set (.var .kf) (.exp (.sub (.num 24009800310288426 15) (.div (.num 14492723467943884 12) (.rd (.var .T))))),
  .set (.var .kr) (.div (.rd (.var .kf)) (.rd (.var .Kc))),
  .set (.arr .jac 31) (.add (.rd (.arr .jac 31)) (.mul (.neg (.num 74581919558703884 16)) (.mul (.rd (.var .jTemp)) (.num 92803892982949643 17)))),
  .set (.arr .jac 24) (.add (.rd (.arr .jac 24)) (.mul (.num 79366827390519274 16) (.mul (.rd (.var .jTemp)) (.num 92803892982949643 17)))),
  .set (.arr .jac 25) (.add (.rd (.arr .jac 25)) (.mul (.neg (.num 15873365478103855 15)) (.mul (.rd (.var .jTemp)) (.num 92803892982949643 17)))),
  .set (.arr .jac 37) (.add (.rd (.arr .jac 37)) (.mul (.num 15394874694922315 15) (.mul (.rd (.var .jTemp)) (.num 92803892982949643 17)))),
  .set (.arr .jac 52) (.add (.rd (.arr .jac 52)) (.mul (.neg (.num 14916383911740777 15)) (.mul (.rd (.var .jTemp)) (.num 96401946491474821 17)))),
  .set (.arr .jac 45) (.add (.rd (.arr .jac 45)) (.mul (.num 15873365478103855 15) (.mul (.rd (.var .jTemp)) (.num 96401946491474821 17)))),
  .set (.arr .jac 46) (.add (.rd (.arr .jac 46)) (.mul (.neg (.num 3174673095620771 14)) (.mul (.rd (.var .jTemp)) (.num 96401946491474821 17)))),
  .set (.arr .jac 58) (.add (.rd (.arr .jac 58)) (.mul (.num 3078974938984463 14) (.mul (.rd (.var .jTemp)) (.num 96401946491474821 17)))),
  .set (.arr .jac 73) (.add (.rd (.arr .jac 73)) (.mul (.neg (.num 93971148918084424 17)) (.sub (.mul (.rd (.var .jTemp)) (.num 42886781649405936 17)) (.mul (.rd (.var .kr)) (.rd (.arr .C 15)))))),
  .set (.arr .jac 66) (.add (.rd (.arr .jac 66)) (.sub (.mul (.rd (.var .jTemp)) (.num 42886781649405936 17)) (.mul (.rd (.var .kr)) (.rd (.arr .C 15))))),
  .set (.arr .jac 67) (.add (.rd (.arr .jac 67)) (.mul (.neg (.num 2 0)) (.sub (.mul (.rd (.var .jTemp)) (.num 42886781649405936 17)) (.mul (.rd (.var .kr)) (.rd (.arr .C 15)))))),
  .set (.arr .jac 79) (.add (.rd (.arr .jac 79)) (.mul (.num 19397114891808442 16) (.sub (.mul (.rd (.var .jTemp)) (.num 42886781649405936 17)) (.mul (.rd (.var .kr)) (.rd (.arr .C 15)))))),
  .set (.arr .jac 94) (.add (.rd (.arr .jac 94)) (.mul (.neg (.num 46985574459042212 17)) (.add (.mul (.rd (.var .jTemp)) (.neg (.num 14226436701188128 17))) (.mul (.rd (.var .kf)) (.rd (.arr .C 9)))))),
  .set (.arr .jac 87) (.add (.rd (.arr .jac 87)) (.mul (.num 5 1) (.add (.mul (.rd (.var .jTemp)) (.neg (.num 14226436701188128 17))) (.mul (.rd (.var .kf)) (.rd (.arr .C 9)))))),
  .set (.arr .jac 88) (.add (.rd (.arr .jac 88)) (.neg (.add (.mul (.rd (.var .jTemp)) (.neg (.num 14226436701188128 17))) (.mul (.rd (.var .kf)) (.rd (.arr .C 9)))))),
  .set (.arr .jac 100) (.add (.rd (.arr .jac 100)) (.mul (.num 96985574459042212 17) (.add (.mul (.rd (.var .jTemp)) (.neg (.num 14226436701188128 17))) (.mul (.rd (.var .kf)) (.rd (.arr .C 9)))))),
  .set (.arr .jac 115) (.add (.rd (.arr .jac 115)) (.mul (.neg (.num 88401948805633335 17)) (.mul (.rd (.var .jTemp)) (.num 39288728140880758 17)))),
  .set (.arr .jac 108) (.add (.rd (.arr .jac 108)) (.mul (.num 94073500029987056 17) (.mul (.rd (.var .jTemp)) (.num 39288728140880758 17)))),
  .set (.arr .jac 109) (.add (.rd (.arr .jac 109)) (.mul (.neg (.num 18814700005997411 16)) (.mul (.rd (.var .jTemp)) (.num 39288728140880758 17)))),
  .set (.arr .jac 121) (.add (.rd (.arr .jac 121)) (.mul (.num 18247544883562039 16) (.mul (.rd (.var .jTemp)) (.num 39288728140880758 17)))),
  .set (.arr .jac 136) (.add (.rd (.arr .jac 136)) (.mul (.neg (.num 83455932963573143 17)) (.mul (.rd (.var .jTemp)) (.num 35690674632355568 17)))),
  .set (.arr .jac 129) (.add (.rd (.arr .jac 129)) (.mul (.num 88810165592763468 17) (.mul (.rd (.var .jTemp)) (.num 35690674632355568 17)))),
  .set (.arr .jac 130) (.add (.rd (.arr .jac 130)) (.mul (.neg (.num 17762033118552694 16)) (.mul (.rd (.var .jTemp)) (.num 35690674632355568 17)))),
  .set (.arr .jac 142) (.add (.rd (.arr .jac 142)) (.mul (.num 17226609855633661 16) (.mul (.rd (.var .jTemp)) (.num 35690674632355568 17)))),
  .set (.arr .jac 157) (.add (.rd (.arr .jac 157)) (.mul (.neg (.num 45550757208982162 17)) (.mul (.rd (.var .jTemp)) (.neg (.num 17824490209713328 17))))),
  .set (.arr .jac 150) (.add (.rd (.arr .jac 150)) (.mul (.num 48473130033441653 17) (.mul (.rd (.var .jTemp)) (.neg (.num 17824490209713328 17))))),
  .set (.arr .jac 151) (.add (.rd (.arr .jac 151)) (.mul (.neg (.num 96946260066883305 17)) (.mul (.rd (.var .jTemp)) (.neg (.num 17824490209713328 17))))),
  .set (.arr .jac 163) (.add (.rd (.arr .jac 163)) (.mul (.num 94023887242423809 17) (.mul (.rd (.var .jTemp)) (.neg (.num 17824490209713328 17))))),
  .set (.arr .jac 178) (.add (.rd (.arr .jac 178)) (.mul (.neg (.num 10718577474106858 16)) (.mul (.rd (.var .jTemp)) (.num 49928106040377707 17)))),
  .set (.arr .jac 171) (.add (.rd (.arr .jac 171)) (.mul (.num 11406242870830863 16) (.mul (.rd (.var .jTemp)) (.num 49928106040377707 17)))),
  .set (.arr .jac 172) (.add (.rd (.arr .jac 172)) (.mul (.neg (.num 22812485741661725 16)) (.mul (.rd (.var .jTemp)) (.num 49928106040377707 17)))),
  .set (.arr .jac 184) (.add (.rd (.arr .jac 184)) (.mul (.num 22124820344937719 16) (.mul (.rd (.var .jTemp)) (.num 49928106040377707 17)))),
  .set (.arr .jac 199) (.add (.rd (.arr .jac 199)) (.mul (.neg (.num 10718577474106858 16)) (.mul (.rd (.var .jTemp)) (.num 49928106040377707 17)))),
  .set (.arr .jac 192) (.add (.rd (.arr .jac 192)) (.mul (.num 11406242870830863 16) (.mul (.rd (.var .jTemp)) (.num 49928106040377707 17)))),
  .set (.arr .jac 193) (.add (.rd (.arr .jac 193)) (.mul (.neg (.num 22812485741661725 16)) (.mul (.rd (.var .jTemp)) (.num 49928106040377707 17)))),
  .set (.arr .jac 205) (.add (.rd (.arr .jac 205)) (.mul (.num 22124820344937719 16) (.mul (.rd (.var .jTemp)) (.num 49928106040377707 17)))),
  .set (.arr .jac 220) (.add (.rd (.arr .jac 220)) (.neg (.add (.mul (.rd (.var .jTemp)) (.num 46330052531852528 17)) (.mul (.rd (.var .kf)) (.rd (.arr .C 3)))))),
  .set (.arr .jac 213) (.add (.rd (.arr .jac 213)) (.mul (.num 10641564049320178 16) (.add (.mul (.rd (.var .jTemp)) (.num 46330052531852528 17)) (.mul (.rd (.var .kf)) (.rd (.arr .C 3)))))),
  .set (.arr .jac 214) (.add (.rd (.arr .jac 214)) (.mul (.neg (.num 21283128098640356 16)) (.add (.mul (.rd (.var .jTemp)) (.num 46330052531852528 17)) (.mul (.rd (.var .kf)) (.rd (.arr .C 3)))))),
  .set (.arr .jac 226) (.add (.rd (.arr .jac 226)) (.mul (.num 20641564049320178 16) (.add (.mul (.rd (.var .jTemp)) (.num 46330052531852528 17)) (.mul (.rd (.var .kf)) (.rd (.arr .C 3)))))),
  .set (.arr .jac 241) (.add (.rd (.arr .jac 241)) (.mul (.neg (.num 93717165874201191 17)) (.mul (.rd (.var .jTemp)) (.num 42731999023327338 17)))),
  .set (.arr .jac 234) (.add (.rd (.arr .jac 234)) (.mul (.num 99729722317107516 17) (.mul (.rd (.var .jTemp)) (.num 42731999023327338 17)))),
  .set (.arr .jac 235) (.add (.rd (.arr .jac 235)) (.mul (.neg (.num 19945944463421503 16)) (.mul (.rd (.var .jTemp)) (.num 42731999023327338 17)))),
  .set (.arr .jac 247) (.add (.rd (.arr .jac 247)) (.mul (.num 19344688819130871 16) (.mul (.rd (.var .jTemp)) (.num 42731999023327338 17)))),
  .set (.arr .jac 262) (.add (.rd (.arr .jac 262)) (.mul (.neg (.num 53675848970382434 17)) (.mul (.rd (.var .jTemp)) (.num 10994706834011048 20)))),
  .set (.arr .jac 255) (.add (.rd (.arr .jac 255)) (.mul (.num 57119498471996122 17) (.mul (.rd (.var .jTemp)) (.num 10994706834011048 20)))),
  .set (.arr .jac 256) (.add (.rd (.arr .jac 256)) (.mul (.neg (.num 11423899694399224 16)) (.mul (.rd (.var .jTemp)) (.num 10994706834011048 20)))),
  .set (.arr .jac 268) (.add (.rd (.arr .jac 268)) (.mul (.num 11079534744237856 16) (.mul (.rd (.var .jTemp)) (.num 10994706834011048 20)))),
  .set (.arr .jac 283) (.add (.rd (.arr .jac 283)) (.mul (.neg (.num 34162436548223352 17)) (.mul (.rd (.var .jTemp)) (.neg (.num 57102223643760053 17))))),
  .set (.arr .jac 276) (.add (.rd (.arr .jac 276)) (.mul (.num 36354175660875532 17) (.mul (.rd (.var .jTemp)) (.neg (.num 57102223643760053 17))))),
  .set (.arr .jac 277) (.add (.rd (.arr .jac 277)) (.mul (.neg (.num 72708351321751064 17)) (.mul (.rd (.var .jTemp)) (.neg (.num 57102223643760053 17))))),
  .set (.arr .jac 289) (.add (.rd (.arr .jac 289)) (.mul (.num 70516612209098883 17) (.mul (.rd (.var .jTemp)) (.neg (.num 57102223643760053 17))))),
  .set (.arr .jac 304) (.add (.rd (.arr .jac 304)) (.mul (.neg (.num 5181144062685874 16)) (.mul (.rd (.var .jTemp)) (.neg (.num 35870588016911675 18))))),
  .set (.arr .jac 297) (.add (.rd (.arr .jac 297)) (.mul (.num 55135476391826688 17) (.mul (.rd (.var .jTemp)) (.neg (.num 35870588016911675 18))))),
  .set (.arr .jac 298) (.add (.rd (.arr .jac 298)) (.mul (.neg (.num 11027095278365338 16)) (.mul (.rd (.var .jTemp)) (.neg (.num 35870588016911675 18))))),
  .set (.arr .jac 310) (.add (.rd (.arr .jac 310)) (.mul (.num 10694691701868542 16) (.mul (.rd (.var .jTemp)) (.neg (.num 35870588016911675 18))))),
  .set (.arr .jac 325) (.add (.rd (.arr .jac 325)) (.mul (.neg (.num 50072203416473837 17)) (.mul (.rd (.var .jTemp)) (.neg (.num 71851123102163683 18))))),
  .set (.arr .jac 318) (.add (.rd (.arr .jac 318)) (.mul (.num 53284655974699491 17) (.mul (.rd (.var .jTemp)) (.neg (.num 71851123102163683 18))))),
  .set (.arr .jac 319) (.add (.rd (.arr .jac 319)) (.mul (.neg (.num 10656931194939898 16)) (.mul (.rd (.var .jTemp)) (.neg (.num 71851123102163683 18))))),
  .set (.arr .jac 331) (.add (.rd (.arr .jac 331)) (.mul (.num 10335685939117332 16) (.mul (.rd (.var .jTemp)) (.neg (.num 71851123102163683 18))))),
  .set (.arr .jac 346) (.add (.rd (.arr .jac 346)) (.mul (.neg (.num 4844594128674734 16)) (.sub (.mul (.rd (.var .jTemp)) (.neg (.num 10783165818741525 17))) (.mul (.rd (.var .kr)) (.rd (.arr .C 2)))))),
  .set (.arr .jac 339) (.add (.rd (.arr .jac 339)) (.mul (.num 5155405871325266 16) (.sub (.mul (.rd (.var .jTemp)) (.neg (.num 10783165818741525 17))) (.mul (.rd (.var .kr)) (.rd (.arr .C 2)))))),
  .set (.arr .jac 340) (.add (.rd (.arr .jac 340)) (.mul (.neg (.num 10310811742650532 16)) (.sub (.mul (.rd (.var .jTemp)) (.neg (.num 10783165818741525 17))) (.mul (.rd (.var .kr)) (.rd (.arr .C 2)))))),
  .set (.arr .jac 352) (.add (.rd (.arr .jac 352)) (.sub (.mul (.rd (.var .jTemp)) (.neg (.num 10783165818741525 17))) (.mul (.rd (.var .kr)) (.rd (.arr .C 2))))),
  .set (.arr .jac 367) (.add (.rd (.arr .jac 367)) (.mul (.neg (.num 53592887370534292 17)) (.mul (.rd (.var .jTemp)) (.neg (.num 14378791924458678 19))))),
  .set (.arr .jac 360) (.add (.rd (.arr .jac 360)) (.mul (.num 57031214354154314 17) (.mul (.rd (.var .jTemp)) (.neg (.num 14378791924458678 19))))),
  .set (.arr .jac 361) (.add (.rd (.arr .jac 361)) (.mul (.neg (.num 11406242870830863 16)) (.mul (.rd (.var .jTemp)) (.neg (.num 14378791924458678 19))))),
  .set (.arr .jac 373) (.add (.rd (.arr .jac 373)) (.mul (.num 11062410172468859 16) (.mul (.rd (.var .jTemp)) (.neg (.num 14378791924458678 19))))),
  .set (.arr .jac 388) (.add (.rd (.arr .jac 388)) (.mul (.neg (.num 51734138057993861 17)) (.mul (.rd (.var .jTemp)) (.neg (.num 37418414277697654 18))))),
  .set (.arr .jac 381) (.add (.rd (.arr .jac 381)) (.mul (.num 55053214368051429 17) (.mul (.rd (.var .jTemp)) (.neg (.num 37418414277697654 18))))),
  .set (.arr .jac 382) (.add (.rd (.arr .jac 382)) (.mul (.neg (.num 11010642873610286 16)) (.mul (.rd (.var .jTemp)) (.neg (.num 37418414277697654 18))))),
  .set (.arr .jac 394) (.add (.rd (.arr .jac 394)) (.mul (.num 10678735242604527 16) (.mul (.rd (.var .jTemp)) (.neg (.num 37418414277697654 18))))),
  .set (.arr .jac 409) (.add (.rd (.arr .jac 409)) (.mul (.neg (.num 5 1)) (.mul (.rd (.var .jTemp)) (.neg (.num 73398949362949439 18))))),
  .set (.arr .jac 402) (.add (.rd (.arr .jac 402)) (.mul (.num 5320782024660089 16) (.mul (.rd (.var .jTemp)) (.neg (.num 73398949362949439 18))))),
  .set (.arr .jac 403) (.add (.rd (.arr .jac 403)) (.mul (.neg (.num 10641564049320178 16)) (.mul (.rd (.var .jTemp)) (.neg (.num 73398949362949439 18))))),
  .set (.arr .jac 415) (.add (.rd (.arr .jac 415)) (.mul (.num 10320782024660089 16) (.mul (.rd (.var .jTemp)) (.neg (.num 73398949362949439 18))))),
  .set (.arr .jac 430) (.add (.rd (.arr .jac 430)) (.mul (.neg (.num 37635976769800739 17)) (.mul (.rd (.var .jTemp)) (.neg (.num 42602775520927771 17))))),
  .set (.arr .jac 423) (.add (.rd (.arr .jac 423)) (.mul (.num 4005056573545609 16) (.mul (.rd (.var .jTemp)) (.neg (.num 42602775520927771 17))))),
  .set (.arr .jac 424) (.add (.rd (.arr .jac 424)) (.mul (.neg (.num 80101131470912179 17)) (.mul (.rd (.var .jTemp)) (.neg (.num 42602775520927771 17))))),
  .set (.arr .jac 436) (.add (.rd (.arr .jac 436)) (.mul (.num 77686542505256828 17) (.mul (.rd (.var .jTemp)) (.neg (.num 42602775520927771 17)))))]

/-- utilities/mechanisms/drm19/lib/src/jacobs/jacob_1.c:3020-3026 -/
def jacobT73 : List CStmt := [
  .set (.var .jTemp) (.mul (.mul (.div (.num 1 0) (.rd (.var .T))) (.sub (.add (.mul (.sub (.rd (.arr .fwd 73)) (.rd (.arr .rev 73))) (.div (.num 44987829098409138 13) (.rd (.var .T)))) (.mul (.rd (.arr .fwd 73)) (.neg (.num 1 0)))) (.mul (.rd (.arr .rev 73)) (.add (.neg (.num 1 0)) (.mul (.neg (.rd (.var .T))) (.sub (.sub (.add (.rd (.arr .dBdT 14)) (.rd (.arr .dBdT 4))) (.rd (.arr .dBdT 9))) (.rd (.arr .dBdT 3)))))))) (.rd (.var .rhoInv))),
  .set (.arr .jac 10) (.add (.rd (.arr .jac 10)) (.mul (.neg (.rd (.var .jTemp))) (.num 1503482 5))),
  .set (.arr .jac 4) (.add (.rd (.arr .jac 4)) (.mul (.neg (.rd (.var .jTemp))) (.num 31998799999999999 15))),
  .set (.arr .jac 5) (.add (.rd (.arr .jac 5)) (.mul (.rd (.var .jTemp)) (.num 17007339999999999 15))),
  .set (.arr .jac 15) (.add (.rd (.arr .jac 15)) (.mul (.rd (.var .jTemp)) (.num 3002628 5)))]

/-- utilities/mechanisms/drm19/lib/src/jacobs/jacob_1.c:3027-3118 -/
def jacobS73 : List CStmt := [
  .ite (.rd (.var .T)) (.num 1000 0) (.var .Kc) (.sub (.add (.add (.neg (.num 60930444379999997 16)) (.mul (.num 13296918200000003 16) (.rd (.var .logT)))) (.mul (.rd (.var .T)) (.add (.neg (.num 56619344000000005 19)) (.mul (.rd (.var .T)) (.add (.num 43937364399999992 22) (.mul (.rd (.var .T)) (.add (.neg (.num 21047658408333332 25)) (.mul (.num 43768970950000006 29) (.rd (.var .T)))))))))) (.div (.neg (.num 26074931380000002 12)) (.rd (.var .T)))) (.sub (.add (.add (.num 49143938299999999 16) (.mul (.neg (.num 71467780999999975 17)) (.rd (.var .logT)))) (.mul (.rd (.var .T)) (.add (.num 51272131299999989 20) (.mul (.rd (.var .T)) (.add (.neg (.num 91828792166666604 24)) (.mul (.rd (.var .T)) (.add (.num 94425637833333271 28) (.mul (.neg (.num 41285538000000021 32)) (.rd (.var .T)))))))))) (.div (.neg (.num 25824301879999999 12)) (.rd (.var .T)))),
  .set (.var .Kc) (.exp (.rd (.var .Kc))),
  .set (.var .jTemp) (.mul (.mul (.neg (.rd (.var .mwAvg))) (.rd (.var .rhoInv))) (.sub (.mul (.num 2 0) (.rd (.arr .fwd 73))) (.mul (.num 2 0) (.rd (.arr .rev 73))))),
  .set (.var .kf) (.exp (.sub (.num 17399029496420383 15) (.div (.num 44987829098409138 13) (.rd (.var .T))))),
  .set (.var .kr) (.div (.rd (.var .kf)) (.rd (.var .Kc))),
  .set (.arr .jac 31) (.add (.rd (.arr .jac 31)) (.mul (.neg (.num 74581919558703884 16)) (.mul (.rd (.var .jTemp)) (.num 92803892982949643 17)))),
  .set (.arr .jac 25) (.add (.rd (.arr .jac 25)) (.mul (.neg (.num 15873365478103855 15)) (.mul (.rd (.var .jTemp)) (.num 92803892982949643 17)))),
  .set (.arr .jac 26) (.add (.rd (.arr .jac 26)) (.mul (.num 84366827390519266 16) (.mul (.rd (.var .jTemp)) (.num 92803892982949643 17)))),
  .set (.arr .jac 36) (.add (.rd (.arr .jac 36)) (.mul (.num 14894874694922317 15) (.mul (.rd (.var .jTemp)) (.num 92803892982949643 17)))),
  .set (.arr .jac 52) (.add (.rd (.arr .jac 52)) (.mul (.neg (.num 14916383911740777 15)) (.mul (.rd (.var .jTemp)) (.num 96401946491474821 17)))),
  .set (.arr .jac 46) (.add (.rd (.arr .jac 46)) (.mul (.neg (.num 3174673095620771 14)) (.mul (.rd (.var .jTemp)) (.num 96401946491474821 17)))),
  .set (.arr .jac 47) (.add (.rd (.arr .jac 47)) (.mul (.num 16873365478103853 15) (.mul (.rd (.var .jTemp)) (.num 96401946491474821 17)))),
  .set (.arr .jac 57) (.add (.rd (.arr .jac 57)) (.mul (.num 29789749389844633 15) (.mul (.rd (.var .jTemp)) (.num 96401946491474821 17)))),
  .set (.arr .jac 73) (.add (.rd (.arr .jac 73)) (.mul (.neg (.num 93971148918084424 17)) (.mul (.rd (.var .jTemp)) (.num 42886781649405936 17)))),
  .set (.arr .jac 67) (.add (.rd (.arr .jac 67)) (.mul (.neg (.num 2 0)) (.mul (.rd (.var .jTemp)) (.num 42886781649405936 17)))),
  .set (.arr .jac 68) (.add (.rd (.arr .jac 68)) (.mul (.num 10629986124479667 16) (.mul (.rd (.var .jTemp)) (.num 42886781649405936 17)))),
  .set (.arr .jac 78) (.add (.rd (.arr .jac 78)) (.mul (.num 18767128767328776 16) (.mul (.rd (.var .jTemp)) (.num 42886781649405936 17)))),
  .set (.arr .jac 94) (.add (.rd (.arr .jac 94)) (.mul (.neg (.num 46985574459042212 17)) (.add (.mul (.rd (.var .jTemp)) (.neg (.num 14226436701188128 17))) (.mul (.rd (.var .kf)) (.rd (.arr .C 9)))))),
  .set (.arr .jac 88) (.add (.rd (.arr .jac 88)) (.neg (.add (.mul (.rd (.var .jTemp)) (.neg (.num 14226436701188128 17))) (.mul (.rd (.var .kf)) (.rd (.arr .C 9)))))),
  .set (.arr .jac 89) (.add (.rd (.arr .jac 89)) (.mul (.num 53149930622398334 17) (.add (.mul (.rd (.var .jTemp)) (.neg (.num 14226436701188128 17))) (.mul (.rd (.var .kf)) (.rd (.arr .C 9)))))),
  .set (.arr .jac 99) (.add (.rd (.arr .jac 99)) (.mul (.num 93835643836643878 17) (.add (.mul (.rd (.var .jTemp)) (.neg (.num 14226436701188128 17))) (.mul (.rd (.var .kf)) (.rd (.arr .C 9)))))),
  .set (.arr .jac 115) (.add (.rd (.arr .jac 115)) (.mul (.neg (.num 88401948805633335 17)) (.sub (.mul (.rd (.var .jTemp)) (.num 39288728140880758 17)) (.mul (.rd (.var .kr)) (.rd (.arr .C 14)))))),
  .set (.arr .jac 109) (.add (.rd (.arr .jac 109)) (.mul (.neg (.num 18814700005997411 16)) (.sub (.mul (.rd (.var .jTemp)) (.num 39288728140880758 17)) (.mul (.rd (.var .kr)) (.rd (.arr .C 14)))))),
  .set (.arr .jac 110) (.add (.rd (.arr .jac 110)) (.sub (.mul (.rd (.var .jTemp)) (.num 39288728140880758 17)) (.mul (.rd (.var .kr)) (.rd (.arr .C 14))))),
  .set (.arr .jac 120) (.add (.rd (.arr .jac 120)) (.mul (.num 17654894886560744 16) (.sub (.mul (.rd (.var .jTemp)) (.num 39288728140880758 17)) (.mul (.rd (.var .kr)) (.rd (.arr .C 14)))))),
  .set (.arr .jac 136) (.add (.rd (.arr .jac 136)) (.mul (.neg (.num 83455932963573143 17)) (.mul (.rd (.var .jTemp)) (.num 35690674632355568 17)))),
  .set (.arr .jac 130) (.add (.rd (.arr .jac 130)) (.mul (.neg (.num 17762033118552694 16)) (.mul (.rd (.var .jTemp)) (.num 35690674632355568 17)))),
  .set (.arr .jac 131) (.add (.rd (.arr .jac 131)) (.mul (.num 94405082796381734 17) (.mul (.rd (.var .jTemp)) (.num 35690674632355568 17)))),
  .set (.arr .jac 141) (.add (.rd (.arr .jac 141)) (.mul (.num 16667118135271835 16) (.mul (.rd (.var .jTemp)) (.num 35690674632355568 17)))),
  .set (.arr .jac 157) (.add (.rd (.arr .jac 157)) (.mul (.neg (.num 45550757208982162 17)) (.mul (.rd (.var .jTemp)) (.neg (.num 17824490209713328 17))))),
  .set (.arr .jac 151) (.add (.rd (.arr .jac 151)) (.mul (.neg (.num 96946260066883305 17)) (.mul (.rd (.var .jTemp)) (.neg (.num 17824490209713328 17))))),
  .set (.arr .jac 152) (.add (.rd (.arr .jac 152)) (.mul (.num 51526869966558342 17) (.mul (.rd (.var .jTemp)) (.neg (.num 17824490209713328 17))))),
  .set (.arr .jac 162) (.add (.rd (.arr .jac 162)) (.mul (.num 90970147309307126 17) (.mul (.rd (.var .jTemp)) (.neg (.num 17824490209713328 17))))),
  .set (.arr .jac 178) (.add (.rd (.arr .jac 178)) (.mul (.neg (.num 10718577474106858 16)) (.mul (.rd (.var .jTemp)) (.num 49928106040377707 17)))),
  .set (.arr .jac 172) (.add (.rd (.arr .jac 172)) (.mul (.neg (.num 22812485741661725 16)) (.mul (.rd (.var .jTemp)) (.num 49928106040377707 17)))),
  .set (.arr .jac 173) (.add (.rd (.arr .jac 173)) (.mul (.num 12124820344937721 16) (.mul (.rd (.var .jTemp)) (.num 49928106040377707 17)))),
  .set (.arr .jac 183) (.add (.rd (.arr .jac 183)) (.mul (.num 21406242870830865 16) (.mul (.rd (.var .jTemp)) (.num 49928106040377707 17)))),
  .set (.arr .jac 199) (.add (.rd (.arr .jac 199)) (.mul (.neg (.num 10718577474106858 16)) (.mul (.rd (.var .jTemp)) (.num 49928106040377707 17)))),
  .set (.arr .jac 193) (.add (.rd (.arr .jac 193)) (.mul (.neg (.num 22812485741661725 16)) (.mul (.rd (.var .jTemp)) (.num 49928106040377707 17)))),
  .set (.arr .jac 194) (.add (.rd (.arr .jac 194)) (.mul (.num 12124820344937721 16) (.mul (.rd (.var .jTemp)) (.num 49928106040377707 17)))),
  .set (.arr .jac 204) (.add (.rd (.arr .jac 204)) (.mul (.num 21406242870830865 16) (.mul (.rd (.var .jTemp)) (.num 49928106040377707 17)))),
  .set (.arr .jac 220) (.add (.rd (.arr .jac 220)) (.neg (.add (.mul (.rd (.var .jTemp)) (.num 46330052531852528 17)) (.mul (.rd (.var .kf)) (.rd (.arr .C 3)))))),
  .set (.arr .jac 214) (.add (.rd (.arr .jac 214)) (.mul (.neg (.num 21283128098640356 16)) (.add (.mul (.rd (.var .jTemp)) (.num 46330052531852528 17)) (.mul (.rd (.var .kf)) (.rd (.arr .C 3)))))),
  .set (.arr .jac 215) (.add (.rd (.arr .jac 215)) (.mul (.num 11311967818703517 16) (.add (.mul (.rd (.var .jTemp)) (.num 46330052531852528 17)) (.mul (.rd (.var .kf)) (.rd (.arr .C 3)))))),
  .set (.arr .jac 225) (.add (.rd (.arr .jac 225)) (.mul (.num 19971160279936839 16) (.add (.mul (.rd (.var .jTemp)) (.num 46330052531852528 17)) (.mul (.rd (.var .kf)) (.rd (.arr .C 3)))))),
  .set (.arr .jac 241) (.add (.rd (.arr .jac 241)) (.mul (.neg (.num 93717165874201191 17)) (.mul (.rd (.var .jTemp)) (.num 42731999023327338 17)))),
  .set (.arr .jac 235) (.add (.rd (.arr .jac 235)) (.mul (.neg (.num 19945944463421503 16)) (.mul (.rd (.var .jTemp)) (.num 42731999023327338 17)))),
  .set (.arr .jac 236) (.add (.rd (.arr .jac 236)) (.mul (.num 10601255644290632 16) (.mul (.rd (.var .jTemp)) (.num 42731999023327338 17)))),
  .set (.arr .jac 246) (.add (.rd (.arr .jac 246)) (.mul (.num 18716405406550991 16) (.mul (.rd (.var .jTemp)) (.num 42731999023327338 17)))),
  .set (.arr .jac 262) (.add (.rd (.arr .jac 262)) (.mul (.neg (.num 53675848970382434 17)) (.mul (.rd (.var .jTemp)) (.num 10994706834011048 20)))),
  .set (.arr .jac 256) (.add (.rd (.arr .jac 256)) (.mul (.neg (.num 11423899694399224 16)) (.mul (.rd (.var .jTemp)) (.num 10994706834011048 20)))),
  .set (.arr .jac 257) (.add (.rd (.arr .jac 257)) (.mul (.num 60717947619455637 17) (.mul (.rd (.var .jTemp)) (.num 10994706834011048 20)))),
  .set (.arr .jac 267) (.add (.rd (.arr .jac 267)) (.mul (.num 10719689829491903 16) (.mul (.rd (.var .jTemp)) (.num 10994706834011048 20)))),
  .set (.arr .jac 283) (.add (.rd (.arr .jac 283)) (.mul (.neg (.num 34162436548223352 17)) (.mul (.rd (.var .jTemp)) (.neg (.num 57102223643760053 17))))),
  .set (.arr .jac 277) (.add (.rd (.arr .jac 277)) (.mul (.neg (.num 72708351321751064 17)) (.mul (.rd (.var .jTemp)) (.neg (.num 57102223643760053 17))))),
  .set (.arr .jac 278) (.add (.rd (.arr .jac 278)) (.mul (.num 38644438284200339 17) (.mul (.rd (.var .jTemp)) (.neg (.num 57102223643760053 17))))),
  .set (.arr .jac 288) (.add (.rd (.arr .jac 288)) (.mul (.num 68226349585774082 17) (.mul (.rd (.var .jTemp)) (.neg (.num 57102223643760053 17))))),
  .set (.arr .jac 304) (.add (.rd (.arr .jac 304)) (.mul (.neg (.num 5181144062685874 16)) (.mul (.rd (.var .jTemp)) (.neg (.num 35870588016911675 18))))),
  .set (.arr .jac 298) (.add (.rd (.arr .jac 298)) (.mul (.neg (.num 11027095278365338 16)) (.mul (.rd (.var .jTemp)) (.neg (.num 35870588016911675 18))))),
  .set (.arr .jac 299) (.add (.rd (.arr .jac 299)) (.mul (.num 58608934901169396 17) (.mul (.rd (.var .jTemp)) (.neg (.num 35870588016911675 18))))),
  .set (.arr .jac 309) (.add (.rd (.arr .jac 309)) (.mul (.num 10347345850934271 16) (.mul (.rd (.var .jTemp)) (.neg (.num 35870588016911675 18))))),
  .set (.arr .jac 325) (.add (.rd (.arr .jac 325)) (.mul (.neg (.num 50072203416473837 17)) (.sub (.mul (.rd (.var .jTemp)) (.neg (.num 71851123102163683 18))) (.mul (.rd (.var .kr)) (.rd (.arr .C 4)))))),
  .set (.arr .jac 319) (.add (.rd (.arr .jac 319)) (.mul (.neg (.num 10656931194939898 16)) (.sub (.mul (.rd (.var .jTemp)) (.neg (.num 71851123102163683 18))) (.mul (.rd (.var .kr)) (.rd (.arr .C 4)))))),
  .set (.arr .jac 320) (.add (.rd (.arr .jac 320)) (.mul (.num 5664151536587283 16) (.sub (.mul (.rd (.var .jTemp)) (.neg (.num 71851123102163683 18))) (.mul (.rd (.var .kr)) (.rd (.arr .C 4)))))),
  .set (.arr .jac 330) (.add (.rd (.arr .jac 330)) (.sub (.mul (.rd (.var .jTemp)) (.neg (.num 71851123102163683 18))) (.mul (.rd (.var .kr)) (.rd (.arr .C 4))))),
  .set (.arr .jac 346) (.add (.rd (.arr .jac 346)) (.mul (.neg (.num 4844594128674734 16)) (.mul (.rd (.var .jTemp)) (.neg (.num 10783165818741525 17))))),
  .set (.arr .jac 340) (.add (.rd (.arr .jac 340)) (.mul (.neg (.num 10310811742650532 16)) (.mul (.rd (.var .jTemp)) (.neg (.num 10783165818741525 17))))),
  .set (.arr .jac 341) (.add (.rd (.arr .jac 341)) (.mul (.num 54801892878248593 17) (.mul (.rd (.var .jTemp)) (.neg (.num 10783165818741525 17))))),
  .set (.arr .jac 351) (.add (.rd (.arr .jac 351)) (.mul (.num 96752165835004078 17) (.mul (.rd (.var .jTemp)) (.neg (.num 10783165818741525 17))))),
  .set (.arr .jac 367) (.add (.rd (.arr .jac 367)) (.mul (.neg (.num 53592887370534292 17)) (.mul (.rd (.var .jTemp)) (.neg (.num 14378791924458678 19))))),
  .set (.arr .jac 361) (.add (.rd (.arr .jac 361)) (.mul (.neg (.num 11406242870830863 16)) (.mul (.rd (.var .jTemp)) (.neg (.num 14378791924458678 19))))),
  .set (.arr .jac 362) (.add (.rd (.arr .jac 362)) (.mul (.num 60624101724688606 17) (.mul (.rd (.var .jTemp)) (.neg (.num 14378791924458678 19))))),
  .set (.arr .jac 372) (.add (.rd (.arr .jac 372)) (.mul (.num 10703121435415432 16) (.mul (.rd (.var .jTemp)) (.neg (.num 14378791924458678 19))))),
  .set (.arr .jac 388) (.add (.rd (.arr .jac 388)) (.mul (.neg (.num 51734138057993861 17)) (.mul (.rd (.var .jTemp)) (.neg (.num 37418414277697654 18))))),
  .set (.arr .jac 382) (.add (.rd (.arr .jac 382)) (.mul (.neg (.num 11010642873610286 16)) (.mul (.rd (.var .jTemp)) (.neg (.num 37418414277697654 18))))),
  .set (.arr .jac 383) (.add (.rd (.arr .jac 383)) (.mul (.num 58521490484039129 17) (.mul (.rd (.var .jTemp)) (.neg (.num 37418414277697654 18))))),
  .set (.arr .jac 393) (.add (.rd (.arr .jac 393)) (.mul (.num 10331907631005757 16) (.mul (.rd (.var .jTemp)) (.neg (.num 37418414277697654 18))))),
  .set (.arr .jac 409) (.add (.rd (.arr .jac 409)) (.mul (.neg (.num 5 1)) (.mul (.rd (.var .jTemp)) (.neg (.num 73398949362949439 18))))),
  .set (.arr .jac 403) (.add (.rd (.arr .jac 403)) (.mul (.neg (.num 10641564049320178 16)) (.mul (.rd (.var .jTemp)) (.neg (.num 73398949362949439 18))))),
  .set (.arr .jac 404) (.add (.rd (.arr .jac 404)) (.mul (.num 56559839093517583 17) (.mul (.rd (.var .jTemp)) (.neg (.num 73398949362949439 18))))),
  .set (.arr .jac 414) (.add (.rd (.arr .jac 414)) (.mul (.num 99855801399684196 17) (.mul (.rd (.var .jTemp)) (.neg (.num 73398949362949439 18))))),
  .set (.arr .jac 430) (.add (.rd (.arr .jac 430)) (.mul (.neg (.num 37635976769800739 17)) (.mul (.rd (.var .jTemp)) (.neg (.num 42602775520927771 17))))),
  .set (.arr .jac 424) (.add (.rd (.arr .jac 424)) (.mul (.neg (.num 80101131470912179 17)) (.mul (.rd (.var .jTemp)) (.neg (.num 42602775520927771 17))))),
  .set (.arr .jac 425) (.add (.rd (.arr .jac 425)) (.mul (.num 42573695804545908 17) (.mul (.rd (.var .jTemp)) (.neg (.num 42602775520927771 17))))),
  .set (.arr .jac 435) (.add (.rd (.arr .jac 435)) (.mul (.num 75163412436167021 17) (.mul (.rd (.var .jTemp)) (.neg (.num 42602775520927771 17)))))]

/-- utilities/mechanisms/drm19/lib/src/jacobs/jacob_1.c:3119-3128 -/
def jacobT74 : List CStmt := [
  .set (.var .Pr) (.mul (.rd (.var .concTemp)) (.exp (.sub (.sub (.num 71199701340717226 15) (.mul (.num 87 1) (.rd (.var .logT)))) (.div (.num 28180295632113107 13) (.rd (.var .T)))))),
  .set (.var .Fcent) (.add (.add (.mul (.num 46750000000000003 17) (.exp (.div (.rd (.var .T)) (.neg (.num 151 0))))) (.mul (.num 53249999999999997 17) (.exp (.div (.rd (.var .T)) (.neg (.num 1038 0)))))) (.exp (.div (.neg (.num 4970 0)) (.rd (.var .T))))),
  .set (.var .A) (.sub (.sub (.log10 (.fmax (.rd (.var .Pr)) (.num 1 300))) (.mul (.num 67 2) (.log10 (.fmax (.rd (.var .Fcent)) (.num 1 300))))) (.num 4 1)),
  .set (.var .B) (.sub (.sub (.num 806 3) (.mul (.num 11762 4) (.log10 (.fmax (.rd (.var .Fcent)) (.num 1 300))))) (.mul (.num 14 2) (.log10 (.fmax (.rd (.var .Pr)) (.num 1 300))))),
  .set (.var .lnFAB) (.div (.mul (.mul (.num 2 0) (.log (.fmax (.rd (.var .Fcent)) (.num 1 300)))) (.rd (.var .A))) (.mul (.mul (.mul (.mul (.rd (.var .B)) (.rd (.var .B))) (.rd (.var .B))) (.add (.num 1 0) (.div (.mul (.rd (.var .A)) (.rd (.var .A))) (.mul (.rd (.var .B)) (.rd (.var .B)))))) (.add (.num 1 0) (.div (.mul (.rd (.var .A)) (.rd (.var .A))) (.mul (.rd (.var .B)) (.rd (.var .B))))))),
  .set (.var .jTemp) (.mul (.add (.mul (.mul (.rd (.arr .presMod 12)) (.sub (.add (.div (.sub (.add (.neg (.num 87 1)) (.div (.num 28180295632113107 13) (.rd (.var .T)))) (.num 1 0)) (.mul (.rd (.var .T)) (.add (.num 1 0) (.rd (.var .Pr))))) (.mul (.sub (.div (.num 1 0) (.mul (.rd (.var .Fcent)) (.add (.num 1 0) (.div (.mul (.rd (.var .A)) (.rd (.var .A))) (.mul (.rd (.var .B)) (.rd (.var .B))))))) (.div (.mul (.rd (.var .lnFAB)) (.add (.mul (.neg (.num 2909773028751787 16)) (.rd (.var .B))) (.mul (.num 51081716961460466 17) (.rd (.var .A))))) (.rd (.var .Fcent)))) (.add (.sub (.mul (.neg (.num 30960264900662254 19)) (.exp (.div (.rd (.var .T)) (.neg (.num 151 0))))) (.mul (.num 51300578034682077 20) (.exp (.div (.rd (.var .T)) (.neg (.num 1038 0)))))) (.mul (.div (.num 4970 0) (.mul (.rd (.var .T)) (.rd (.var .T)))) (.exp (.div (.neg (.num 4970 0)) (.rd (.var .T)))))))) (.div (.mul (.mul (.rd (.var .lnFAB)) (.add (.mul (.num 43429448190325176 17) (.rd (.var .B))) (.mul (.num 60801227466455256 18) (.rd (.var .A))))) (.sub (.add (.neg (.num 86999999999999993 16)) (.div (.num 28180295632113107 13) (.rd (.var .T)))) (.num 1 0))) (.rd (.var .T))))) (.sub (.rd (.arr .fwd 74)) (.rd (.arr .rev 74)))) (.mul (.div (.rd (.arr .presMod 12)) (.rd (.var .T))) (.sub (.add (.mul (.sub (.rd (.arr .fwd 74)) (.rd (.arr .rev 74))) (.add (.neg (.num 96999999999999997 17)) (.div (.num 31199613021268084 14) (.rd (.var .T))))) (.mul (.rd (.arr .fwd 74)) (.neg (.num 1 0)))) (.mul (.rd (.arr .rev 74)) (.mul (.neg (.rd (.var .T))) (.sub (.rd (.arr .dBdT 18)) (.mul (.num 2 0) (.rd (.arr .dBdT 9))))))))) (.rd (.var .rhoInv))),
  .set (.arr .jac 10) (.add (.rd (.arr .jac 10)) (.mul (.mul (.rd (.var .jTemp)) (.neg (.num 2 0))) (.num 1503482 5))),
  .set (.arr .jac 19) (.add (.rd (.arr .jac 19)) (.mul (.rd (.var .jTemp)) (.num 3006964 5)))]

/-- utilities/mechanisms/drm19/lib/src/jacobs/jacob_1.c:3129-3182 -/
def jacobS74 : List CStmt := [
  .ite (.rd (.var .T)) (.num 1000 0) (.var .Kc) (.sub (.add (.add (.num 25134503800000001 16) (.mul (.neg (.num 20557558800000004 16)) (.rd (.var .logT)))) (.mul (.rd (.var .T)) (.add (.neg (.num 47617231000000003 19)) (.mul (.rd (.var .T)) (.add (.num 80805652800000013 22) (.mul (.rd (.var .T)) (.add (.neg (.num 47586900000000002 25)) (.mul (.num 10890431210000001 28) (.rd (.var .T)))))))))) (.div (.neg (.num 44412203099999999 12)) (.rd (.var .T)))) (.sub (.add (.add (.num 16550210599999993 16) (.mul (.neg (.num 24995539400000002 16)) (.rd (.var .logT)))) (.mul (.rd (.var .T)) (.add (.num 36027334800000001 19) (.mul (.rd (.var .T)) (.add (.neg (.num 67521995666666668 23)) (.mul (.rd (.var .T)) (.add (.num 85229226833333329 27) (.mul (.neg (.num 48286005599999995 31)) (.rd (.var .T)))))))))) (.div (.neg (.num 44977561799999996 12)) (.rd (.var .T)))),
  .set (.var .Kc) (.mul (.num 82057360967184814 18) (.exp (.rd (.var .Kc)))),
  .set (.var .presModTemp) (.mul (.sub (.div (.num 1 0) (.add (.num 1 0) (.rd (.var .Pr)))) (.div (.mul (.mul (.mul (.log (.fmax (.rd (.var .Fcent)) (.num 1 300))) (.num 2 0)) (.rd (.var .A))) (.add (.mul (.rd (.var .B)) (.num 4342944819032518 16)) (.mul (.rd (.var .A)) (.num 6080122746645526 17)))) (.mul (.mul (.mul (.mul (.rd (.var .B)) (.rd (.var .B))) (.rd (.var .B))) (.add (.num 1 0) (.div (.mul (.rd (.var .A)) (.rd (.var .A))) (.mul (.rd (.var .B)) (.rd (.var .B)))))) (.add (.num 1 0) (.div (.mul (.rd (.var .A)) (.rd (.var .A))) (.mul (.rd (.var .B)) (.rd (.var .B)))))))) (.sub (.rd (.arr .fwd 74)) (.rd (.arr .rev 74)))),
  .set (.var .jTemp) (.mul (.mul (.mul (.neg (.rd (.var .mwAvg))) (.rd (.var .rhoInv))) (.rd (.arr .presMod 12))) (.add (.sub (.mul (.num 2 0) (.rd (.arr .fwd 74))) (.rd (.arr .rev 74))) (.rd (.var .presModTemp)))),
  .set (.var .presModTemp) (.mul (.rd (.var .presModTemp)) (.div (.mul (.exp (.sub (.sub (.num 71199701340717226 15) (.mul (.num 87 1) (.rd (.var .logT)))) (.div (.num 28180295632113107 13) (.rd (.var .T))))) (.pow (.rd (.var .Fcent)) (.div (.num 1 0) (.add (.num 1 0) (.div (.mul (.rd (.var .A)) (.rd (.var .A))) (.mul (.rd (.var .B)) (.rd (.var .B)))))))) (.add (.num 1 0) (.rd (.var .Pr))))),
  .set (.var .kf) (.exp (.sub (.sub (.num 30685022297606515 15) (.mul (.num 97 2) (.rd (.var .logT)))) (.div (.num 31199613021268084 14) (.rd (.var .T))))),
  .set (.var .kr) (.div (.rd (.var .kf)) (.rd (.var .Kc))),
  .set (.arr .jac 31) (.add (.rd (.arr .jac 31)) (.mul (.neg (.num 14916383911740777 15)) (.add (.mul (.rd (.var .jTemp)) (.num 92803892982949643 17)) (.mul (.num 19280389298294964 16) (.rd (.var .presModTemp)))))),
  .set (.arr .jac 40) (.add (.rd (.arr .jac 40)) (.mul (.num 14916383911740777 15) (.add (.mul (.rd (.var .jTemp)) (.num 92803892982949643 17)) (.mul (.num 19280389298294964 16) (.rd (.var .presModTemp)))))),
  .set (.arr .jac 52) (.add (.rd (.arr .jac 52)) (.mul (.neg (.num 29832767823481554 15)) (.add (.mul (.rd (.var .jTemp)) (.num 96401946491474821 17)) (.mul (.num 96401946491474821 17) (.rd (.var .presModTemp)))))),
  .set (.arr .jac 61) (.add (.rd (.arr .jac 61)) (.mul (.num 29832767823481554 15) (.add (.mul (.rd (.var .jTemp)) (.num 96401946491474821 17)) (.mul (.num 96401946491474821 17) (.rd (.var .presModTemp)))))),
  .set (.arr .jac 73) (.add (.rd (.arr .jac 73)) (.mul (.neg (.num 18794229783616885 16)) (.add (.mul (.rd (.var .jTemp)) (.num 42886781649405936 17)) (.mul (.num 42886781649405936 17) (.rd (.var .presModTemp)))))),
  .set (.arr .jac 82) (.add (.rd (.arr .jac 82)) (.mul (.num 18794229783616885 16) (.add (.mul (.rd (.var .jTemp)) (.num 42886781649405936 17)) (.mul (.num 42886781649405936 17) (.rd (.var .presModTemp)))))),
  .set (.arr .jac 94) (.add (.rd (.arr .jac 94)) (.mul (.neg (.num 93971148918084424 17)) (.add (.mul (.rd (.var .jTemp)) (.neg (.num 14226436701188128 17))) (.mul (.neg (.num 14226436701188128 17)) (.rd (.var .presModTemp)))))),
  .set (.arr .jac 103) (.add (.rd (.arr .jac 103)) (.mul (.num 93971148918084424 17) (.add (.mul (.rd (.var .jTemp)) (.neg (.num 14226436701188128 17))) (.mul (.neg (.num 14226436701188128 17)) (.rd (.var .presModTemp)))))),
  .set (.arr .jac 115) (.add (.rd (.arr .jac 115)) (.mul (.neg (.num 17680389761126667 16)) (.add (.mul (.rd (.var .jTemp)) (.num 39288728140880758 17)) (.mul (.num 39288728140880758 17) (.rd (.var .presModTemp)))))),
  .set (.arr .jac 124) (.add (.rd (.arr .jac 124)) (.mul (.num 17680389761126667 16) (.add (.mul (.rd (.var .jTemp)) (.num 39288728140880758 17)) (.mul (.num 39288728140880758 17) (.rd (.var .presModTemp)))))),
  .set (.arr .jac 136) (.add (.rd (.arr .jac 136)) (.mul (.neg (.num 16691186592714629 16)) (.add (.mul (.rd (.var .jTemp)) (.num 35690674632355568 17)) (.mul (.num 53569067463235553 16) (.rd (.var .presModTemp)))))),
  .set (.arr .jac 145) (.add (.rd (.arr .jac 145)) (.mul (.num 16691186592714629 16) (.add (.mul (.rd (.var .jTemp)) (.num 35690674632355568 17)) (.mul (.num 53569067463235553 16) (.rd (.var .presModTemp)))))),
  .set (.arr .jac 157) (.add (.rd (.arr .jac 157)) (.mul (.neg (.num 91101514417964324 17)) (.add (.mul (.rd (.var .jTemp)) (.neg (.num 17824490209713328 17))) (.mul (.neg (.num 17824490209713328 17)) (.rd (.var .presModTemp)))))),
  .set (.arr .jac 166) (.add (.rd (.arr .jac 166)) (.mul (.num 91101514417964324 17) (.add (.mul (.rd (.var .jTemp)) (.neg (.num 17824490209713328 17))) (.mul (.neg (.num 17824490209713328 17)) (.rd (.var .presModTemp)))))),
  .set (.arr .jac 178) (.add (.rd (.arr .jac 178)) (.mul (.neg (.num 21437154948213717 16)) (.add (.mul (.rd (.var .jTemp)) (.num 49928106040377707 17)) (.mul (.num 49928106040377707 17) (.rd (.var .presModTemp)))))),
  .set (.arr .jac 187) (.add (.rd (.arr .jac 187)) (.mul (.num 21437154948213717 16) (.add (.mul (.rd (.var .jTemp)) (.num 49928106040377707 17)) (.mul (.num 49928106040377707 17) (.rd (.var .presModTemp)))))),
  .set (.arr .jac 199) (.add (.rd (.arr .jac 199)) (.mul (.neg (.num 21437154948213717 16)) (.add (.mul (.rd (.var .jTemp)) (.num 49928106040377707 17)) (.mul (.num 49928106040377707 17) (.rd (.var .presModTemp)))))),
  .set (.arr .jac 208) (.add (.rd (.arr .jac 208)) (.mul (.num 21437154948213717 16) (.add (.mul (.rd (.var .jTemp)) (.num 49928106040377707 17)) (.mul (.num 49928106040377707 17) (.rd (.var .presModTemp)))))),
  .set (.arr .jac 220) (.add (.rd (.arr .jac 220)) (.mul (.neg (.num 2 0)) (.add (.add (.mul (.rd (.var .jTemp)) (.num 46330052531852528 17)) (.mul (.num 46330052531852528 17) (.rd (.var .presModTemp)))) (.mul (.rd (.arr .presMod 12)) (.mul (.mul (.rd (.var .kf)) (.num 2 0)) (.rd (.arr .C 9))))))),
  .set (.arr .jac 229) (.add (.rd (.arr .jac 229)) (.mul (.num 2 0) (.add (.add (.mul (.rd (.var .jTemp)) (.num 46330052531852528 17)) (.mul (.num 46330052531852528 17) (.rd (.var .presModTemp)))) (.mul (.rd (.arr .presMod 12)) (.mul (.mul (.rd (.var .kf)) (.num 2 0)) (.rd (.arr .C 9))))))),
  .set (.arr .jac 241) (.add (.rd (.arr .jac 241)) (.mul (.neg (.num 18743433174840238 16)) (.add (.mul (.rd (.var .jTemp)) (.num 42731999023327338 17)) (.mul (.num 14273199902332734 16) (.rd (.var .presModTemp)))))),
  .set (.arr .jac 250) (.add (.rd (.arr .jac 250)) (.mul (.num 18743433174840238 16) (.add (.mul (.rd (.var .jTemp)) (.num 42731999023327338 17)) (.mul (.num 14273199902332734 16) (.rd (.var .presModTemp)))))),
  .set (.arr .jac 262) (.add (.rd (.arr .jac 262)) (.mul (.neg (.num 10735169794076487 16)) (.add (.mul (.rd (.var .jTemp)) (.num 10994706834011048 20)) (.mul (.num 50010994706834011 17) (.rd (.var .presModTemp)))))),
  .set (.arr .jac 271) (.add (.rd (.arr .jac 271)) (.mul (.num 10735169794076487 16) (.add (.mul (.rd (.var .jTemp)) (.num 10994706834011048 20)) (.mul (.num 50010994706834011 17) (.rd (.var .presModTemp)))))),
  .set (.arr .jac 283) (.add (.rd (.arr .jac 283)) (.mul (.neg (.num 68324873096446703 17)) (.add (.mul (.rd (.var .jTemp)) (.neg (.num 57102223643760053 17))) (.mul (.num 42897776356239947 17) (.rd (.var .presModTemp)))))),
  .set (.arr .jac 292) (.add (.rd (.arr .jac 292)) (.mul (.num 68324873096446703 17) (.add (.mul (.rd (.var .jTemp)) (.neg (.num 57102223643760053 17))) (.mul (.num 42897776356239947 17) (.rd (.var .presModTemp)))))),
  .set (.arr .jac 304) (.add (.rd (.arr .jac 304)) (.mul (.neg (.num 10362288125371748 16)) (.add (.mul (.rd (.var .jTemp)) (.neg (.num 35870588016911675 18))) (.mul (.neg (.num 35870588016911675 18)) (.rd (.var .presModTemp)))))),
  .set (.arr .jac 313) (.add (.rd (.arr .jac 313)) (.mul (.num 10362288125371748 16) (.add (.mul (.rd (.var .jTemp)) (.neg (.num 35870588016911675 18))) (.mul (.neg (.num 35870588016911675 18)) (.rd (.var .presModTemp)))))),
  .set (.arr .jac 325) (.add (.rd (.arr .jac 325)) (.mul (.neg (.num 10014440683294767 16)) (.add (.mul (.rd (.var .jTemp)) (.neg (.num 71851123102163683 18))) (.mul (.neg (.num 71851123102163683 18)) (.rd (.var .presModTemp)))))),
  .set (.arr .jac 334) (.add (.rd (.arr .jac 334)) (.mul (.num 10014440683294767 16) (.add (.mul (.rd (.var .jTemp)) (.neg (.num 71851123102163683 18))) (.mul (.neg (.num 71851123102163683 18)) (.rd (.var .presModTemp)))))),
  .set (.arr .jac 346) (.add (.rd (.arr .jac 346)) (.mul (.neg (.num 96891882573494681 17)) (.add (.mul (.rd (.var .jTemp)) (.neg (.num 10783165818741525 17))) (.mul (.neg (.num 10783165818741525 17)) (.rd (.var .presModTemp)))))),
  .set (.arr .jac 355) (.add (.rd (.arr .jac 355)) (.mul (.num 96891882573494681 17) (.add (.mul (.rd (.var .jTemp)) (.neg (.num 10783165818741525 17))) (.mul (.neg (.num 10783165818741525 17)) (.rd (.var .presModTemp)))))),
  .set (.arr .jac 367) (.add (.rd (.arr .jac 367)) (.mul (.neg (.num 10718577474106858 16)) (.add (.mul (.rd (.var .jTemp)) (.neg (.num 14378791924458678 19))) (.mul (.neg (.num 14378791924458678 19)) (.rd (.var .presModTemp)))))),
  .set (.arr .jac 376) (.add (.rd (.arr .jac 376)) (.mul (.num 10718577474106858 16) (.add (.mul (.rd (.var .jTemp)) (.neg (.num 14378791924458678 19))) (.mul (.neg (.num 14378791924458678 19)) (.rd (.var .presModTemp)))))),
  .set (.arr .jac 388) (.add (.rd (.arr .jac 388)) (.mul (.neg (.num 10346827611598772 16)) (.add (.mul (.rd (.var .jTemp)) (.neg (.num 37418414277697654 18))) (.mul (.neg (.num 37418414277697654 18)) (.rd (.var .presModTemp)))))),
  .set (.arr .jac 397) (.add (.rd (.arr .jac 397)) (.mul (.num 10346827611598772 16) (.add (.mul (.rd (.var .jTemp)) (.neg (.num 37418414277697654 18))) (.mul (.neg (.num 37418414277697654 18)) (.rd (.var .presModTemp)))))),
  .set (.arr .jac 409) (.add (.rd (.arr .jac 409)) (.neg (.add (.add (.mul (.rd (.var .jTemp)) (.neg (.num 73398949362949439 18))) (.mul (.num 19266010506370506 16) (.rd (.var .presModTemp)))) (.mul (.rd (.arr .presMod 12)) (.neg (.rd (.var .kr))))))),
  .set (.arr .jac 418) (.add (.rd (.arr .jac 418)) (.add (.add (.mul (.rd (.var .jTemp)) (.neg (.num 73398949362949439 18))) (.mul (.num 19266010506370506 16) (.rd (.var .presModTemp)))) (.mul (.rd (.arr .presMod 12)) (.neg (.rd (.var .kr)))))),
  .set (.arr .jac 430) (.add (.rd (.arr .jac 430)) (.mul (.neg (.num 75271953539601477 17)) (.add (.mul (.rd (.var .jTemp)) (.neg (.num 42602775520927771 17))) (.mul (.neg (.num 72602775520927776 17)) (.rd (.var .presModTemp)))))),
  .set (.arr .jac 439) (.add (.rd (.arr .jac 439)) (.mul (.num 75271953539601477 17) (.add (.mul (.rd (.var .jTemp)) (.neg (.num 42602775520927771 17))) (.mul (.neg (.num 72602775520927776 17)) (.rd (.var .presModTemp))))))]

/-- utilities/mechanisms/drm19/lib/src/jacobs/jacob_1.c:3183-3188 -/
def jacobT75 : List CStmt := [
  .set (.var .jTemp) (.mul (.mul (.div (.num 1 0) (.rd (.var .T))) (.sub (.add (.mul (.sub (.rd (.arr .fwd 75)) (.rd (.arr .rev 75))) (.add (.num 10000000000000001 17) (.div (.num 53341273875071238 13) (.rd (.var .T))))) (.mul (.rd (.arr .fwd 75)) (.neg (.num 1 0)))) (.mul (.rd (.arr .rev 75)) (.add (.neg (.num 1 0)) (.mul (.neg (.rd (.var .T))) (.sub (.add (.rd (.arr .dBdT 1)) (.rd (.arr .dBdT 17))) (.mul (.num 2 0) (.rd (.arr .dBdT 9))))))))) (.rd (.var .rhoInv))),
  .set (.arr .jac 10) (.add (.rd (.arr .jac 10)) (.mul (.mul (.rd (.var .jTemp)) (.neg (.num 2 0))) (.num 1503482 5))),
  .set (.arr .jac 18) (.add (.rd (.arr .jac 18)) (.mul (.rd (.var .jTemp)) (.num 29061699999999998 15))),
  .set (.arr .jac 2) (.add (.rd (.arr .jac 2)) (.mul (.rd (.var .jTemp)) (.num 10079400000000001 16)))]

/-- utilities/mechanisms/drm19/lib/src/jacobs/jacob_1.c:3189-3260 -/
def jacobS75 : List CStmt := [
  .ite (.rd (.var .T)) (.num 1000 0) (.var .Kc) (.sub (.add (.add (.num 15921128470000006 16) (.mul (.neg (.num 54071512000000066 17)) (.rd (.var .logT)))) (.mul (.rd (.var .T)) (.add (.neg (.num 4104246209647334 18)) (.mul (.rd (.var .T)) (.add (.num 63756405963340138 22) (.mul (.rd (.var .T)) (.add (.neg (.num 38475260081415982 25)) (.mul (.num 89815928595361349 29) (.rd (.var .T)))))))))) (.div (.num 54252887999999948 13) (.rd (.var .T)))) (.sub (.add (.add (.neg (.num 38276131840000014 16)) (.mul (.neg (.num 11677901000000013 17)) (.rd (.var .logT)))) (.mul (.rd (.var .T)) (.add (.num 14587357184578519 19) (.mul (.rd (.var .T)) (.add (.neg (.num 33462995064063421 23)) (.mul (.rd (.var .T)) (.add (.num 467339664387373 25) (.mul (.neg (.num 28105348350901316 31)) (.rd (.var .T)))))))))) (.div (.num 47800113000000019 13) (.rd (.var .T)))),
  .set (.var .Kc) (.exp (.rd (.var .Kc))),
  .set (.var .jTemp) (.mul (.mul (.neg (.rd (.var .mwAvg))) (.rd (.var .rhoInv))) (.sub (.mul (.num 2 0) (.rd (.arr .fwd 75))) (.mul (.num 2 0) (.rd (.arr .rev 75))))),
  .set (.var .kf) (.exp (.sub (.add (.num 22330701746709838 15) (.mul (.num 1 1) (.rd (.var .logT)))) (.div (.num 53341273875071238 13) (.rd (.var .T))))),
  .set (.var .kr) (.div (.rd (.var .kf)) (.rd (.var .Kc))),
  .set (.arr .jac 31) (.add (.rd (.arr .jac 31)) (.mul (.neg (.num 14916383911740777 15)) (.mul (.rd (.var .jTemp)) (.num 92803892982949643 17)))),
  .set (.arr .jac 39) (.add (.rd (.arr .jac 39)) (.mul (.num 14416383911740777 15) (.mul (.rd (.var .jTemp)) (.num 92803892982949643 17)))),
  .set (.arr .jac 23) (.add (.rd (.arr .jac 23)) (.mul (.num 5 1) (.mul (.rd (.var .jTemp)) (.num 92803892982949643 17)))),
  .set (.arr .jac 52) (.add (.rd (.arr .jac 52)) (.mul (.neg (.num 29832767823481554 15)) (.sub (.mul (.rd (.var .jTemp)) (.num 96401946491474821 17)) (.mul (.rd (.var .kr)) (.rd (.arr .C 17)))))),
  .set (.arr .jac 60) (.add (.rd (.arr .jac 60)) (.mul (.num 28832767823481554 15) (.sub (.mul (.rd (.var .jTemp)) (.num 96401946491474821 17)) (.mul (.rd (.var .kr)) (.rd (.arr .C 17)))))),
  .set (.arr .jac 44) (.add (.rd (.arr .jac 44)) (.sub (.mul (.rd (.var .jTemp)) (.num 96401946491474821 17)) (.mul (.rd (.var .kr)) (.rd (.arr .C 17))))),
  .set (.arr .jac 73) (.add (.rd (.arr .jac 73)) (.mul (.neg (.num 18794229783616885 16)) (.mul (.rd (.var .jTemp)) (.num 42886781649405936 17)))),
  .set (.arr .jac 81) (.add (.rd (.arr .jac 81)) (.mul (.num 18164243659137218 16) (.mul (.rd (.var .jTemp)) (.num 42886781649405936 17)))),
  .set (.arr .jac 65) (.add (.rd (.arr .jac 65)) (.mul (.num 62998612447966798 18) (.mul (.rd (.var .jTemp)) (.num 42886781649405936 17)))),
  .set (.arr .jac 94) (.add (.rd (.arr .jac 94)) (.mul (.neg (.num 93971148918084424 17)) (.mul (.rd (.var .jTemp)) (.neg (.num 14226436701188128 17))))),
  .set (.arr .jac 102) (.add (.rd (.arr .jac 102)) (.mul (.num 9082121829568609 16) (.mul (.rd (.var .jTemp)) (.neg (.num 14226436701188128 17))))),
  .set (.arr .jac 86) (.add (.rd (.arr .jac 86)) (.mul (.num 31499306223983399 18) (.mul (.rd (.var .jTemp)) (.neg (.num 14226436701188128 17))))),
  .set (.arr .jac 115) (.add (.rd (.arr .jac 115)) (.mul (.neg (.num 17680389761126667 16)) (.mul (.rd (.var .jTemp)) (.num 39288728140880758 17)))),
  .set (.arr .jac 123) (.add (.rd (.arr .jac 123)) (.mul (.num 17087739764125371 16) (.mul (.rd (.var .jTemp)) (.num 39288728140880758 17)))),
  .set (.arr .jac 107) (.add (.rd (.arr .jac 107)) (.mul (.num 59264999700129481 18) (.mul (.rd (.var .jTemp)) (.num 39288728140880758 17)))),
  .set (.arr .jac 136) (.add (.rd (.arr .jac 136)) (.mul (.neg (.num 16691186592714629 16)) (.mul (.rd (.var .jTemp)) (.num 35690674632355568 17)))),
  .set (.arr .jac 144) (.add (.rd (.arr .jac 144)) (.mul (.num 16131694872352802 16) (.mul (.rd (.var .jTemp)) (.num 35690674632355568 17)))),
  .set (.arr .jac 128) (.add (.rd (.arr .jac 128)) (.mul (.num 55949172036182618 18) (.mul (.rd (.var .jTemp)) (.num 35690674632355568 17)))),
  .set (.arr .jac 157) (.add (.rd (.arr .jac 157)) (.mul (.neg (.num 91101514417964324 17)) (.mul (.rd (.var .jTemp)) (.neg (.num 17824490209713328 17))))),
  .set (.arr .jac 165) (.add (.rd (.arr .jac 165)) (.mul (.num 8804777448484763 16) (.mul (.rd (.var .jTemp)) (.neg (.num 17824490209713328 17))))),
  .set (.arr .jac 149) (.add (.rd (.arr .jac 149)) (.mul (.num 3053739933116691 17) (.mul (.rd (.var .jTemp)) (.neg (.num 17824490209713328 17))))),
  .set (.arr .jac 178) (.add (.rd (.arr .jac 178)) (.mul (.neg (.num 21437154948213717 16)) (.mul (.rd (.var .jTemp)) (.num 49928106040377707 17)))),
  .set (.arr .jac 186) (.add (.rd (.arr .jac 186)) (.mul (.num 20718577474106858 16) (.mul (.rd (.var .jTemp)) (.num 49928106040377707 17)))),
  .set (.arr .jac 170) (.add (.rd (.arr .jac 170)) (.mul (.num 71857747410685777 18) (.mul (.rd (.var .jTemp)) (.num 49928106040377707 17)))),
  .set (.arr .jac 199) (.add (.rd (.arr .jac 199)) (.mul (.neg (.num 21437154948213717 16)) (.mul (.rd (.var .jTemp)) (.num 49928106040377707 17)))),
  .set (.arr .jac 207) (.add (.rd (.arr .jac 207)) (.mul (.num 20718577474106858 16) (.mul (.rd (.var .jTemp)) (.num 49928106040377707 17)))),
  .set (.arr .jac 191) (.add (.rd (.arr .jac 191)) (.mul (.num 71857747410685777 18) (.mul (.rd (.var .jTemp)) (.num 49928106040377707 17)))),
  .set (.arr .jac 220) (.add (.rd (.arr .jac 220)) (.mul (.neg (.num 2 0)) (.add (.mul (.rd (.var .jTemp)) (.num 46330052531852528 17)) (.mul (.mul (.rd (.var .kf)) (.num 2 0)) (.rd (.arr .C 9)))))),
  .set (.arr .jac 228) (.add (.rd (.arr .jac 228)) (.mul (.num 19329596230616661 16) (.add (.mul (.rd (.var .jTemp)) (.num 46330052531852528 17)) (.mul (.mul (.rd (.var .kf)) (.num 2 0)) (.rd (.arr .C 9)))))),
  .set (.arr .jac 212) (.add (.rd (.arr .jac 212)) (.mul (.num 67040376938333812 18) (.add (.mul (.rd (.var .jTemp)) (.num 46330052531852528 17)) (.mul (.mul (.rd (.var .kf)) (.num 2 0)) (.rd (.arr .C 9)))))),
  .set (.arr .jac 241) (.add (.rd (.arr .jac 241)) (.mul (.neg (.num 18743433174840238 16)) (.mul (.rd (.var .jTemp)) (.num 42731999023327338 17)))),
  .set (.arr .jac 249) (.add (.rd (.arr .jac 249)) (.mul (.num 18115149762260356 16) (.mul (.rd (.var .jTemp)) (.num 42731999023327338 17)))),
  .set (.arr .jac 233) (.add (.rd (.arr .jac 233)) (.mul (.num 6282834125798803 17) (.mul (.rd (.var .jTemp)) (.num 42731999023327338 17)))),
  .set (.arr .jac 262) (.add (.rd (.arr .jac 262)) (.mul (.neg (.num 10735169794076487 16)) (.mul (.rd (.var .jTemp)) (.num 10994706834011048 20)))),
  .set (.arr .jac 270) (.add (.rd (.arr .jac 270)) (.mul (.num 10375324879330534 16) (.mul (.rd (.var .jTemp)) (.num 10994706834011048 20)))),
  .set (.arr .jac 254) (.add (.rd (.arr .jac 254)) (.mul (.num 35984491474595155 18) (.mul (.rd (.var .jTemp)) (.num 10994706834011048 20)))),
  .set (.arr .jac 283) (.add (.rd (.arr .jac 283)) (.mul (.neg (.num 68324873096446703 17)) (.mul (.rd (.var .jTemp)) (.neg (.num 57102223643760053 17))))),
  .set (.arr .jac 291) (.add (.rd (.arr .jac 291)) (.mul (.num 66034610473121891 17) (.mul (.rd (.var .jTemp)) (.neg (.num 57102223643760053 17))))),
  .set (.arr .jac 275) (.add (.rd (.arr .jac 275)) (.mul (.num 22902626233248052 18) (.mul (.rd (.var .jTemp)) (.neg (.num 57102223643760053 17))))),
  .set (.arr .jac 304) (.add (.rd (.arr .jac 304)) (.mul (.neg (.num 10362288125371748 16)) (.mul (.rd (.var .jTemp)) (.neg (.num 35870588016911675 18))))),
  .set (.arr .jac 312) (.add (.rd (.arr .jac 312)) (.mul (.num 10014942274437477 16) (.mul (.rd (.var .jTemp)) (.neg (.num 35870588016911675 18))))),
  .set (.arr .jac 296) (.add (.rd (.arr .jac 296)) (.mul (.num 34734585093427126 18) (.mul (.rd (.var .jTemp)) (.neg (.num 35870588016911675 18))))),
  .set (.arr .jac 325) (.add (.rd (.arr .jac 325)) (.mul (.neg (.num 10014440683294767 16)) (.mul (.rd (.var .jTemp)) (.neg (.num 71851123102163683 18))))),
  .set (.arr .jac 333) (.add (.rd (.arr .jac 333)) (.mul (.num 96787547441774335 17) (.mul (.rd (.var .jTemp)) (.neg (.num 71851123102163683 18))))),
  .set (.arr .jac 317) (.add (.rd (.arr .jac 317)) (.mul (.num 33568593911733322 18) (.mul (.rd (.var .jTemp)) (.neg (.num 71851123102163683 18))))),
  .set (.arr .jac 346) (.add (.rd (.arr .jac 346)) (.mul (.neg (.num 96891882573494681 17)) (.mul (.rd (.var .jTemp)) (.neg (.num 10783165818741525 17))))),
  .set (.arr .jac 354) (.add (.rd (.arr .jac 354)) (.mul (.num 93644048408498748 17) (.mul (.rd (.var .jTemp)) (.neg (.num 10783165818741525 17))))),
  .set (.arr .jac 338) (.add (.rd (.arr .jac 338)) (.mul (.num 32478341649959309 18) (.mul (.rd (.var .jTemp)) (.neg (.num 10783165818741525 17))))),
  .set (.arr .jac 367) (.add (.rd (.arr .jac 367)) (.mul (.neg (.num 10718577474106858 16)) (.mul (.rd (.var .jTemp)) (.neg (.num 14378791924458678 19))))),
  .set (.arr .jac 375) (.add (.rd (.arr .jac 375)) (.mul (.num 10359288737053429 16) (.mul (.rd (.var .jTemp)) (.neg (.num 14378791924458678 19))))),
  .set (.arr .jac 359) (.add (.rd (.arr .jac 359)) (.mul (.num 35928873705342888 18) (.mul (.rd (.var .jTemp)) (.neg (.num 14378791924458678 19))))),
  .set (.arr .jac 388) (.add (.rd (.arr .jac 388)) (.mul (.neg (.num 10346827611598772 16)) (.sub (.mul (.rd (.var .jTemp)) (.neg (.num 37418414277697654 18))) (.mul (.rd (.var .kr)) (.rd (.arr .C 1)))))),
  .set (.arr .jac 396) (.add (.rd (.arr .jac 396)) (.sub (.mul (.rd (.var .jTemp)) (.neg (.num 37418414277697654 18))) (.mul (.rd (.var .kr)) (.rd (.arr .C 1))))),
  .set (.arr .jac 380) (.add (.rd (.arr .jac 380)) (.mul (.num 3468276115987709 17) (.sub (.mul (.rd (.var .jTemp)) (.neg (.num 37418414277697654 18))) (.mul (.rd (.var .kr)) (.rd (.arr .C 1)))))),
  .set (.arr .jac 409) (.add (.rd (.arr .jac 409)) (.neg (.mul (.rd (.var .jTemp)) (.neg (.num 73398949362949439 18))))),
  .set (.arr .jac 417) (.add (.rd (.arr .jac 417)) (.mul (.num 96647981153083307 17) (.mul (.rd (.var .jTemp)) (.neg (.num 73398949362949439 18))))),
  .set (.arr .jac 401) (.add (.rd (.arr .jac 401)) (.mul (.num 33520188469166906 18) (.mul (.rd (.var .jTemp)) (.neg (.num 73398949362949439 18))))),
  .set (.arr .jac 430) (.add (.rd (.arr .jac 430)) (.mul (.neg (.num 75271953539601477 17)) (.mul (.rd (.var .jTemp)) (.neg (.num 42602775520927771 17))))),
  .set (.arr .jac 438) (.add (.rd (.arr .jac 438)) (.mul (.num 72748823470511659 17) (.mul (.rd (.var .jTemp)) (.neg (.num 42602775520927771 17))))),
  .set (.arr .jac 422) (.add (.rd (.arr .jac 422)) (.mul (.num 2523130069089817 17) (.mul (.rd (.var .jTemp)) (.neg (.num 42602775520927771 17)))))]

/-- utilities/mechanisms/drm19/lib/src/jacobs/jacob_1.c:3261-3267 -/
def jacobT76 : List CStmt := [
  .set (.var .jTemp) (.mul (.mul (.div (.num 1 0) (.rd (.var .T))) (.sub (.mul (.rd (.arr .fwd 76)) (.neg (.num 1 0))) (.mul (.rd (.arr .rev 76)) (.add (.neg (.num 1 0)) (.mul (.neg (.rd (.var .T))) (.sub (.sub (.add (.rd (.arr .dBdT 10)) (.rd (.arr .dBdT 11))) (.rd (.arr .dBdT 9))) (.rd (.arr .dBdT 13)))))))) (.rd (.var .rhoInv))),
  .set (.arr .jac 10) (.add (.rd (.arr .jac 10)) (.mul (.neg (.rd (.var .jTemp))) (.num 1503482 5))),
  .set (.arr .jac 11) (.add (.rd (.arr .jac 11)) (.mul (.rd (.var .jTemp)) (.num 16042760000000001 15))),
  .set (.arr .jac 12) (.add (.rd (.arr .jac 12)) (.mul (.rd (.var .jTemp)) (.num 28010399999999997 15))),
  .set (.arr .jac 14) (.add (.rd (.arr .jac 14)) (.mul (.neg (.rd (.var .jTemp))) (.num 29018339999999998 15)))]

/-- utilities/mechanisms/drm19/lib/src/jacobs/jacob_1.c:3268-3359 -/
def jacobS76 : List CStmt := [
  .ite (.rd (.var .T)) (.num 1000 0) (.var .Kc) (.sub (.add (.add (.neg (.num 69664645999999983 16)) (.mul (.num 83463335999999977 17) (.rd (.var .logT)))) (.mul (.rd (.var .T)) (.add (.neg (.num 6524179455000001 18)) (.mul (.rd (.var .T)) (.add (.num 51144518450000005 22) (.mul (.rd (.var .T)) (.add (.neg (.num 22818094305000002 25)) (.mul (.num 44417125555000006 29) (.rd (.var .T)))))))))) (.div (.neg (.num 44875297360000004 12)) (.rd (.var .T)))) (.sub (.add (.add (.num 10245444005000003 15) (.mul (.neg (.num 22678549950000004 16)) (.rd (.var .logT)))) (.mul (.rd (.var .T)) (.add (.num 16283092500000004 19) (.mul (.rd (.var .T)) (.add (.neg (.num 21001404183333331 23)) (.mul (.rd (.var .T)) (.add (.num 22344327999999988 27) (.mul (.neg (.num 11056845550000002 31)) (.rd (.var .T)))))))))) (.div (.neg (.num 44407719440000001 12)) (.rd (.var .T)))),
  .set (.var .Kc) (.exp (.rd (.var .Kc))),
  .set (.var .jTemp) (.mul (.mul (.neg (.rd (.var .mwAvg))) (.rd (.var .rhoInv))) (.sub (.mul (.num 2 0) (.rd (.arr .fwd 76))) (.mul (.num 2 0) (.rd (.arr .rev 76))))),
  .set (.var .kf) (.num 26480000000 0),
  .set (.var .kr) (.div (.rd (.var .kf)) (.rd (.var .Kc))),
  .set (.arr .jac 31) (.add (.rd (.arr .jac 31)) (.mul (.neg (.num 74581919558703884 16)) (.mul (.rd (.var .jTemp)) (.num 92803892982949643 17)))),
  .set (.arr .jac 32) (.add (.rd (.arr .jac 32)) (.mul (.num 79581919558703893 16) (.mul (.rd (.var .jTemp)) (.num 92803892982949643 17)))),
  .set (.arr .jac 33) (.add (.rd (.arr .jac 33)) (.mul (.num 13894874694922315 15) (.mul (.rd (.var .jTemp)) (.num 92803892982949643 17)))),
  .set (.arr .jac 35) (.add (.rd (.arr .jac 35)) (.mul (.neg (.num 14394874694922315 15)) (.mul (.rd (.var .jTemp)) (.num 92803892982949643 17)))),
  .set (.arr .jac 52) (.add (.rd (.arr .jac 52)) (.mul (.neg (.num 14916383911740777 15)) (.mul (.rd (.var .jTemp)) (.num 96401946491474821 17)))),
  .set (.arr .jac 53) (.add (.rd (.arr .jac 53)) (.mul (.num 15916383911740779 15) (.mul (.rd (.var .jTemp)) (.num 96401946491474821 17)))),
  .set (.arr .jac 54) (.add (.rd (.arr .jac 54)) (.mul (.num 2778974938984463 14) (.mul (.rd (.var .jTemp)) (.num 96401946491474821 17)))),
  .set (.arr .jac 56) (.add (.rd (.arr .jac 56)) (.mul (.neg (.num 2878974938984463 14)) (.mul (.rd (.var .jTemp)) (.num 96401946491474821 17)))),
  .set (.arr .jac 73) (.add (.rd (.arr .jac 73)) (.mul (.neg (.num 93971148918084424 17)) (.mul (.rd (.var .jTemp)) (.num 42886781649405936 17)))),
  .set (.arr .jac 74) (.add (.rd (.arr .jac 74)) (.mul (.num 10027101016288111 16) (.mul (.rd (.var .jTemp)) (.num 42886781649405936 17)))),
  .set (.arr .jac 75) (.add (.rd (.arr .jac 75)) (.mul (.num 17507156518369438 16) (.mul (.rd (.var .jTemp)) (.num 42886781649405936 17)))),
  .set (.arr .jac 77) (.add (.rd (.arr .jac 77)) (.mul (.neg (.num 18137142642849107 16)) (.mul (.rd (.var .jTemp)) (.num 42886781649405936 17)))),
  .set (.arr .jac 94) (.add (.rd (.arr .jac 94)) (.mul (.neg (.num 46985574459042212 17)) (.mul (.rd (.var .jTemp)) (.neg (.num 14226436701188128 17))))),
  .set (.arr .jac 95) (.add (.rd (.arr .jac 95)) (.mul (.num 50135505081440557 17) (.mul (.rd (.var .jTemp)) (.neg (.num 14226436701188128 17))))),
  .set (.arr .jac 96) (.add (.rd (.arr .jac 96)) (.mul (.num 87535782591847189 17) (.mul (.rd (.var .jTemp)) (.neg (.num 14226436701188128 17))))),
  .set (.arr .jac 98) (.add (.rd (.arr .jac 98)) (.mul (.neg (.num 90685713214245534 17)) (.mul (.rd (.var .jTemp)) (.neg (.num 14226436701188128 17))))),
  .set (.arr .jac 115) (.add (.rd (.arr .jac 115)) (.mul (.neg (.num 88401948805633335 17)) (.mul (.rd (.var .jTemp)) (.num 39288728140880758 17)))),
  .set (.arr .jac 116) (.add (.rd (.arr .jac 116)) (.mul (.num 9432844877564629 16) (.mul (.rd (.var .jTemp)) (.num 39288728140880758 17)))),
  .set (.arr .jac 117) (.add (.rd (.arr .jac 117)) (.mul (.num 16469594892558153 16) (.mul (.rd (.var .jTemp)) (.num 39288728140880758 17)))),
  .set (.arr .jac 119) (.add (.rd (.arr .jac 119)) (.mul (.neg (.num 17062244889559448 16)) (.mul (.rd (.var .jTemp)) (.num 39288728140880758 17)))),
  .set (.arr .jac 136) (.add (.rd (.arr .jac 136)) (.mul (.neg (.num 83455932963573143 17)) (.mul (.rd (.var .jTemp)) (.num 35690674632355568 17)))),
  .set (.arr .jac 137) (.add (.rd (.arr .jac 137)) (.mul (.num 89050850167191409 17) (.mul (.rd (.var .jTemp)) (.num 35690674632355568 17)))),
  .set (.arr .jac 138) (.add (.rd (.arr .jac 138)) (.mul (.num 15548134694548181 16) (.mul (.rd (.var .jTemp)) (.num 35690674632355568 17)))),
  .set (.arr .jac 140) (.add (.rd (.arr .jac 140)) (.mul (.neg (.num 16107626414910008 16)) (.mul (.rd (.var .jTemp)) (.num 35690674632355568 17)))),
  .set (.arr .jac 157) (.add (.rd (.arr .jac 157)) (.mul (.neg (.num 45550757208982162 17)) (.mul (.rd (.var .jTemp)) (.neg (.num 17824490209713328 17))))),
  .set (.arr .jac 158) (.add (.rd (.arr .jac 158)) (.mul (.num 48604497142098857 17) (.mul (.rd (.var .jTemp)) (.neg (.num 17824490209713328 17))))),
  .set (.arr .jac 159) (.add (.rd (.arr .jac 159)) (.mul (.num 84862667443073736 17) (.mul (.rd (.var .jTemp)) (.neg (.num 17824490209713328 17))))),
  .set (.arr .jac 161) (.add (.rd (.arr .jac 161)) (.mul (.neg (.num 87916407376190431 17)) (.mul (.rd (.var .jTemp)) (.neg (.num 17824490209713328 17))))),
  .set (.arr .jac 178) (.add (.rd (.arr .jac 178)) (.mul (.neg (.num 10718577474106858 16)) (.mul (.rd (.var .jTemp)) (.num 49928106040377707 17)))),
  .set (.arr .jac 179) (.add (.rd (.arr .jac 179)) (.mul (.num 11437154948213717 16) (.mul (.rd (.var .jTemp)) (.num 49928106040377707 17)))),
  .set (.arr .jac 180) (.add (.rd (.arr .jac 180)) (.mul (.num 19969087922617146 16) (.mul (.rd (.var .jTemp)) (.num 49928106040377707 17)))),
  .set (.arr .jac 182) (.add (.rd (.arr .jac 182)) (.mul (.neg (.num 20687665396724007 16)) (.mul (.rd (.var .jTemp)) (.num 49928106040377707 17)))),
  .set (.arr .jac 199) (.add (.rd (.arr .jac 199)) (.mul (.neg (.num 10718577474106858 16)) (.mul (.rd (.var .jTemp)) (.num 49928106040377707 17)))),
  .set (.arr .jac 200) (.add (.rd (.arr .jac 200)) (.mul (.num 11437154948213717 16) (.mul (.rd (.var .jTemp)) (.num 49928106040377707 17)))),
  .set (.arr .jac 201) (.add (.rd (.arr .jac 201)) (.mul (.num 19969087922617146 16) (.mul (.rd (.var .jTemp)) (.num 49928106040377707 17)))),
  .set (.arr .jac 203) (.add (.rd (.arr .jac 203)) (.mul (.neg (.num 20687665396724007 16)) (.mul (.rd (.var .jTemp)) (.num 49928106040377707 17)))),
  .set (.arr .jac 220) (.add (.rd (.arr .jac 220)) (.neg (.add (.mul (.rd (.var .jTemp)) (.num 46330052531852528 17)) (.mul (.rd (.var .kf)) (.rd (.arr .C 13)))))),
  .set (.arr .jac 221) (.add (.rd (.arr .jac 221)) (.mul (.num 10670403769383339 16) (.add (.mul (.rd (.var .jTemp)) (.num 46330052531852528 17)) (.mul (.rd (.var .kf)) (.rd (.arr .C 13)))))),
  .set (.arr .jac 222) (.add (.rd (.arr .jac 222)) (.mul (.num 18630352741170162 16) (.add (.mul (.rd (.var .jTemp)) (.num 46330052531852528 17)) (.mul (.rd (.var .kf)) (.rd (.arr .C 13)))))),
  .set (.arr .jac 224) (.add (.rd (.arr .jac 224)) (.mul (.neg (.num 19300756510553501 16)) (.add (.mul (.rd (.var .jTemp)) (.num 46330052531852528 17)) (.mul (.rd (.var .kf)) (.rd (.arr .C 13)))))),
  .set (.arr .jac 241) (.add (.rd (.arr .jac 241)) (.mul (.neg (.num 93717165874201191 17)) (.sub (.mul (.rd (.var .jTemp)) (.num 42731999023327338 17)) (.mul (.rd (.var .kr)) (.rd (.arr .C 11)))))),
  .set (.arr .jac 242) (.add (.rd (.arr .jac 242)) (.sub (.mul (.rd (.var .jTemp)) (.num 42731999023327338 17)) (.mul (.rd (.var .kr)) (.rd (.arr .C 11))))),
  .set (.arr .jac 243) (.add (.rd (.arr .jac 243)) (.mul (.num 17459838581391229 16) (.sub (.mul (.rd (.var .jTemp)) (.num 42731999023327338 17)) (.mul (.rd (.var .kr)) (.rd (.arr .C 11)))))),
  .set (.arr .jac 245) (.add (.rd (.arr .jac 245)) (.mul (.neg (.num 18088121993971109 16)) (.sub (.mul (.rd (.var .jTemp)) (.num 42731999023327338 17)) (.mul (.rd (.var .kr)) (.rd (.arr .C 11)))))),
  .set (.arr .jac 262) (.add (.rd (.arr .jac 262)) (.mul (.neg (.num 53675848970382434 17)) (.sub (.mul (.rd (.var .jTemp)) (.num 10994706834011048 20)) (.mul (.rd (.var .kr)) (.rd (.arr .C 10)))))),
  .set (.arr .jac 263) (.add (.rd (.arr .jac 263)) (.mul (.num 5727429811784196 16) (.sub (.mul (.rd (.var .jTemp)) (.num 10994706834011048 20)) (.mul (.rd (.var .kr)) (.rd (.arr .C 10)))))),
  .set (.arr .jac 264) (.add (.rd (.arr .jac 264)) (.sub (.mul (.rd (.var .jTemp)) (.num 10994706834011048 20)) (.mul (.rd (.var .kr)) (.rd (.arr .C 10))))),
  .set (.arr .jac 266) (.add (.rd (.arr .jac 266)) (.mul (.neg (.num 10359844914745953 16)) (.sub (.mul (.rd (.var .jTemp)) (.num 10994706834011048 20)) (.mul (.rd (.var .kr)) (.rd (.arr .C 10)))))),
  .set (.arr .jac 283) (.add (.rd (.arr .jac 283)) (.mul (.neg (.num 34162436548223352 17)) (.mul (.rd (.var .jTemp)) (.neg (.num 57102223643760053 17))))),
  .set (.arr .jac 284) (.add (.rd (.arr .jac 284)) (.mul (.num 36452699171548159 17) (.mul (.rd (.var .jTemp)) (.neg (.num 57102223643760053 17))))),
  .set (.arr .jac 285) (.add (.rd (.arr .jac 285)) (.mul (.num 63645824339124468 17) (.mul (.rd (.var .jTemp)) (.neg (.num 57102223643760053 17))))),
  .set (.arr .jac 287) (.add (.rd (.arr .jac 287)) (.mul (.neg (.num 6593608696244927 16)) (.mul (.rd (.var .jTemp)) (.neg (.num 57102223643760053 17))))),
  .set (.arr .jac 304) (.add (.rd (.arr .jac 304)) (.mul (.neg (.num 5181144062685874 16)) (.add (.mul (.rd (.var .jTemp)) (.neg (.num 35870588016911675 18))) (.mul (.rd (.var .kf)) (.rd (.arr .C 9)))))),
  .set (.arr .jac 305) (.add (.rd (.arr .jac 305)) (.mul (.num 5528489913620146 16) (.add (.mul (.rd (.var .jTemp)) (.neg (.num 35870588016911675 18))) (.mul (.rd (.var .kf)) (.rd (.arr .C 9)))))),
  .set (.arr .jac 306) (.add (.rd (.arr .jac 306)) (.mul (.num 96526541490657281 17) (.add (.mul (.rd (.var .jTemp)) (.neg (.num 35870588016911675 18))) (.mul (.rd (.var .kf)) (.rd (.arr .C 9)))))),
  .set (.arr .jac 308) (.add (.rd (.arr .jac 308)) (.neg (.add (.mul (.rd (.var .jTemp)) (.neg (.num 35870588016911675 18))) (.mul (.rd (.var .kf)) (.rd (.arr .C 9)))))),
  .set (.arr .jac 325) (.add (.rd (.arr .jac 325)) (.mul (.neg (.num 50072203416473837 17)) (.mul (.rd (.var .jTemp)) (.neg (.num 71851123102163683 18))))),
  .set (.arr .jac 326) (.add (.rd (.arr .jac 326)) (.mul (.num 53429062807647176 17) (.mul (.rd (.var .jTemp)) (.neg (.num 71851123102163683 18))))),
  .set (.arr .jac 327) (.add (.rd (.arr .jac 327)) (.mul (.num 93286281217653322 17) (.mul (.rd (.var .jTemp)) (.neg (.num 71851123102163683 18))))),
  .set (.arr .jac 329) (.add (.rd (.arr .jac 329)) (.mul (.neg (.num 96643140608826661 17)) (.mul (.rd (.var .jTemp)) (.neg (.num 71851123102163683 18))))),
  .set (.arr .jac 346) (.add (.rd (.arr .jac 346)) (.mul (.neg (.num 4844594128674734 16)) (.mul (.rd (.var .jTemp)) (.neg (.num 10783165818741525 17))))),
  .set (.arr .jac 347) (.add (.rd (.arr .jac 347)) (.mul (.num 51693775451743273 17) (.mul (.rd (.var .jTemp)) (.neg (.num 10783165818741525 17))))),
  .set (.arr .jac 348) (.add (.rd (.arr .jac 348)) (.mul (.num 90256497505012201 17) (.mul (.rd (.var .jTemp)) (.neg (.num 10783165818741525 17))))),
  .set (.arr .jac 350) (.add (.rd (.arr .jac 350)) (.mul (.neg (.num 93504331670008145 17)) (.mul (.rd (.var .jTemp)) (.neg (.num 10783165818741525 17))))),
  .set (.arr .jac 367) (.add (.rd (.arr .jac 367)) (.mul (.neg (.num 53592887370534292 17)) (.mul (.rd (.var .jTemp)) (.neg (.num 14378791924458678 19))))),
  .set (.arr .jac 368) (.add (.rd (.arr .jac 368)) (.mul (.num 57185774741068585 17) (.mul (.rd (.var .jTemp)) (.neg (.num 14378791924458678 19))))),
  .set (.arr .jac 369) (.add (.rd (.arr .jac 369)) (.mul (.num 99845439613085729 17) (.mul (.rd (.var .jTemp)) (.neg (.num 14378791924458678 19))))),
  .set (.arr .jac 371) (.add (.rd (.arr .jac 371)) (.mul (.neg (.num 10343832698362003 16)) (.mul (.rd (.var .jTemp)) (.neg (.num 14378791924458678 19))))),
  .set (.arr .jac 388) (.add (.rd (.arr .jac 388)) (.mul (.neg (.num 51734138057993861 17)) (.mul (.rd (.var .jTemp)) (.neg (.num 37418414277697654 18))))),
  .set (.arr .jac 389) (.add (.rd (.arr .jac 389)) (.mul (.num 55202414173981573 17) (.mul (.rd (.var .jTemp)) (.neg (.num 37418414277697654 18))))),
  .set (.arr .jac 390) (.add (.rd (.arr .jac 390)) (.mul (.num 96382524078082144 17) (.mul (.rd (.var .jTemp)) (.neg (.num 37418414277697654 18))))),
  .set (.arr .jac 392) (.add (.rd (.arr .jac 392)) (.mul (.neg (.num 99850800194069855 17)) (.mul (.rd (.var .jTemp)) (.neg (.num 37418414277697654 18))))),
  .set (.arr .jac 409) (.add (.rd (.arr .jac 409)) (.mul (.neg (.num 5 1)) (.mul (.rd (.var .jTemp)) (.neg (.num 73398949362949439 18))))),
  .set (.arr .jac 410) (.add (.rd (.arr .jac 410)) (.mul (.num 53352018846916693 17) (.mul (.rd (.var .jTemp)) (.neg (.num 73398949362949439 18))))),
  .set (.arr .jac 411) (.add (.rd (.arr .jac 411)) (.mul (.num 9315176370585081 16) (.mul (.rd (.var .jTemp)) (.neg (.num 73398949362949439 18))))),
  .set (.arr .jac 413) (.add (.rd (.arr .jac 413)) (.mul (.neg (.num 96503782552767503 17)) (.mul (.rd (.var .jTemp)) (.neg (.num 73398949362949439 18))))),
  .set (.arr .jac 430) (.add (.rd (.arr .jac 430)) (.mul (.neg (.num 37635976769800739 17)) (.mul (.rd (.var .jTemp)) (.neg (.num 42602775520927771 17))))),
  .set (.arr .jac 431) (.add (.rd (.arr .jac 431)) (.mul (.num 40159106838890563 17) (.mul (.rd (.var .jTemp)) (.neg (.num 42602775520927771 17))))),
  .set (.arr .jac 432) (.add (.rd (.arr .jac 432)) (.mul (.num 70117152297987373 17) (.mul (.rd (.var .jTemp)) (.neg (.num 42602775520927771 17))))),
  .set (.arr .jac 434) (.add (.rd (.arr .jac 434)) (.mul (.neg (.num 72640282367077191 17)) (.mul (.rd (.var .jTemp)) (.neg (.num 42602775520927771 17)))))]

/-- utilities/mechanisms/drm19/lib/src/jacobs/jacob_1.c:3360-3366 -/
def jacobT77 : List CStmt := [
  .set (.var .jTemp) (.mul (.mul (.div (.num 1 0) (.rd (.var .T))) (.sub (.add (.mul (.sub (.rd (.arr .fwd 77)) (.rd (.arr .rev 77))) (.add (.num 28100000000000001 16) (.div (.num 29488666500746931 13) (.rd (.var .T))))) (.mul (.rd (.arr .fwd 77)) (.neg (.num 1 0)))) (.mul (.rd (.arr .rev 77)) (.add (.neg (.num 1 0)) (.mul (.neg (.rd (.var .T))) (.sub (.sub (.add (.rd (.arr .dBdT 10)) (.rd (.arr .dBdT 13))) (.rd (.arr .dBdT 14))) (.rd (.arr .dBdT 9)))))))) (.rd (.var .rhoInv))),
  .set (.arr .jac 10) (.add (.rd (.arr .jac 10)) (.mul (.neg (.rd (.var .jTemp))) (.num 1503482 5))),
  .set (.arr .jac 11) (.add (.rd (.arr .jac 11)) (.mul (.rd (.var .jTemp)) (.num 16042760000000001 15))),
  .set (.arr .jac 14) (.add (.rd (.arr .jac 14)) (.mul (.rd (.var .jTemp)) (.num 29018339999999998 15))),
  .set (.arr .jac 15) (.add (.rd (.arr .jac 15)) (.mul (.neg (.rd (.var .jTemp))) (.num 3002628 5)))]

/-- utilities/mechanisms/drm19/lib/src/jacobs/jacob_1.c:3367-3458 -/
def jacobS77 : List CStmt := [
  .ite (.rd (.var .T)) (.num 1000 0) (.var .Kc) (.sub (.add (.add (.neg (.num 43580569799999989 16)) (.mul (.num 90374842000000033 17) (.rd (.var .logT)))) (.mul (.rd (.var .T)) (.add (.neg (.num 45087610900000005 19)) (.mul (.rd (.var .T)) (.add (.num 33179641900000019 22) (.mul (.rd (.var .T)) (.add (.neg (.num 14157509625000003 25)) (.mul (.num 26429808549999996 29) (.rd (.var .T)))))))))) (.div (.neg (.num 85431247400000011 13)) (.rd (.var .T)))) (.sub (.add (.add (.num 72986500549999995 16) (.mul (.neg (.num 11993819250000002 16)) (.rd (.var .logT)))) (.mul (.rd (.var .T)) (.add (.num 95400038499999975 20) (.mul (.rd (.var .T)) (.add (.neg (.num 13459710166666672 23)) (.mul (.rd (.var .T)) (.add (.num 17499196999999999 27) (.mul (.neg (.num 10032548849999998 31)) (.rd (.var .T)))))))))) (.div (.neg (.num 82361784399999979 13)) (.rd (.var .T)))),
  .set (.var .Kc) (.exp (.rd (.var .Kc))),
  .set (.var .jTemp) (.mul (.mul (.neg (.rd (.var .mwAvg))) (.rd (.var .rhoInv))) (.sub (.mul (.num 2 0) (.rd (.arr .fwd 77))) (.mul (.num 2 0) (.rd (.arr .rev 77))))),
  .set (.var .kf) (.exp (.sub (.add (.num 1199964782928397 15) (.mul (.num 281 2) (.rd (.var .logT)))) (.div (.num 29488666500746931 13) (.rd (.var .T))))),
  .set (.var .kr) (.div (.rd (.var .kf)) (.rd (.var .Kc))),
  .set (.arr .jac 31) (.add (.rd (.arr .jac 31)) (.mul (.neg (.num 74581919558703884 16)) (.mul (.rd (.var .jTemp)) (.num 92803892982949643 17)))),
  .set (.arr .jac 32) (.add (.rd (.arr .jac 32)) (.mul (.num 79581919558703893 16) (.mul (.rd (.var .jTemp)) (.num 92803892982949643 17)))),
  .set (.arr .jac 35) (.add (.rd (.arr .jac 35)) (.mul (.num 14394874694922315 15) (.mul (.rd (.var .jTemp)) (.num 92803892982949643 17)))),
  .set (.arr .jac 36) (.add (.rd (.arr .jac 36)) (.mul (.neg (.num 14894874694922317 15)) (.mul (.rd (.var .jTemp)) (.num 92803892982949643 17)))),
  .set (.arr .jac 52) (.add (.rd (.arr .jac 52)) (.mul (.neg (.num 14916383911740777 15)) (.mul (.rd (.var .jTemp)) (.num 96401946491474821 17)))),
  .set (.arr .jac 53) (.add (.rd (.arr .jac 53)) (.mul (.num 15916383911740779 15) (.mul (.rd (.var .jTemp)) (.num 96401946491474821 17)))),
  .set (.arr .jac 56) (.add (.rd (.arr .jac 56)) (.mul (.num 2878974938984463 14) (.mul (.rd (.var .jTemp)) (.num 96401946491474821 17)))),
  .set (.arr .jac 57) (.add (.rd (.arr .jac 57)) (.mul (.neg (.num 29789749389844633 15)) (.mul (.rd (.var .jTemp)) (.num 96401946491474821 17)))),
  .set (.arr .jac 73) (.add (.rd (.arr .jac 73)) (.mul (.neg (.num 93971148918084424 17)) (.mul (.rd (.var .jTemp)) (.num 42886781649405936 17)))),
  .set (.arr .jac 74) (.add (.rd (.arr .jac 74)) (.mul (.num 10027101016288111 16) (.mul (.rd (.var .jTemp)) (.num 42886781649405936 17)))),
  .set (.arr .jac 77) (.add (.rd (.arr .jac 77)) (.mul (.num 18137142642849107 16) (.mul (.rd (.var .jTemp)) (.num 42886781649405936 17)))),
  .set (.arr .jac 78) (.add (.rd (.arr .jac 78)) (.mul (.neg (.num 18767128767328776 16)) (.mul (.rd (.var .jTemp)) (.num 42886781649405936 17)))),
  .set (.arr .jac 94) (.add (.rd (.arr .jac 94)) (.mul (.neg (.num 46985574459042212 17)) (.mul (.rd (.var .jTemp)) (.neg (.num 14226436701188128 17))))),
  .set (.arr .jac 95) (.add (.rd (.arr .jac 95)) (.mul (.num 50135505081440557 17) (.mul (.rd (.var .jTemp)) (.neg (.num 14226436701188128 17))))),
  .set (.arr .jac 98) (.add (.rd (.arr .jac 98)) (.mul (.num 90685713214245534 17) (.mul (.rd (.var .jTemp)) (.neg (.num 14226436701188128 17))))),
  .set (.arr .jac 99) (.add (.rd (.arr .jac 99)) (.mul (.neg (.num 93835643836643878 17)) (.mul (.rd (.var .jTemp)) (.neg (.num 14226436701188128 17))))),
  .set (.arr .jac 115) (.add (.rd (.arr .jac 115)) (.mul (.neg (.num 88401948805633335 17)) (.mul (.rd (.var .jTemp)) (.num 39288728140880758 17)))),
  .set (.arr .jac 116) (.add (.rd (.arr .jac 116)) (.mul (.num 9432844877564629 16) (.mul (.rd (.var .jTemp)) (.num 39288728140880758 17)))),
  .set (.arr .jac 119) (.add (.rd (.arr .jac 119)) (.mul (.num 17062244889559448 16) (.mul (.rd (.var .jTemp)) (.num 39288728140880758 17)))),
  .set (.arr .jac 120) (.add (.rd (.arr .jac 120)) (.mul (.neg (.num 17654894886560744 16)) (.mul (.rd (.var .jTemp)) (.num 39288728140880758 17)))),
  .set (.arr .jac 136) (.add (.rd (.arr .jac 136)) (.mul (.neg (.num 83455932963573143 17)) (.mul (.rd (.var .jTemp)) (.num 35690674632355568 17)))),
  .set (.arr .jac 137) (.add (.rd (.arr .jac 137)) (.mul (.num 89050850167191409 17) (.mul (.rd (.var .jTemp)) (.num 35690674632355568 17)))),
  .set (.arr .jac 140) (.add (.rd (.arr .jac 140)) (.mul (.num 16107626414910008 16) (.mul (.rd (.var .jTemp)) (.num 35690674632355568 17)))),
  .set (.arr .jac 141) (.add (.rd (.arr .jac 141)) (.mul (.neg (.num 16667118135271835 16)) (.mul (.rd (.var .jTemp)) (.num 35690674632355568 17)))),
  .set (.arr .jac 157) (.add (.rd (.arr .jac 157)) (.mul (.neg (.num 45550757208982162 17)) (.mul (.rd (.var .jTemp)) (.neg (.num 17824490209713328 17))))),
  .set (.arr .jac 158) (.add (.rd (.arr .jac 158)) (.mul (.num 48604497142098857 17) (.mul (.rd (.var .jTemp)) (.neg (.num 17824490209713328 17))))),
  .set (.arr .jac 161) (.add (.rd (.arr .jac 161)) (.mul (.num 87916407376190431 17) (.mul (.rd (.var .jTemp)) (.neg (.num 17824490209713328 17))))),
  .set (.arr .jac 162) (.add (.rd (.arr .jac 162)) (.mul (.neg (.num 90970147309307126 17)) (.mul (.rd (.var .jTemp)) (.neg (.num 17824490209713328 17))))),
  .set (.arr .jac 178) (.add (.rd (.arr .jac 178)) (.mul (.neg (.num 10718577474106858 16)) (.mul (.rd (.var .jTemp)) (.num 49928106040377707 17)))),
  .set (.arr .jac 179) (.add (.rd (.arr .jac 179)) (.mul (.num 11437154948213717 16) (.mul (.rd (.var .jTemp)) (.num 49928106040377707 17)))),
  .set (.arr .jac 182) (.add (.rd (.arr .jac 182)) (.mul (.num 20687665396724007 16) (.mul (.rd (.var .jTemp)) (.num 49928106040377707 17)))),
  .set (.arr .jac 183) (.add (.rd (.arr .jac 183)) (.mul (.neg (.num 21406242870830865 16)) (.mul (.rd (.var .jTemp)) (.num 49928106040377707 17)))),
  .set (.arr .jac 199) (.add (.rd (.arr .jac 199)) (.mul (.neg (.num 10718577474106858 16)) (.mul (.rd (.var .jTemp)) (.num 49928106040377707 17)))),
  .set (.arr .jac 200) (.add (.rd (.arr .jac 200)) (.mul (.num 11437154948213717 16) (.mul (.rd (.var .jTemp)) (.num 49928106040377707 17)))),
  .set (.arr .jac 203) (.add (.rd (.arr .jac 203)) (.mul (.num 20687665396724007 16) (.mul (.rd (.var .jTemp)) (.num 49928106040377707 17)))),
  .set (.arr .jac 204) (.add (.rd (.arr .jac 204)) (.mul (.neg (.num 21406242870830865 16)) (.mul (.rd (.var .jTemp)) (.num 49928106040377707 17)))),
  .set (.arr .jac 220) (.add (.rd (.arr .jac 220)) (.neg (.add (.mul (.rd (.var .jTemp)) (.num 46330052531852528 17)) (.mul (.rd (.var .kf)) (.rd (.arr .C 14)))))),
  .set (.arr .jac 221) (.add (.rd (.arr .jac 221)) (.mul (.num 10670403769383339 16) (.add (.mul (.rd (.var .jTemp)) (.num 46330052531852528 17)) (.mul (.rd (.var .kf)) (.rd (.arr .C 14)))))),
  .set (.arr .jac 224) (.add (.rd (.arr .jac 224)) (.mul (.num 19300756510553501 16) (.add (.mul (.rd (.var .jTemp)) (.num 46330052531852528 17)) (.mul (.rd (.var .kf)) (.rd (.arr .C 14)))))),
  .set (.arr .jac 225) (.add (.rd (.arr .jac 225)) (.mul (.neg (.num 19971160279936839 16)) (.add (.mul (.rd (.var .jTemp)) (.num 46330052531852528 17)) (.mul (.rd (.var .kf)) (.rd (.arr .C 14)))))),
  .set (.arr .jac 241) (.add (.rd (.arr .jac 241)) (.mul (.neg (.num 93717165874201191 17)) (.sub (.mul (.rd (.var .jTemp)) (.num 42731999023327338 17)) (.mul (.rd (.var .kr)) (.rd (.arr .C 13)))))),
  .set (.arr .jac 242) (.add (.rd (.arr .jac 242)) (.sub (.mul (.rd (.var .jTemp)) (.num 42731999023327338 17)) (.mul (.rd (.var .kr)) (.rd (.arr .C 13))))),
  .set (.arr .jac 245) (.add (.rd (.arr .jac 245)) (.mul (.num 18088121993971109 16) (.sub (.mul (.rd (.var .jTemp)) (.num 42731999023327338 17)) (.mul (.rd (.var .kr)) (.rd (.arr .C 13)))))),
  .set (.arr .jac 246) (.add (.rd (.arr .jac 246)) (.mul (.neg (.num 18716405406550991 16)) (.sub (.mul (.rd (.var .jTemp)) (.num 42731999023327338 17)) (.mul (.rd (.var .kr)) (.rd (.arr .C 13)))))),
  .set (.arr .jac 262) (.add (.rd (.arr .jac 262)) (.mul (.neg (.num 53675848970382434 17)) (.mul (.rd (.var .jTemp)) (.num 10994706834011048 20)))),
  .set (.arr .jac 263) (.add (.rd (.arr .jac 263)) (.mul (.num 5727429811784196 16) (.mul (.rd (.var .jTemp)) (.num 10994706834011048 20)))),
  .set (.arr .jac 266) (.add (.rd (.arr .jac 266)) (.mul (.num 10359844914745953 16) (.mul (.rd (.var .jTemp)) (.num 10994706834011048 20)))),
  .set (.arr .jac 267) (.add (.rd (.arr .jac 267)) (.mul (.neg (.num 10719689829491903 16)) (.mul (.rd (.var .jTemp)) (.num 10994706834011048 20)))),
  .set (.arr .jac 283) (.add (.rd (.arr .jac 283)) (.mul (.neg (.num 34162436548223352 17)) (.mul (.rd (.var .jTemp)) (.neg (.num 57102223643760053 17))))),
  .set (.arr .jac 284) (.add (.rd (.arr .jac 284)) (.mul (.num 36452699171548159 17) (.mul (.rd (.var .jTemp)) (.neg (.num 57102223643760053 17))))),
  .set (.arr .jac 287) (.add (.rd (.arr .jac 287)) (.mul (.num 6593608696244927 16) (.mul (.rd (.var .jTemp)) (.neg (.num 57102223643760053 17))))),
  .set (.arr .jac 288) (.add (.rd (.arr .jac 288)) (.mul (.neg (.num 68226349585774082 17)) (.mul (.rd (.var .jTemp)) (.neg (.num 57102223643760053 17))))),
  .set (.arr .jac 304) (.add (.rd (.arr .jac 304)) (.mul (.neg (.num 5181144062685874 16)) (.sub (.mul (.rd (.var .jTemp)) (.neg (.num 35870588016911675 18))) (.mul (.rd (.var .kr)) (.rd (.arr .C 10)))))),
  .set (.arr .jac 305) (.add (.rd (.arr .jac 305)) (.mul (.num 5528489913620146 16) (.sub (.mul (.rd (.var .jTemp)) (.neg (.num 35870588016911675 18))) (.mul (.rd (.var .kr)) (.rd (.arr .C 10)))))),
  .set (.arr .jac 308) (.add (.rd (.arr .jac 308)) (.sub (.mul (.rd (.var .jTemp)) (.neg (.num 35870588016911675 18))) (.mul (.rd (.var .kr)) (.rd (.arr .C 10))))),
  .set (.arr .jac 309) (.add (.rd (.arr .jac 309)) (.mul (.neg (.num 10347345850934271 16)) (.sub (.mul (.rd (.var .jTemp)) (.neg (.num 35870588016911675 18))) (.mul (.rd (.var .kr)) (.rd (.arr .C 10)))))),
  .set (.arr .jac 325) (.add (.rd (.arr .jac 325)) (.mul (.neg (.num 50072203416473837 17)) (.add (.mul (.rd (.var .jTemp)) (.neg (.num 71851123102163683 18))) (.mul (.rd (.var .kf)) (.rd (.arr .C 9)))))),
  .set (.arr .jac 326) (.add (.rd (.arr .jac 326)) (.mul (.num 53429062807647176 17) (.add (.mul (.rd (.var .jTemp)) (.neg (.num 71851123102163683 18))) (.mul (.rd (.var .kf)) (.rd (.arr .C 9)))))),
  .set (.arr .jac 329) (.add (.rd (.arr .jac 329)) (.mul (.num 96643140608826661 17) (.add (.mul (.rd (.var .jTemp)) (.neg (.num 71851123102163683 18))) (.mul (.rd (.var .kf)) (.rd (.arr .C 9)))))),
  .set (.arr .jac 330) (.add (.rd (.arr .jac 330)) (.neg (.add (.mul (.rd (.var .jTemp)) (.neg (.num 71851123102163683 18))) (.mul (.rd (.var .kf)) (.rd (.arr .C 9)))))),
  .set (.arr .jac 346) (.add (.rd (.arr .jac 346)) (.mul (.neg (.num 4844594128674734 16)) (.mul (.rd (.var .jTemp)) (.neg (.num 10783165818741525 17))))),
  .set (.arr .jac 347) (.add (.rd (.arr .jac 347)) (.mul (.num 51693775451743273 17) (.mul (.rd (.var .jTemp)) (.neg (.num 10783165818741525 17))))),
  .set (.arr .jac 350) (.add (.rd (.arr .jac 350)) (.mul (.num 93504331670008145 17) (.mul (.rd (.var .jTemp)) (.neg (.num 10783165818741525 17))))),
  .set (.arr .jac 351) (.add (.rd (.arr .jac 351)) (.mul (.neg (.num 96752165835004078 17)) (.mul (.rd (.var .jTemp)) (.neg (.num 10783165818741525 17))))),
  .set (.arr .jac 367) (.add (.rd (.arr .jac 367)) (.mul (.neg (.num 53592887370534292 17)) (.mul (.rd (.var .jTemp)) (.neg (.num 14378791924458678 19))))),
  .set (.arr .jac 368) (.add (.rd (.arr .jac 368)) (.mul (.num 57185774741068585 17) (.mul (.rd (.var .jTemp)) (.neg (.num 14378791924458678 19))))),
  .set (.arr .jac 371) (.add (.rd (.arr .jac 371)) (.mul (.num 10343832698362003 16) (.mul (.rd (.var .jTemp)) (.neg (.num 14378791924458678 19))))),
  .set (.arr .jac 372) (.add (.rd (.arr .jac 372)) (.mul (.neg (.num 10703121435415432 16)) (.mul (.rd (.var .jTemp)) (.neg (.num 14378791924458678 19))))),
  .set (.arr .jac 388) (.add (.rd (.arr .jac 388)) (.mul (.neg (.num 51734138057993861 17)) (.mul (.rd (.var .jTemp)) (.neg (.num 37418414277697654 18))))),
  .set (.arr .jac 389) (.add (.rd (.arr .jac 389)) (.mul (.num 55202414173981573 17) (.mul (.rd (.var .jTemp)) (.neg (.num 37418414277697654 18))))),
  .set (.arr .jac 392) (.add (.rd (.arr .jac 392)) (.mul (.num 99850800194069855 17) (.mul (.rd (.var .jTemp)) (.neg (.num 37418414277697654 18))))),
  .set (.arr .jac 393) (.add (.rd (.arr .jac 393)) (.mul (.neg (.num 10331907631005757 16)) (.mul (.rd (.var .jTemp)) (.neg (.num 37418414277697654 18))))),
  .set (.arr .jac 409) (.add (.rd (.arr .jac 409)) (.mul (.neg (.num 5 1)) (.mul (.rd (.var .jTemp)) (.neg (.num 73398949362949439 18))))),
  .set (.arr .jac 410) (.add (.rd (.arr .jac 410)) (.mul (.num 53352018846916693 17) (.mul (.rd (.var .jTemp)) (.neg (.num 73398949362949439 18))))),
  .set (.arr .jac 413) (.add (.rd (.arr .jac 413)) (.mul (.num 96503782552767503 17) (.mul (.rd (.var .jTemp)) (.neg (.num 73398949362949439 18))))),
  .set (.arr .jac 414) (.add (.rd (.arr .jac 414)) (.mul (.neg (.num 99855801399684196 17)) (.mul (.rd (.var .jTemp)) (.neg (.num 73398949362949439 18))))),
  .set (.arr .jac 430) (.add (.rd (.arr .jac 430)) (.mul (.neg (.num 37635976769800739 17)) (.mul (.rd (.var .jTemp)) (.neg (.num 42602775520927771 17))))),
  .set (.arr .jac 431) (.add (.rd (.arr .jac 431)) (.mul (.num 40159106838890563 17) (.mul (.rd (.var .jTemp)) (.neg (.num 42602775520927771 17))))),
  .set (.arr .jac 434) (.add (.rd (.arr .jac 434)) (.mul (.num 72640282367077191 17) (.mul (.rd (.var .jTemp)) (.neg (.num 42602775520927771 17))))),
  .set (.arr .jac 435) (.add (.rd (.arr .jac 435)) (.mul (.neg (.num 75163412436167021 17)) (.mul (.rd (.var .jTemp)) (.neg (.num 42602775520927771 17)))))]

/-- utilities/mechanisms/drm19/lib/src/jacobs/jacob_1.c:3459-3465 -/
def jacobT78 : List CStmt := [
  .set (.var .jTemp) (.mul (.mul (.div (.num 1 0) (.rd (.var .T))) (.sub (.add (.mul (.sub (.rd (.arr .fwd 78)) (.rd (.arr .rev 78))) (.add (.num 174 2) (.div (.num 52586444527782496 13) (.rd (.var .T))))) (.mul (.rd (.arr .fwd 78)) (.neg (.num 1 0)))) (.mul (.rd (.arr .rev 78)) (.add (.neg (.num 1 0)) (.mul (.neg (.rd (.var .T))) (.sub (.sub (.add (.rd (.arr .dBdT 17)) (.rd (.arr .dBdT 10))) (.rd (.arr .dBdT 18))) (.rd (.arr .dBdT 9)))))))) (.rd (.var .rhoInv))),
  .set (.arr .jac 10) (.add (.rd (.arr .jac 10)) (.mul (.neg (.rd (.var .jTemp))) (.num 1503482 5))),
  .set (.arr .jac 19) (.add (.rd (.arr .jac 19)) (.mul (.neg (.rd (.var .jTemp))) (.num 3006964 5))),
  .set (.arr .jac 11) (.add (.rd (.arr .jac 11)) (.mul (.rd (.var .jTemp)) (.num 16042760000000001 15))),
  .set (.arr .jac 18) (.add (.rd (.arr .jac 18)) (.mul (.rd (.var .jTemp)) (.num 29061699999999998 15)))]

/-- utilities/mechanisms/drm19/lib/src/jacobs/jacob_1.c:3466-3557 -/
def jacobS78 : List CStmt := [
  .ite (.rd (.var .T)) (.num 1000 0) (.var .Kc) (.sub (.add (.add (.neg (.num 56968084999999977 16)) (.mul (.num 14913264899999996 16) (.rd (.var .logT)))) (.mul (.rd (.var .T)) (.add (.neg (.num 71834883850000007 19)) (.mul (.rd (.var .T)) (.add (.num 55367155399999991 22) (.mul (.rd (.var .T)) (.add (.neg (.num 25557633708333334 25)) (.mul (.num 51539307799999995 29) (.rd (.var .T)))))))))) (.div (.neg (.num 23278144000000011 13)) (.rd (.var .T)))) (.sub (.add (.add (.num 96321611149999988 16) (.mul (.neg (.num 13280913050000001 16)) (.rd (.var .logT)))) (.mul (.rd (.var .T)) (.add (.num 9315254150000004 19) (.mul (.rd (.var .T)) (.add (.neg (.num 1170290983333335 22)) (.mul (.rd (.var .T)) (.add (.num 13774798833333297 27) (.mul (.neg (.num 73692383000000025 32)) (.rd (.var .T)))))))))) (.div (.neg (.num 19600156899999984 13)) (.rd (.var .T)))),
  .set (.var .Kc) (.exp (.rd (.var .Kc))),
  .set (.var .jTemp) (.mul (.mul (.neg (.rd (.var .mwAvg))) (.rd (.var .rhoInv))) (.sub (.mul (.num 2 0) (.rd (.arr .fwd 78))) (.mul (.num 2 0) (.rd (.arr .rev 78))))),
  .set (.var .kf) (.exp (.sub (.add (.num 8722580021141189 15) (.mul (.num 174 2) (.rd (.var .logT)))) (.div (.num 52586444527782496 13) (.rd (.var .T))))),
  .set (.var .kr) (.div (.rd (.var .kf)) (.rd (.var .Kc))),
  .set (.arr .jac 31) (.add (.rd (.arr .jac 31)) (.mul (.neg (.num 74581919558703884 16)) (.mul (.rd (.var .jTemp)) (.num 92803892982949643 17)))),
  .set (.arr .jac 40) (.add (.rd (.arr .jac 40)) (.mul (.neg (.num 14916383911740777 15)) (.mul (.rd (.var .jTemp)) (.num 92803892982949643 17)))),
  .set (.arr .jac 32) (.add (.rd (.arr .jac 32)) (.mul (.num 79581919558703893 16) (.mul (.rd (.var .jTemp)) (.num 92803892982949643 17)))),
  .set (.arr .jac 39) (.add (.rd (.arr .jac 39)) (.mul (.num 14416383911740777 15) (.mul (.rd (.var .jTemp)) (.num 92803892982949643 17)))),
  .set (.arr .jac 52) (.add (.rd (.arr .jac 52)) (.mul (.neg (.num 14916383911740777 15)) (.mul (.rd (.var .jTemp)) (.num 96401946491474821 17)))),
  .set (.arr .jac 61) (.add (.rd (.arr .jac 61)) (.mul (.neg (.num 29832767823481554 15)) (.mul (.rd (.var .jTemp)) (.num 96401946491474821 17)))),
  .set (.arr .jac 53) (.add (.rd (.arr .jac 53)) (.mul (.num 15916383911740779 15) (.mul (.rd (.var .jTemp)) (.num 96401946491474821 17)))),
  .set (.arr .jac 60) (.add (.rd (.arr .jac 60)) (.mul (.num 28832767823481554 15) (.mul (.rd (.var .jTemp)) (.num 96401946491474821 17)))),
  .set (.arr .jac 73) (.add (.rd (.arr .jac 73)) (.mul (.neg (.num 93971148918084424 17)) (.mul (.rd (.var .jTemp)) (.num 42886781649405936 17)))),
  .set (.arr .jac 82) (.add (.rd (.arr .jac 82)) (.mul (.neg (.num 18794229783616885 16)) (.mul (.rd (.var .jTemp)) (.num 42886781649405936 17)))),
  .set (.arr .jac 74) (.add (.rd (.arr .jac 74)) (.mul (.num 10027101016288111 16) (.mul (.rd (.var .jTemp)) (.num 42886781649405936 17)))),
  .set (.arr .jac 81) (.add (.rd (.arr .jac 81)) (.mul (.num 18164243659137218 16) (.mul (.rd (.var .jTemp)) (.num 42886781649405936 17)))),
  .set (.arr .jac 94) (.add (.rd (.arr .jac 94)) (.mul (.neg (.num 46985574459042212 17)) (.mul (.rd (.var .jTemp)) (.neg (.num 14226436701188128 17))))),
  .set (.arr .jac 103) (.add (.rd (.arr .jac 103)) (.mul (.neg (.num 93971148918084424 17)) (.mul (.rd (.var .jTemp)) (.neg (.num 14226436701188128 17))))),
  .set (.arr .jac 95) (.add (.rd (.arr .jac 95)) (.mul (.num 50135505081440557 17) (.mul (.rd (.var .jTemp)) (.neg (.num 14226436701188128 17))))),
  .set (.arr .jac 102) (.add (.rd (.arr .jac 102)) (.mul (.num 9082121829568609 16) (.mul (.rd (.var .jTemp)) (.neg (.num 14226436701188128 17))))),
  .set (.arr .jac 115) (.add (.rd (.arr .jac 115)) (.mul (.neg (.num 88401948805633335 17)) (.mul (.rd (.var .jTemp)) (.num 39288728140880758 17)))),
  .set (.arr .jac 124) (.add (.rd (.arr .jac 124)) (.mul (.neg (.num 17680389761126667 16)) (.mul (.rd (.var .jTemp)) (.num 39288728140880758 17)))),
  .set (.arr .jac 116) (.add (.rd (.arr .jac 116)) (.mul (.num 9432844877564629 16) (.mul (.rd (.var .jTemp)) (.num 39288728140880758 17)))),
  .set (.arr .jac 123) (.add (.rd (.arr .jac 123)) (.mul (.num 17087739764125371 16) (.mul (.rd (.var .jTemp)) (.num 39288728140880758 17)))),
  .set (.arr .jac 136) (.add (.rd (.arr .jac 136)) (.mul (.neg (.num 83455932963573143 17)) (.mul (.rd (.var .jTemp)) (.num 35690674632355568 17)))),
  .set (.arr .jac 145) (.add (.rd (.arr .jac 145)) (.mul (.neg (.num 16691186592714629 16)) (.mul (.rd (.var .jTemp)) (.num 35690674632355568 17)))),
  .set (.arr .jac 137) (.add (.rd (.arr .jac 137)) (.mul (.num 89050850167191409 17) (.mul (.rd (.var .jTemp)) (.num 35690674632355568 17)))),
  .set (.arr .jac 144) (.add (.rd (.arr .jac 144)) (.mul (.num 16131694872352802 16) (.mul (.rd (.var .jTemp)) (.num 35690674632355568 17)))),
  .set (.arr .jac 157) (.add (.rd (.arr .jac 157)) (.mul (.neg (.num 45550757208982162 17)) (.mul (.rd (.var .jTemp)) (.neg (.num 17824490209713328 17))))),
  .set (.arr .jac 166) (.add (.rd (.arr .jac 166)) (.mul (.neg (.num 91101514417964324 17)) (.mul (.rd (.var .jTemp)) (.neg (.num 17824490209713328 17))))),
  .set (.arr .jac 158) (.add (.rd (.arr .jac 158)) (.mul (.num 48604497142098857 17) (.mul (.rd (.var .jTemp)) (.neg (.num 17824490209713328 17))))),
  .set (.arr .jac 165) (.add (.rd (.arr .jac 165)) (.mul (.num 8804777448484763 16) (.mul (.rd (.var .jTemp)) (.neg (.num 17824490209713328 17))))),
  .set (.arr .jac 178) (.add (.rd (.arr .jac 178)) (.mul (.neg (.num 10718577474106858 16)) (.mul (.rd (.var .jTemp)) (.num 49928106040377707 17)))),
  .set (.arr .jac 187) (.add (.rd (.arr .jac 187)) (.mul (.neg (.num 21437154948213717 16)) (.mul (.rd (.var .jTemp)) (.num 49928106040377707 17)))),
  .set (.arr .jac 179) (.add (.rd (.arr .jac 179)) (.mul (.num 11437154948213717 16) (.mul (.rd (.var .jTemp)) (.num 49928106040377707 17)))),
  .set (.arr .jac 186) (.add (.rd (.arr .jac 186)) (.mul (.num 20718577474106858 16) (.mul (.rd (.var .jTemp)) (.num 49928106040377707 17)))),
  .set (.arr .jac 199) (.add (.rd (.arr .jac 199)) (.mul (.neg (.num 10718577474106858 16)) (.mul (.rd (.var .jTemp)) (.num 49928106040377707 17)))),
  .set (.arr .jac 208) (.add (.rd (.arr .jac 208)) (.mul (.neg (.num 21437154948213717 16)) (.mul (.rd (.var .jTemp)) (.num 49928106040377707 17)))),
  .set (.arr .jac 200) (.add (.rd (.arr .jac 200)) (.mul (.num 11437154948213717 16) (.mul (.rd (.var .jTemp)) (.num 49928106040377707 17)))),
  .set (.arr .jac 207) (.add (.rd (.arr .jac 207)) (.mul (.num 20718577474106858 16) (.mul (.rd (.var .jTemp)) (.num 49928106040377707 17)))),
  .set (.arr .jac 220) (.add (.rd (.arr .jac 220)) (.neg (.add (.mul (.rd (.var .jTemp)) (.num 46330052531852528 17)) (.mul (.rd (.var .kf)) (.rd (.arr .C 18)))))),
  .set (.arr .jac 229) (.add (.rd (.arr .jac 229)) (.mul (.neg (.num 2 0)) (.add (.mul (.rd (.var .jTemp)) (.num 46330052531852528 17)) (.mul (.rd (.var .kf)) (.rd (.arr .C 18)))))),
  .set (.arr .jac 221) (.add (.rd (.arr .jac 221)) (.mul (.num 10670403769383339 16) (.add (.mul (.rd (.var .jTemp)) (.num 46330052531852528 17)) (.mul (.rd (.var .kf)) (.rd (.arr .C 18)))))),
  .set (.arr .jac 228) (.add (.rd (.arr .jac 228)) (.mul (.num 19329596230616661 16) (.add (.mul (.rd (.var .jTemp)) (.num 46330052531852528 17)) (.mul (.rd (.var .kf)) (.rd (.arr .C 18)))))),
  .set (.arr .jac 241) (.add (.rd (.arr .jac 241)) (.mul (.neg (.num 93717165874201191 17)) (.sub (.mul (.rd (.var .jTemp)) (.num 42731999023327338 17)) (.mul (.rd (.var .kr)) (.rd (.arr .C 17)))))),
  .set (.arr .jac 250) (.add (.rd (.arr .jac 250)) (.mul (.neg (.num 18743433174840238 16)) (.sub (.mul (.rd (.var .jTemp)) (.num 42731999023327338 17)) (.mul (.rd (.var .kr)) (.rd (.arr .C 17)))))),
  .set (.arr .jac 242) (.add (.rd (.arr .jac 242)) (.sub (.mul (.rd (.var .jTemp)) (.num 42731999023327338 17)) (.mul (.rd (.var .kr)) (.rd (.arr .C 17))))),
  .set (.arr .jac 249) (.add (.rd (.arr .jac 249)) (.mul (.num 18115149762260356 16) (.sub (.mul (.rd (.var .jTemp)) (.num 42731999023327338 17)) (.mul (.rd (.var .kr)) (.rd (.arr .C 17)))))),
  .set (.arr .jac 262) (.add (.rd (.arr .jac 262)) (.mul (.neg (.num 53675848970382434 17)) (.mul (.rd (.var .jTemp)) (.num 10994706834011048 20)))),
  .set (.arr .jac 271) (.add (.rd (.arr .jac 271)) (.mul (.neg (.num 10735169794076487 16)) (.mul (.rd (.var .jTemp)) (.num 10994706834011048 20)))),
  .set (.arr .jac 263) (.add (.rd (.arr .jac 263)) (.mul (.num 5727429811784196 16) (.mul (.rd (.var .jTemp)) (.num 10994706834011048 20)))),
  .set (.arr .jac 270) (.add (.rd (.arr .jac 270)) (.mul (.num 10375324879330534 16) (.mul (.rd (.var .jTemp)) (.num 10994706834011048 20)))),
  .set (.arr .jac 283) (.add (.rd (.arr .jac 283)) (.mul (.neg (.num 34162436548223352 17)) (.mul (.rd (.var .jTemp)) (.neg (.num 57102223643760053 17))))),
  .set (.arr .jac 292) (.add (.rd (.arr .jac 292)) (.mul (.neg (.num 68324873096446703 17)) (.mul (.rd (.var .jTemp)) (.neg (.num 57102223643760053 17))))),
  .set (.arr .jac 284) (.add (.rd (.arr .jac 284)) (.mul (.num 36452699171548159 17) (.mul (.rd (.var .jTemp)) (.neg (.num 57102223643760053 17))))),
  .set (.arr .jac 291) (.add (.rd (.arr .jac 291)) (.mul (.num 66034610473121891 17) (.mul (.rd (.var .jTemp)) (.neg (.num 57102223643760053 17))))),
  .set (.arr .jac 304) (.add (.rd (.arr .jac 304)) (.mul (.neg (.num 5181144062685874 16)) (.mul (.rd (.var .jTemp)) (.neg (.num 35870588016911675 18))))),
  .set (.arr .jac 313) (.add (.rd (.arr .jac 313)) (.mul (.neg (.num 10362288125371748 16)) (.mul (.rd (.var .jTemp)) (.neg (.num 35870588016911675 18))))),
  .set (.arr .jac 305) (.add (.rd (.arr .jac 305)) (.mul (.num 5528489913620146 16) (.mul (.rd (.var .jTemp)) (.neg (.num 35870588016911675 18))))),
  .set (.arr .jac 312) (.add (.rd (.arr .jac 312)) (.mul (.num 10014942274437477 16) (.mul (.rd (.var .jTemp)) (.neg (.num 35870588016911675 18))))),
  .set (.arr .jac 325) (.add (.rd (.arr .jac 325)) (.mul (.neg (.num 50072203416473837 17)) (.mul (.rd (.var .jTemp)) (.neg (.num 71851123102163683 18))))),
  .set (.arr .jac 334) (.add (.rd (.arr .jac 334)) (.mul (.neg (.num 10014440683294767 16)) (.mul (.rd (.var .jTemp)) (.neg (.num 71851123102163683 18))))),
  .set (.arr .jac 326) (.add (.rd (.arr .jac 326)) (.mul (.num 53429062807647176 17) (.mul (.rd (.var .jTemp)) (.neg (.num 71851123102163683 18))))),
  .set (.arr .jac 333) (.add (.rd (.arr .jac 333)) (.mul (.num 96787547441774335 17) (.mul (.rd (.var .jTemp)) (.neg (.num 71851123102163683 18))))),
  .set (.arr .jac 346) (.add (.rd (.arr .jac 346)) (.mul (.neg (.num 4844594128674734 16)) (.mul (.rd (.var .jTemp)) (.neg (.num 10783165818741525 17))))),
  .set (.arr .jac 355) (.add (.rd (.arr .jac 355)) (.mul (.neg (.num 96891882573494681 17)) (.mul (.rd (.var .jTemp)) (.neg (.num 10783165818741525 17))))),
  .set (.arr .jac 347) (.add (.rd (.arr .jac 347)) (.mul (.num 51693775451743273 17) (.mul (.rd (.var .jTemp)) (.neg (.num 10783165818741525 17))))),
  .set (.arr .jac 354) (.add (.rd (.arr .jac 354)) (.mul (.num 93644048408498748 17) (.mul (.rd (.var .jTemp)) (.neg (.num 10783165818741525 17))))),
  .set (.arr .jac 367) (.add (.rd (.arr .jac 367)) (.mul (.neg (.num 53592887370534292 17)) (.mul (.rd (.var .jTemp)) (.neg (.num 14378791924458678 19))))),
  .set (.arr .jac 376) (.add (.rd (.arr .jac 376)) (.mul (.neg (.num 10718577474106858 16)) (.mul (.rd (.var .jTemp)) (.neg (.num 14378791924458678 19))))),
  .set (.arr .jac 368) (.add (.rd (.arr .jac 368)) (.mul (.num 57185774741068585 17) (.mul (.rd (.var .jTemp)) (.neg (.num 14378791924458678 19))))),
  .set (.arr .jac 375) (.add (.rd (.arr .jac 375)) (.mul (.num 10359288737053429 16) (.mul (.rd (.var .jTemp)) (.neg (.num 14378791924458678 19))))),
  .set (.arr .jac 388) (.add (.rd (.arr .jac 388)) (.mul (.neg (.num 51734138057993861 17)) (.sub (.mul (.rd (.var .jTemp)) (.neg (.num 37418414277697654 18))) (.mul (.rd (.var .kr)) (.rd (.arr .C 10)))))),
  .set (.arr .jac 397) (.add (.rd (.arr .jac 397)) (.mul (.neg (.num 10346827611598772 16)) (.sub (.mul (.rd (.var .jTemp)) (.neg (.num 37418414277697654 18))) (.mul (.rd (.var .kr)) (.rd (.arr .C 10)))))),
  .set (.arr .jac 389) (.add (.rd (.arr .jac 389)) (.mul (.num 55202414173981573 17) (.sub (.mul (.rd (.var .jTemp)) (.neg (.num 37418414277697654 18))) (.mul (.rd (.var .kr)) (.rd (.arr .C 10)))))),
  .set (.arr .jac 396) (.add (.rd (.arr .jac 396)) (.sub (.mul (.rd (.var .jTemp)) (.neg (.num 37418414277697654 18))) (.mul (.rd (.var .kr)) (.rd (.arr .C 10))))),
  .set (.arr .jac 409) (.add (.rd (.arr .jac 409)) (.mul (.neg (.num 5 1)) (.add (.mul (.rd (.var .jTemp)) (.neg (.num 73398949362949439 18))) (.mul (.rd (.var .kf)) (.rd (.arr .C 9)))))),
  .set (.arr .jac 418) (.add (.rd (.arr .jac 418)) (.neg (.add (.mul (.rd (.var .jTemp)) (.neg (.num 73398949362949439 18))) (.mul (.rd (.var .kf)) (.rd (.arr .C 9)))))),
  .set (.arr .jac 410) (.add (.rd (.arr .jac 410)) (.mul (.num 53352018846916693 17) (.add (.mul (.rd (.var .jTemp)) (.neg (.num 73398949362949439 18))) (.mul (.rd (.var .kf)) (.rd (.arr .C 9)))))),
  .set (.arr .jac 417) (.add (.rd (.arr .jac 417)) (.mul (.num 96647981153083307 17) (.add (.mul (.rd (.var .jTemp)) (.neg (.num 73398949362949439 18))) (.mul (.rd (.var .kf)) (.rd (.arr .C 9)))))),
  .set (.arr .jac 430) (.add (.rd (.arr .jac 430)) (.mul (.neg (.num 37635976769800739 17)) (.mul (.rd (.var .jTemp)) (.neg (.num 42602775520927771 17))))),
  .set (.arr .jac 439) (.add (.rd (.arr .jac 439)) (.mul (.neg (.num 75271953539601477 17)) (.mul (.rd (.var .jTemp)) (.neg (.num 42602775520927771 17))))),
  .set (.arr .jac 431) (.add (.rd (.arr .jac 431)) (.mul (.num 40159106838890563 17) (.mul (.rd (.var .jTemp)) (.neg (.num 42602775520927771 17))))),
  .set (.arr .jac 438) (.add (.rd (.arr .jac 438)) (.mul (.num 72748823470511659 17) (.mul (.rd (.var .jTemp)) (.neg (.num 42602775520927771 17)))))]

/-- utilities/mechanisms/drm19/lib/src/jacobs/jacob_1.c:3558-3563 -/
def jacobT79 : List CStmt := [
  .set (.var .jTemp) (.mul (.mul (.div (.num 1 0) (.rd (.var .T))) (.sub (.add (.mul (.sub (.rd (.arr .fwd 79)) (.rd (.arr .rev 79))) (.add (.neg (.num 1 0)) (.div (.num 85547326026057654 13) (.rd (.var .T))))) (.mul (.rd (.arr .fwd 79)) (.neg (.num 1 0)))) (.mul (.rd (.arr .rev 79)) (.add (.neg (.num 2 0)) (.mul (.neg (.rd (.var .T))) (.sub (.add (.rd (.arr .dBdT 1)) (.rd (.arr .dBdT 11))) (.rd (.arr .dBdT 13)))))))) (.rd (.var .rhoInv))),
  .set (.arr .jac 2) (.add (.rd (.arr .jac 2)) (.mul (.rd (.var .jTemp)) (.num 10079400000000001 16))),
  .set (.arr .jac 12) (.add (.rd (.arr .jac 12)) (.mul (.rd (.var .jTemp)) (.num 28010399999999997 15))),
  .set (.arr .jac 14) (.add (.rd (.arr .jac 14)) (.mul (.neg (.rd (.var .jTemp))) (.num 29018339999999998 15)))]

/-- utilities/mechanisms/drm19/lib/src/jacobs/jacob_1.c:3564-3635 -/
def jacobS79 : List CStmt := [
  .ite (.rd (.var .T)) (.num 1000 0) (.var .Kc) (.sub (.add (.add (.neg (.num 21909936329999997 16)) (.mul (.num 85834762999999903 17) (.rd (.var .logT)))) (.mul (.rd (.var .T)) (.add (.num 13167858203526664 19) (.mul (.rd (.var .T)) (.add (.neg (.num 21271883786659866 22)) (.mul (.rd (.var .T)) (.add (.num 11851179321917348 25) (.mul (.neg (.num 2621056574963866 28)) (.rd (.var .T)))))))))) (.div (.num 72900089399999997 13) (.rd (.var .T)))) (.sub (.add (.add (.neg (.num 4869351354 9)) (.mul (.num 14430112399999997 16) (.rd (.var .logT)))) (.mul (.rd (.var .T)) (.add (.neg (.num 14472139265421485 19)) (.mul (.rd (.var .T)) (.add (.num 24760506252603246 23) (.mul (.rd (.var .T)) (.add (.neg (.num 29925731227929364 27)) (.mul (.num 1649304999909868 30) (.rd (.var .T)))))))))) (.div (.num 7309869349999999 12) (.rd (.var .T)))),
  .set (.var .Kc) (.mul (.num 12186597134166982 15) (.exp (.rd (.var .Kc)))),
  .set (.var .jTemp) (.mul (.mul (.neg (.rd (.var .mwAvg))) (.rd (.var .rhoInv))) (.sub (.mul (.num 2 0) (.rd (.arr .fwd 79))) (.mul (.num 3 0) (.rd (.arr .rev 79))))),
  .set (.var .kf) (.exp (.sub (.sub (.num 35347036382571133 15) (.mul (.num 1 0) (.rd (.var .logT)))) (.div (.num 85547326026057654 13) (.rd (.var .T))))),
  .set (.var .kr) (.div (.rd (.var .kf)) (.rd (.var .Kc))),
  .set (.arr .jac 23) (.add (.rd (.arr .jac 23)) (.mul (.num 5 1) (.mul (.rd (.var .jTemp)) (.num 92803892982949643 17)))),
  .set (.arr .jac 33) (.add (.rd (.arr .jac 33)) (.mul (.num 13894874694922315 15) (.mul (.rd (.var .jTemp)) (.num 92803892982949643 17)))),
  .set (.arr .jac 35) (.add (.rd (.arr .jac 35)) (.mul (.neg (.num 14394874694922315 15)) (.mul (.rd (.var .jTemp)) (.num 92803892982949643 17)))),
  .set (.arr .jac 44) (.add (.rd (.arr .jac 44)) (.sub (.mul (.rd (.var .jTemp)) (.num 96401946491474821 17)) (.mul (.mul (.rd (.var .kr)) (.rd (.arr .C 5))) (.rd (.arr .C 11))))),
  .set (.arr .jac 54) (.add (.rd (.arr .jac 54)) (.mul (.num 2778974938984463 14) (.sub (.mul (.rd (.var .jTemp)) (.num 96401946491474821 17)) (.mul (.mul (.rd (.var .kr)) (.rd (.arr .C 5))) (.rd (.arr .C 11)))))),
  .set (.arr .jac 56) (.add (.rd (.arr .jac 56)) (.mul (.neg (.num 2878974938984463 14)) (.sub (.mul (.rd (.var .jTemp)) (.num 96401946491474821 17)) (.mul (.mul (.rd (.var .kr)) (.rd (.arr .C 5))) (.rd (.arr .C 11)))))),
  .set (.arr .jac 65) (.add (.rd (.arr .jac 65)) (.mul (.num 62998612447966798 18) (.mul (.rd (.var .jTemp)) (.num 42886781649405936 17)))),
  .set (.arr .jac 75) (.add (.rd (.arr .jac 75)) (.mul (.num 17507156518369438 16) (.mul (.rd (.var .jTemp)) (.num 42886781649405936 17)))),
  .set (.arr .jac 77) (.add (.rd (.arr .jac 77)) (.mul (.neg (.num 18137142642849107 16)) (.mul (.rd (.var .jTemp)) (.num 42886781649405936 17)))),
  .set (.arr .jac 86) (.add (.rd (.arr .jac 86)) (.mul (.num 31499306223983399 18) (.mul (.rd (.var .jTemp)) (.neg (.num 14226436701188128 17))))),
  .set (.arr .jac 96) (.add (.rd (.arr .jac 96)) (.mul (.num 87535782591847189 17) (.mul (.rd (.var .jTemp)) (.neg (.num 14226436701188128 17))))),
  .set (.arr .jac 98) (.add (.rd (.arr .jac 98)) (.mul (.neg (.num 90685713214245534 17)) (.mul (.rd (.var .jTemp)) (.neg (.num 14226436701188128 17))))),
  .set (.arr .jac 107) (.add (.rd (.arr .jac 107)) (.mul (.num 59264999700129481 18) (.mul (.rd (.var .jTemp)) (.num 39288728140880758 17)))),
  .set (.arr .jac 117) (.add (.rd (.arr .jac 117)) (.mul (.num 16469594892558153 16) (.mul (.rd (.var .jTemp)) (.num 39288728140880758 17)))),
  .set (.arr .jac 119) (.add (.rd (.arr .jac 119)) (.mul (.neg (.num 17062244889559448 16)) (.mul (.rd (.var .jTemp)) (.num 39288728140880758 17)))),
  .set (.arr .jac 128) (.add (.rd (.arr .jac 128)) (.mul (.num 55949172036182618 18) (.sub (.add (.mul (.rd (.var .jTemp)) (.num 35690674632355568 17)) (.mul (.rd (.var .kf)) (.rd (.arr .C 13)))) (.mul (.mul (.rd (.var .kr)) (.rd (.arr .C 1))) (.rd (.arr .C 11)))))),
  .set (.arr .jac 138) (.add (.rd (.arr .jac 138)) (.mul (.num 15548134694548181 16) (.sub (.add (.mul (.rd (.var .jTemp)) (.num 35690674632355568 17)) (.mul (.rd (.var .kf)) (.rd (.arr .C 13)))) (.mul (.mul (.rd (.var .kr)) (.rd (.arr .C 1))) (.rd (.arr .C 11)))))),
  .set (.arr .jac 140) (.add (.rd (.arr .jac 140)) (.mul (.neg (.num 16107626414910008 16)) (.sub (.add (.mul (.rd (.var .jTemp)) (.num 35690674632355568 17)) (.mul (.rd (.var .kf)) (.rd (.arr .C 13)))) (.mul (.mul (.rd (.var .kr)) (.rd (.arr .C 1))) (.rd (.arr .C 11)))))),
  .set (.arr .jac 149) (.add (.rd (.arr .jac 149)) (.mul (.num 3053739933116691 17) (.mul (.rd (.var .jTemp)) (.neg (.num 17824490209713328 17))))),
  .set (.arr .jac 159) (.add (.rd (.arr .jac 159)) (.mul (.num 84862667443073736 17) (.mul (.rd (.var .jTemp)) (.neg (.num 17824490209713328 17))))),
  .set (.arr .jac 161) (.add (.rd (.arr .jac 161)) (.mul (.neg (.num 87916407376190431 17)) (.mul (.rd (.var .jTemp)) (.neg (.num 17824490209713328 17))))),
  .set (.arr .jac 170) (.add (.rd (.arr .jac 170)) (.mul (.num 71857747410685777 18) (.mul (.rd (.var .jTemp)) (.num 49928106040377707 17)))),
  .set (.arr .jac 180) (.add (.rd (.arr .jac 180)) (.mul (.num 19969087922617146 16) (.mul (.rd (.var .jTemp)) (.num 49928106040377707 17)))),
  .set (.arr .jac 182) (.add (.rd (.arr .jac 182)) (.mul (.neg (.num 20687665396724007 16)) (.mul (.rd (.var .jTemp)) (.num 49928106040377707 17)))),
  .set (.arr .jac 191) (.add (.rd (.arr .jac 191)) (.mul (.num 71857747410685777 18) (.mul (.rd (.var .jTemp)) (.num 49928106040377707 17)))),
  .set (.arr .jac 201) (.add (.rd (.arr .jac 201)) (.mul (.num 19969087922617146 16) (.mul (.rd (.var .jTemp)) (.num 49928106040377707 17)))),
  .set (.arr .jac 203) (.add (.rd (.arr .jac 203)) (.mul (.neg (.num 20687665396724007 16)) (.mul (.rd (.var .jTemp)) (.num 49928106040377707 17)))),
  .set (.arr .jac 212) (.add (.rd (.arr .jac 212)) (.mul (.num 67040376938333812 18) (.mul (.rd (.var .jTemp)) (.num 46330052531852528 17)))),
  .set (.arr .jac 222) (.add (.rd (.arr .jac 222)) (.mul (.num 18630352741170162 16) (.mul (.rd (.var .jTemp)) (.num 46330052531852528 17)))),
  .set (.arr .jac 224) (.add (.rd (.arr .jac 224)) (.mul (.neg (.num 19300756510553501 16)) (.mul (.rd (.var .jTemp)) (.num 46330052531852528 17)))),
  .set (.arr .jac 233) (.add (.rd (.arr .jac 233)) (.mul (.num 6282834125798803 17) (.mul (.rd (.var .jTemp)) (.num 42731999023327338 17)))),
  .set (.arr .jac 243) (.add (.rd (.arr .jac 243)) (.mul (.num 17459838581391229 16) (.mul (.rd (.var .jTemp)) (.num 42731999023327338 17)))),
  .set (.arr .jac 245) (.add (.rd (.arr .jac 245)) (.mul (.neg (.num 18088121993971109 16)) (.mul (.rd (.var .jTemp)) (.num 42731999023327338 17)))),
  .set (.arr .jac 254) (.add (.rd (.arr .jac 254)) (.mul (.num 35984491474595155 18) (.sub (.mul (.rd (.var .jTemp)) (.num 10994706834011048 20)) (.mul (.mul (.rd (.var .kr)) (.rd (.arr .C 1))) (.rd (.arr .C 5)))))),
  .set (.arr .jac 264) (.add (.rd (.arr .jac 264)) (.sub (.mul (.rd (.var .jTemp)) (.num 10994706834011048 20)) (.mul (.mul (.rd (.var .kr)) (.rd (.arr .C 1))) (.rd (.arr .C 5))))),
  .set (.arr .jac 266) (.add (.rd (.arr .jac 266)) (.mul (.neg (.num 10359844914745953 16)) (.sub (.mul (.rd (.var .jTemp)) (.num 10994706834011048 20)) (.mul (.mul (.rd (.var .kr)) (.rd (.arr .C 1))) (.rd (.arr .C 5)))))),
  .set (.arr .jac 275) (.add (.rd (.arr .jac 275)) (.mul (.num 22902626233248052 18) (.mul (.rd (.var .jTemp)) (.neg (.num 57102223643760053 17))))),
  .set (.arr .jac 285) (.add (.rd (.arr .jac 285)) (.mul (.num 63645824339124468 17) (.mul (.rd (.var .jTemp)) (.neg (.num 57102223643760053 17))))),
  .set (.arr .jac 287) (.add (.rd (.arr .jac 287)) (.mul (.neg (.num 6593608696244927 16)) (.mul (.rd (.var .jTemp)) (.neg (.num 57102223643760053 17))))),
  .set (.arr .jac 296) (.add (.rd (.arr .jac 296)) (.mul (.num 34734585093427126 18) (.add (.mul (.rd (.var .jTemp)) (.neg (.num 35870588016911675 18))) (.mul (.rd (.var .kf)) (.rd (.arr .C 5)))))),
  .set (.arr .jac 306) (.add (.rd (.arr .jac 306)) (.mul (.num 96526541490657281 17) (.add (.mul (.rd (.var .jTemp)) (.neg (.num 35870588016911675 18))) (.mul (.rd (.var .kf)) (.rd (.arr .C 5)))))),
  .set (.arr .jac 308) (.add (.rd (.arr .jac 308)) (.neg (.add (.mul (.rd (.var .jTemp)) (.neg (.num 35870588016911675 18))) (.mul (.rd (.var .kf)) (.rd (.arr .C 5)))))),
  .set (.arr .jac 317) (.add (.rd (.arr .jac 317)) (.mul (.num 33568593911733322 18) (.mul (.rd (.var .jTemp)) (.neg (.num 71851123102163683 18))))),
  .set (.arr .jac 327) (.add (.rd (.arr .jac 327)) (.mul (.num 93286281217653322 17) (.mul (.rd (.var .jTemp)) (.neg (.num 71851123102163683 18))))),
  .set (.arr .jac 329) (.add (.rd (.arr .jac 329)) (.mul (.neg (.num 96643140608826661 17)) (.mul (.rd (.var .jTemp)) (.neg (.num 71851123102163683 18))))),
  .set (.arr .jac 338) (.add (.rd (.arr .jac 338)) (.mul (.num 32478341649959309 18) (.mul (.rd (.var .jTemp)) (.neg (.num 10783165818741525 17))))),
  .set (.arr .jac 348) (.add (.rd (.arr .jac 348)) (.mul (.num 90256497505012201 17) (.mul (.rd (.var .jTemp)) (.neg (.num 10783165818741525 17))))),
  .set (.arr .jac 350) (.add (.rd (.arr .jac 350)) (.mul (.neg (.num 93504331670008145 17)) (.mul (.rd (.var .jTemp)) (.neg (.num 10783165818741525 17))))),
  .set (.arr .jac 359) (.add (.rd (.arr .jac 359)) (.mul (.num 35928873705342888 18) (.mul (.rd (.var .jTemp)) (.neg (.num 14378791924458678 19))))),
  .set (.arr .jac 369) (.add (.rd (.arr .jac 369)) (.mul (.num 99845439613085729 17) (.mul (.rd (.var .jTemp)) (.neg (.num 14378791924458678 19))))),
  .set (.arr .jac 371) (.add (.rd (.arr .jac 371)) (.mul (.neg (.num 10343832698362003 16)) (.mul (.rd (.var .jTemp)) (.neg (.num 14378791924458678 19))))),
  .set (.arr .jac 380) (.add (.rd (.arr .jac 380)) (.mul (.num 3468276115987709 17) (.mul (.rd (.var .jTemp)) (.neg (.num 37418414277697654 18))))),
  .set (.arr .jac 390) (.add (.rd (.arr .jac 390)) (.mul (.num 96382524078082144 17) (.mul (.rd (.var .jTemp)) (.neg (.num 37418414277697654 18))))),
  .set (.arr .jac 392) (.add (.rd (.arr .jac 392)) (.mul (.neg (.num 99850800194069855 17)) (.mul (.rd (.var .jTemp)) (.neg (.num 37418414277697654 18))))),
  .set (.arr .jac 401) (.add (.rd (.arr .jac 401)) (.mul (.num 33520188469166906 18) (.mul (.rd (.var .jTemp)) (.neg (.num 73398949362949439 18))))),
  .set (.arr .jac 411) (.add (.rd (.arr .jac 411)) (.mul (.num 9315176370585081 16) (.mul (.rd (.var .jTemp)) (.neg (.num 73398949362949439 18))))),
  .set (.arr .jac 413) (.add (.rd (.arr .jac 413)) (.mul (.neg (.num 96503782552767503 17)) (.mul (.rd (.var .jTemp)) (.neg (.num 73398949362949439 18))))),
  .set (.arr .jac 422) (.add (.rd (.arr .jac 422)) (.mul (.num 2523130069089817 17) (.mul (.rd (.var .jTemp)) (.neg (.num 42602775520927771 17))))),
  .set (.arr .jac 432) (.add (.rd (.arr .jac 432)) (.mul (.num 70117152297987373 17) (.mul (.rd (.var .jTemp)) (.neg (.num 42602775520927771 17))))),
  .set (.arr .jac 434) (.add (.rd (.arr .jac 434)) (.mul (.neg (.num 72640282367077191 17)) (.mul (.rd (.var .jTemp)) (.neg (.num 42602775520927771 17)))))]

/-- The blocks of `eval_jacob_1`, one per reaction, utilities/mechanisms/drm19/lib/src/jacobs/jacob_1.c:5-3635: derivatives with respect to the temperature and to the mass fractions. -/
def jacob1Blocks : List (List CStmt × List CStmt) := [
  (jacobT40, jacobS40), (jacobT41, jacobS41), (jacobT42, jacobS42), (jacobT43, jacobS43), (jacobT44, jacobS44), (jacobT45, jacobS45), (jacobT46, jacobS46), (jacobT47, jacobS47), (jacobT48, jacobS48), (jacobT49, jacobS49), (jacobT50, jacobS50), (jacobT51, jacobS51), (jacobT52, jacobS52), (jacobT53, jacobS53), (jacobT54, jacobS54), (jacobT55, jacobS55), (jacobT56, jacobS56), (jacobT57, jacobS57), (jacobT58, jacobS58), (jacobT59, jacobS59), (jacobT60, jacobS60), (jacobT61, jacobS61), (jacobT62, jacobS62), (jacobT63, jacobS63), (jacobT64, jacobS64), (jacobT65, jacobS65), (jacobT66, jacobS66), (jacobT67, jacobS67), (jacobT68, jacobS68), (jacobT69, jacobS69), (jacobT70, jacobS70), (jacobT71, jacobS71), (jacobT72, jacobS72), (jacobT73, jacobS73), (jacobT74, jacobS74), (jacobT75, jacobS75), (jacobT76, jacobS76), (jacobT77, jacobS77), (jacobT78, jacobS78), (jacobT79, jacobS79)]

end DLB.Mech.Drm19
