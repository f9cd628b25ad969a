/- Generated by tools/gen_mechanisms.py from utilities/mechanisms/drm19/lib/src/jacobs/jacob_3.c. Do not edit. -/
import Verif.Model.CLang
set_option autoImplicit false

namespace DLB.Mech.Drm19
open DLB

/-- utilities/mechanisms/drm19/lib/src/jacobs/jacob_3.c:4-6 -/
def jacobEndStart : List CStmt := [
  .set (.var .rhoInv) (.div (.num 1 0) (.rd (.var .rho))),
  .set (.var .workTemp) (.div (.num 1 0) (.rd (.var .cpAvg))),
  .set (.var .jTemp) (.div (.num 1 0) (.mul (.mul (.rd (.var .rho)) (.rd (.var .cpAvg))) (.rd (.var .cpAvg))))]

/-- utilities/mechanisms/drm19/lib/src/jacobs/jacob_3.c:7-46 -/
def jacobEnd0 : List CStmt := [
  .set (.arr .jac 22) (.add (.rd (.arr .jac 22)) (.mul (.mul (.mul (.rd (.arr .spRates 0)) (.rd (.var .mwAvg))) (.num 92803892982949643 17)) (.rd (.var .rhoInv)))),
  .set (.arr .jac 21) (.neg (.mul (.rd (.arr .h 0)) (.sub (.mul (.rd (.var .workTemp)) (.rd (.arr .jac 22))) (.mul (.mul (.mul (.rd (.var .jTemp)) (.sub (.rd (.arr .cp 0)) (.rd (.arr .cp 20)))) (.rd (.arr .spRates 0))) (.num 201588 5))))),
  .set (.arr .jac 43) (.add (.rd (.arr .jac 43)) (.mul (.mul (.mul (.rd (.arr .spRates 0)) (.rd (.var .mwAvg))) (.num 19280389298294964 16)) (.rd (.var .rhoInv)))),
  .set (.arr .jac 42) (.neg (.mul (.rd (.arr .h 0)) (.sub (.mul (.rd (.var .workTemp)) (.rd (.arr .jac 43))) (.mul (.mul (.mul (.rd (.var .jTemp)) (.sub (.rd (.arr .cp 1)) (.rd (.arr .cp 20)))) (.rd (.arr .spRates 0))) (.num 201588 5))))),
  .set (.arr .jac 64) (.add (.rd (.arr .jac 64)) (.mul (.mul (.mul (.rd (.arr .spRates 0)) (.rd (.var .mwAvg))) (.num 54036154725429976 18)) (.rd (.var .rhoInv)))),
  .set (.arr .jac 63) (.neg (.mul (.rd (.arr .h 0)) (.sub (.mul (.rd (.var .workTemp)) (.rd (.arr .jac 64))) (.mul (.mul (.mul (.rd (.var .jTemp)) (.sub (.rd (.arr .cp 2)) (.rd (.arr .cp 20)))) (.rd (.arr .spRates 0))) (.num 201588 5))))),
  .set (.arr .jac 85) (.add (.rd (.arr .jac 85)) (.mul (.mul (.mul (.rd (.arr .spRates 0)) (.rd (.var .mwAvg))) (.neg (.num 89624577225368204 19))) (.rd (.var .rhoInv)))),
  .set (.arr .jac 84) (.neg (.mul (.rd (.arr .h 0)) (.sub (.mul (.rd (.var .workTemp)) (.rd (.arr .jac 85))) (.mul (.mul (.mul (.rd (.var .jTemp)) (.sub (.rd (.arr .cp 3)) (.rd (.arr .cp 20)))) (.rd (.arr .spRates 0))) (.num 201588 5))))),
  .set (.arr .jac 106) (.add (.rd (.arr .jac 106)) (.mul (.mul (.mul (.rd (.arr .spRates 0)) (.rd (.var .mwAvg))) (.num 46568929229755335 18)) (.rd (.var .rhoInv)))),
  .set (.arr .jac 105) (.neg (.mul (.rd (.arr .h 0)) (.sub (.mul (.rd (.var .workTemp)) (.rd (.arr .jac 106))) (.mul (.mul (.mul (.rd (.var .jTemp)) (.sub (.rd (.arr .cp 4)) (.rd (.arr .cp 20)))) (.rd (.arr .spRates 0))) (.num 201588 5))))),
  .set (.arr .jac 127) (.add (.rd (.arr .jac 127)) (.mul (.mul (.mul (.rd (.arr .spRates 0)) (.rd (.var .mwAvg))) (.num 39937273901861609 18)) (.rd (.var .rhoInv)))),
  .set (.arr .jac 126) (.neg (.mul (.rd (.arr .h 0)) (.sub (.mul (.rd (.var .workTemp)) (.rd (.arr .jac 127))) (.mul (.mul (.mul (.rd (.var .jTemp)) (.sub (.rd (.arr .cp 5)) (.rd (.arr .cp 20)))) (.rd (.arr .spRates 0))) (.num 201588 5))))),
  .set (.arr .jac 148) (.add (.rd (.arr .jac 148)) (.mul (.mul (.mul (.rd (.arr .spRates 0)) (.rd (.var .mwAvg))) (.neg (.num 10886271508169818 18))) (.rd (.var .rhoInv)))),
  .set (.arr .jac 147) (.neg (.mul (.rd (.arr .h 0)) (.sub (.mul (.rd (.var .workTemp)) (.rd (.arr .jac 148))) (.mul (.mul (.mul (.rd (.var .jTemp)) (.sub (.rd (.arr .cp 6)) (.rd (.arr .cp 20)))) (.rd (.arr .spRates 0))) (.num 201588 5))))),
  .set (.arr .jac 169) (.add (.rd (.arr .jac 169)) (.mul (.mul (.mul (.rd (.arr .spRates 0)) (.rd (.var .mwAvg))) (.num 71754424650867926 18)) (.rd (.var .rhoInv)))),
  .set (.arr .jac 168) (.neg (.mul (.rd (.arr .h 0)) (.sub (.mul (.rd (.var .workTemp)) (.rd (.arr .jac 169))) (.mul (.mul (.mul (.rd (.var .jTemp)) (.sub (.rd (.arr .cp 7)) (.rd (.arr .cp 20)))) (.rd (.arr .spRates 0))) (.num 201588 5))))),
  .set (.arr .jac 190) (.add (.rd (.arr .jac 190)) (.mul (.mul (.mul (.rd (.arr .spRates 0)) (.rd (.var .mwAvg))) (.num 71754424650867926 18)) (.rd (.var .rhoInv)))),
  .set (.arr .jac 189) (.neg (.mul (.rd (.arr .h 0)) (.sub (.mul (.rd (.var .workTemp)) (.rd (.arr .jac 190))) (.mul (.mul (.mul (.rd (.var .jTemp)) (.sub (.rd (.arr .cp 8)) (.rd (.arr .cp 20)))) (.rd (.arr .spRates 0))) (.num 201588 5))))),
  .set (.arr .jac 211) (.add (.rd (.arr .jac 211)) (.mul (.mul (.mul (.rd (.arr .spRates 0)) (.rd (.var .mwAvg))) (.num 62119683706164004 18)) (.rd (.var .rhoInv)))),
  .set (.arr .jac 210) (.neg (.mul (.rd (.arr .h 0)) (.sub (.mul (.rd (.var .workTemp)) (.rd (.arr .jac 211))) (.mul (.mul (.mul (.rd (.var .jTemp)) (.sub (.rd (.arr .cp 9)) (.rd (.arr .cp 20)))) (.rd (.arr .spRates 0))) (.num 201588 5))))),
  .set (.arr .jac 232) (.add (.rd (.arr .jac 232)) (.mul (.mul (.mul (.rd (.arr .spRates 0)) (.rd (.var .mwAvg))) (.num 53695612345472425 18)) (.rd (.var .rhoInv)))),
  .set (.arr .jac 231) (.neg (.mul (.rd (.arr .h 0)) (.sub (.mul (.rd (.var .workTemp)) (.rd (.arr .jac 232))) (.mul (.mul (.mul (.rd (.var .jTemp)) (.sub (.rd (.arr .cp 10)) (.rd (.arr .cp 20)))) (.rd (.arr .spRates 0))) (.num 201588 5))))),
  .set (.arr .jac 253) (.add (.rd (.arr .jac 253)) (.mul (.mul (.mul (.rd (.arr .spRates 0)) (.rd (.var .mwAvg))) (.num 79127786866828727 22)) (.rd (.var .rhoInv)))),
  .set (.arr .jac 252) (.neg (.mul (.rd (.arr .h 0)) (.sub (.mul (.rd (.var .workTemp)) (.rd (.arr .jac 253))) (.mul (.mul (.mul (.rd (.var .jTemp)) (.sub (.rd (.arr .cp 11)) (.rd (.arr .cp 20)))) (.rd (.arr .spRates 0))) (.num 201588 5))))),
  .set (.arr .jac 274) (.add (.rd (.arr .jac 274)) (.mul (.mul (.mul (.rd (.arr .spRates 0)) (.rd (.var .mwAvg))) (.neg (.num 26155817704007524 18))) (.rd (.var .rhoInv)))),
  .set (.arr .jac 273) (.neg (.mul (.rd (.arr .h 0)) (.sub (.mul (.rd (.var .workTemp)) (.rd (.arr .jac 274))) (.mul (.mul (.mul (.rd (.var .jTemp)) (.sub (.rd (.arr .cp 12)) (.rd (.arr .cp 20)))) (.rd (.arr .spRates 0))) (.num 201588 5))))),
  .set (.arr .jac 295) (.add (.rd (.arr .jac 295)) (.mul (.mul (.mul (.rd (.arr .spRates 0)) (.rd (.var .mwAvg))) (.neg (.num 24918999836493717 19))) (.rd (.var .rhoInv)))),
  .set (.arr .jac 294) (.neg (.mul (.rd (.arr .h 0)) (.sub (.mul (.rd (.var .workTemp)) (.rd (.arr .jac 295))) (.mul (.mul (.mul (.rd (.var .jTemp)) (.sub (.rd (.arr .cp 13)) (.rd (.arr .cp 20)))) (.rd (.arr .spRates 0))) (.num 201588 5))))),
  .set (.arr .jac 316) (.add (.rd (.arr .jac 316)) (.mul (.mul (.mul (.rd (.arr .spRates 0)) (.rd (.var .mwAvg))) (.neg (.num 48238823470369866 19))) (.rd (.var .rhoInv)))),
  .set (.arr .jac 315) (.neg (.mul (.rd (.arr .h 0)) (.sub (.mul (.rd (.var .workTemp)) (.rd (.arr .jac 316))) (.mul (.mul (.mul (.rd (.var .jTemp)) (.sub (.rd (.arr .cp 14)) (.rd (.arr .cp 20)))) (.rd (.arr .spRates 0))) (.num 201588 5))))),
  .set (.arr .jac 337) (.add (.rd (.arr .jac 337)) (.mul (.mul (.mul (.rd (.arr .spRates 0)) (.rd (.var .mwAvg))) (.neg (.num 70043868705850091 19))) (.rd (.var .rhoInv)))),
  .set (.arr .jac 336) (.neg (.mul (.rd (.arr .h 0)) (.sub (.mul (.rd (.var .workTemp)) (.rd (.arr .jac 337))) (.mul (.mul (.mul (.rd (.var .jTemp)) (.sub (.rd (.arr .cp 15)) (.rd (.arr .cp 20)))) (.rd (.arr .spRates 0))) (.num 201588 5))))),
  .set (.arr .jac 358) (.add (.rd (.arr .jac 358)) (.mul (.mul (.mul (.rd (.arr .spRates 0)) (.rd (.var .mwAvg))) (.neg (.num 10332275981785601 20))) (.rd (.var .rhoInv)))),
  .set (.arr .jac 357) (.neg (.mul (.rd (.arr .h 0)) (.sub (.mul (.rd (.var .workTemp)) (.rd (.arr .jac 358))) (.mul (.mul (.mul (.rd (.var .jTemp)) (.sub (.rd (.arr .cp 16)) (.rd (.arr .cp 20)))) (.rd (.arr .spRates 0))) (.num 201588 5))))),
  .set (.arr .jac 379) (.add (.rd (.arr .jac 379)) (.mul (.mul (.mul (.rd (.arr .spRates 0)) (.rd (.var .mwAvg))) (.neg (.num 2595547850749445 18))) (.rd (.var .rhoInv)))),
  .set (.arr .jac 378) (.neg (.mul (.rd (.arr .h 0)) (.sub (.mul (.rd (.var .workTemp)) (.rd (.arr .jac 379))) (.mul (.mul (.mul (.rd (.var .jTemp)) (.sub (.rd (.arr .cp 17)) (.rd (.arr .cp 20)))) (.rd (.arr .spRates 0))) (.num 201588 5))))),
  .set (.arr .jac 400) (.add (.rd (.arr .jac 400)) (.mul (.mul (.mul (.rd (.arr .spRates 0)) (.rd (.var .mwAvg))) (.neg (.num 49206932321698071 19))) (.rd (.var .rhoInv)))),
  .set (.arr .jac 399) (.neg (.mul (.rd (.arr .h 0)) (.sub (.mul (.rd (.var .workTemp)) (.rd (.arr .jac 400))) (.mul (.mul (.mul (.rd (.var .jTemp)) (.sub (.rd (.arr .cp 18)) (.rd (.arr .cp 20)))) (.rd (.arr .spRates 0))) (.num 201588 5))))),
  .set (.arr .jac 421) (.add (.rd (.arr .jac 421)) (.mul (.mul (.mul (.rd (.arr .spRates 0)) (.rd (.var .mwAvg))) (.neg (.num 2149846878870729 17))) (.rd (.var .rhoInv)))),
  .set (.arr .jac 420) (.neg (.mul (.rd (.arr .h 0)) (.sub (.mul (.rd (.var .workTemp)) (.rd (.arr .jac 421))) (.mul (.mul (.mul (.rd (.var .jTemp)) (.sub (.rd (.arr .cp 19)) (.rd (.arr .cp 20)))) (.rd (.arr .spRates 0))) (.num 201588 5)))))]

/-- utilities/mechanisms/drm19/lib/src/jacobs/jacob_3.c:47-86 -/
def jacobEnd1 : List CStmt := [
  .set (.arr .jac 23) (.add (.rd (.arr .jac 23)) (.mul (.mul (.mul (.rd (.arr .spRates 1)) (.rd (.var .mwAvg))) (.num 46401946491474821 17)) (.rd (.var .rhoInv)))),
  .set (.arr .jac 21) (.sub (.rd (.arr .jac 21)) (.mul (.rd (.arr .h 1)) (.sub (.mul (.rd (.var .workTemp)) (.rd (.arr .jac 23))) (.mul (.mul (.mul (.rd (.var .jTemp)) (.sub (.rd (.arr .cp 0)) (.rd (.arr .cp 20)))) (.rd (.arr .spRates 1))) (.num 100794 5))))),
  .set (.arr .jac 44) (.add (.rd (.arr .jac 44)) (.mul (.mul (.mul (.rd (.arr .spRates 1)) (.rd (.var .mwAvg))) (.num 96401946491474821 17)) (.rd (.var .rhoInv)))),
  .set (.arr .jac 42) (.sub (.rd (.arr .jac 42)) (.mul (.rd (.arr .h 1)) (.sub (.mul (.rd (.var .workTemp)) (.rd (.arr .jac 44))) (.mul (.mul (.mul (.rd (.var .jTemp)) (.sub (.rd (.arr .cp 1)) (.rd (.arr .cp 20)))) (.rd (.arr .spRates 1))) (.num 100794 5))))),
  .set (.arr .jac 65) (.add (.rd (.arr .jac 65)) (.mul (.mul (.mul (.rd (.arr .spRates 1)) (.rd (.var .mwAvg))) (.num 27018077362714988 18)) (.rd (.var .rhoInv)))),
  .set (.arr .jac 63) (.sub (.rd (.arr .jac 63)) (.mul (.rd (.arr .h 1)) (.sub (.mul (.rd (.var .workTemp)) (.rd (.arr .jac 65))) (.mul (.mul (.mul (.rd (.var .jTemp)) (.sub (.rd (.arr .cp 2)) (.rd (.arr .cp 20)))) (.rd (.arr .spRates 1))) (.num 100794 5))))),
  .set (.arr .jac 86) (.add (.rd (.arr .jac 86)) (.mul (.mul (.mul (.rd (.arr .spRates 1)) (.rd (.var .mwAvg))) (.neg (.num 44812288612684102 19))) (.rd (.var .rhoInv)))),
  .set (.arr .jac 84) (.sub (.rd (.arr .jac 84)) (.mul (.rd (.arr .h 1)) (.sub (.mul (.rd (.var .workTemp)) (.rd (.arr .jac 86))) (.mul (.mul (.mul (.rd (.var .jTemp)) (.sub (.rd (.arr .cp 3)) (.rd (.arr .cp 20)))) (.rd (.arr .spRates 1))) (.num 100794 5))))),
  .set (.arr .jac 107) (.add (.rd (.arr .jac 107)) (.mul (.mul (.mul (.rd (.arr .spRates 1)) (.rd (.var .mwAvg))) (.num 23284464614877667 18)) (.rd (.var .rhoInv)))),
  .set (.arr .jac 105) (.sub (.rd (.arr .jac 105)) (.mul (.rd (.arr .h 1)) (.sub (.mul (.rd (.var .workTemp)) (.rd (.arr .jac 107))) (.mul (.mul (.mul (.rd (.var .jTemp)) (.sub (.rd (.arr .cp 4)) (.rd (.arr .cp 20)))) (.rd (.arr .spRates 1))) (.num 100794 5))))),
  .set (.arr .jac 128) (.add (.rd (.arr .jac 128)) (.mul (.mul (.mul (.rd (.arr .spRates 1)) (.rd (.var .mwAvg))) (.num 19968636950930804 18)) (.rd (.var .rhoInv)))),
  .set (.arr .jac 126) (.sub (.rd (.arr .jac 126)) (.mul (.rd (.arr .h 1)) (.sub (.mul (.rd (.var .workTemp)) (.rd (.arr .jac 128))) (.mul (.mul (.mul (.rd (.var .jTemp)) (.sub (.rd (.arr .cp 5)) (.rd (.arr .cp 20)))) (.rd (.arr .spRates 1))) (.num 100794 5))))),
  .set (.arr .jac 149) (.add (.rd (.arr .jac 149)) (.mul (.mul (.mul (.rd (.arr .spRates 1)) (.rd (.var .mwAvg))) (.neg (.num 54431357540849091 19))) (.rd (.var .rhoInv)))),
  .set (.arr .jac 147) (.sub (.rd (.arr .jac 147)) (.mul (.rd (.arr .h 1)) (.sub (.mul (.rd (.var .workTemp)) (.rd (.arr .jac 149))) (.mul (.mul (.mul (.rd (.var .jTemp)) (.sub (.rd (.arr .cp 6)) (.rd (.arr .cp 20)))) (.rd (.arr .spRates 1))) (.num 100794 5))))),
  .set (.arr .jac 170) (.add (.rd (.arr .jac 170)) (.mul (.mul (.mul (.rd (.arr .spRates 1)) (.rd (.var .mwAvg))) (.num 35877212325433963 18)) (.rd (.var .rhoInv)))),
  .set (.arr .jac 168) (.sub (.rd (.arr .jac 168)) (.mul (.rd (.arr .h 1)) (.sub (.mul (.rd (.var .workTemp)) (.rd (.arr .jac 170))) (.mul (.mul (.mul (.rd (.var .jTemp)) (.sub (.rd (.arr .cp 7)) (.rd (.arr .cp 20)))) (.rd (.arr .spRates 1))) (.num 100794 5))))),
  .set (.arr .jac 191) (.add (.rd (.arr .jac 191)) (.mul (.mul (.mul (.rd (.arr .spRates 1)) (.rd (.var .mwAvg))) (.num 35877212325433963 18)) (.rd (.var .rhoInv)))),
  .set (.arr .jac 189) (.sub (.rd (.arr .jac 189)) (.mul (.rd (.arr .h 1)) (.sub (.mul (.rd (.var .workTemp)) (.rd (.arr .jac 191))) (.mul (.mul (.mul (.rd (.var .jTemp)) (.sub (.rd (.arr .cp 8)) (.rd (.arr .cp 20)))) (.rd (.arr .spRates 1))) (.num 100794 5))))),
  .set (.arr .jac 212) (.add (.rd (.arr .jac 212)) (.mul (.mul (.mul (.rd (.arr .spRates 1)) (.rd (.var .mwAvg))) (.num 31059841853082002 18)) (.rd (.var .rhoInv)))),
  .set (.arr .jac 210) (.sub (.rd (.arr .jac 210)) (.mul (.rd (.arr .h 1)) (.sub (.mul (.rd (.var .workTemp)) (.rd (.arr .jac 212))) (.mul (.mul (.mul (.rd (.var .jTemp)) (.sub (.rd (.arr .cp 9)) (.rd (.arr .cp 20)))) (.rd (.arr .spRates 1))) (.num 100794 5))))),
  .set (.arr .jac 233) (.add (.rd (.arr .jac 233)) (.mul (.mul (.mul (.rd (.arr .spRates 1)) (.rd (.var .mwAvg))) (.num 26847806172736213 18)) (.rd (.var .rhoInv)))),
  .set (.arr .jac 231) (.sub (.rd (.arr .jac 231)) (.mul (.rd (.arr .h 1)) (.sub (.mul (.rd (.var .workTemp)) (.rd (.arr .jac 233))) (.mul (.mul (.mul (.rd (.var .jTemp)) (.sub (.rd (.arr .cp 10)) (.rd (.arr .cp 20)))) (.rd (.arr .spRates 1))) (.num 100794 5))))),
  .set (.arr .jac 254) (.add (.rd (.arr .jac 254)) (.mul (.mul (.mul (.rd (.arr .spRates 1)) (.rd (.var .mwAvg))) (.num 39563893433414364 22)) (.rd (.var .rhoInv)))),
  .set (.arr .jac 252) (.sub (.rd (.arr .jac 252)) (.mul (.rd (.arr .h 1)) (.sub (.mul (.rd (.var .workTemp)) (.rd (.arr .jac 254))) (.mul (.mul (.mul (.rd (.var .jTemp)) (.sub (.rd (.arr .cp 11)) (.rd (.arr .cp 20)))) (.rd (.arr .spRates 1))) (.num 100794 5))))),
  .set (.arr .jac 275) (.add (.rd (.arr .jac 275)) (.mul (.mul (.mul (.rd (.arr .spRates 1)) (.rd (.var .mwAvg))) (.neg (.num 13077908852003762 18))) (.rd (.var .rhoInv)))),
  .set (.arr .jac 273) (.sub (.rd (.arr .jac 273)) (.mul (.rd (.arr .h 1)) (.sub (.mul (.rd (.var .workTemp)) (.rd (.arr .jac 275))) (.mul (.mul (.mul (.rd (.var .jTemp)) (.sub (.rd (.arr .cp 12)) (.rd (.arr .cp 20)))) (.rd (.arr .spRates 1))) (.num 100794 5))))),
  .set (.arr .jac 296) (.add (.rd (.arr .jac 296)) (.mul (.mul (.mul (.rd (.arr .spRates 1)) (.rd (.var .mwAvg))) (.neg (.num 12459499918246859 19))) (.rd (.var .rhoInv)))),
  .set (.arr .jac 294) (.sub (.rd (.arr .jac 294)) (.mul (.rd (.arr .h 1)) (.sub (.mul (.rd (.var .workTemp)) (.rd (.arr .jac 296))) (.mul (.mul (.mul (.rd (.var .jTemp)) (.sub (.rd (.arr .cp 13)) (.rd (.arr .cp 20)))) (.rd (.arr .spRates 1))) (.num 100794 5))))),
  .set (.arr .jac 317) (.add (.rd (.arr .jac 317)) (.mul (.mul (.mul (.rd (.arr .spRates 1)) (.rd (.var .mwAvg))) (.neg (.num 24119411735184933 19))) (.rd (.var .rhoInv)))),
  .set (.arr .jac 315) (.sub (.rd (.arr .jac 315)) (.mul (.rd (.arr .h 1)) (.sub (.mul (.rd (.var .workTemp)) (.rd (.arr .jac 317))) (.mul (.mul (.mul (.rd (.var .jTemp)) (.sub (.rd (.arr .cp 14)) (.rd (.arr .cp 20)))) (.rd (.arr .spRates 1))) (.num 100794 5))))),
  .set (.arr .jac 338) (.add (.rd (.arr .jac 338)) (.mul (.mul (.mul (.rd (.arr .spRates 1)) (.rd (.var .mwAvg))) (.neg (.num 35021934352925045 19))) (.rd (.var .rhoInv)))),
  .set (.arr .jac 336) (.sub (.rd (.arr .jac 336)) (.mul (.rd (.arr .h 1)) (.sub (.mul (.rd (.var .workTemp)) (.rd (.arr .jac 338))) (.mul (.mul (.mul (.rd (.var .jTemp)) (.sub (.rd (.arr .cp 15)) (.rd (.arr .cp 20)))) (.rd (.arr .spRates 1))) (.num 100794 5))))),
  .set (.arr .jac 359) (.add (.rd (.arr .jac 359)) (.mul (.mul (.mul (.rd (.arr .spRates 1)) (.rd (.var .mwAvg))) (.neg (.num 51661379908928005 21))) (.rd (.var .rhoInv)))),
  .set (.arr .jac 357) (.sub (.rd (.arr .jac 357)) (.mul (.rd (.arr .h 1)) (.sub (.mul (.rd (.var .workTemp)) (.rd (.arr .jac 359))) (.mul (.mul (.mul (.rd (.var .jTemp)) (.sub (.rd (.arr .cp 16)) (.rd (.arr .cp 20)))) (.rd (.arr .spRates 1))) (.num 100794 5))))),
  .set (.arr .jac 380) (.add (.rd (.arr .jac 380)) (.mul (.mul (.mul (.rd (.arr .spRates 1)) (.rd (.var .mwAvg))) (.neg (.num 12977739253747225 19))) (.rd (.var .rhoInv)))),
  .set (.arr .jac 378) (.sub (.rd (.arr .jac 378)) (.mul (.rd (.arr .h 1)) (.sub (.mul (.rd (.var .workTemp)) (.rd (.arr .jac 380))) (.mul (.mul (.mul (.rd (.var .jTemp)) (.sub (.rd (.arr .cp 17)) (.rd (.arr .cp 20)))) (.rd (.arr .spRates 1))) (.num 100794 5))))),
  .set (.arr .jac 401) (.add (.rd (.arr .jac 401)) (.mul (.mul (.mul (.rd (.arr .spRates 1)) (.rd (.var .mwAvg))) (.neg (.num 24603466160849036 19))) (.rd (.var .rhoInv)))),
  .set (.arr .jac 399) (.sub (.rd (.arr .jac 399)) (.mul (.rd (.arr .h 1)) (.sub (.mul (.rd (.var .workTemp)) (.rd (.arr .jac 401))) (.mul (.mul (.mul (.rd (.var .jTemp)) (.sub (.rd (.arr .cp 18)) (.rd (.arr .cp 20)))) (.rd (.arr .spRates 1))) (.num 100794 5))))),
  .set (.arr .jac 422) (.add (.rd (.arr .jac 422)) (.mul (.mul (.mul (.rd (.arr .spRates 1)) (.rd (.var .mwAvg))) (.neg (.num 10749234394353645 18))) (.rd (.var .rhoInv)))),
  .set (.arr .jac 420) (.sub (.rd (.arr .jac 420)) (.mul (.rd (.arr .h 1)) (.sub (.mul (.rd (.var .workTemp)) (.rd (.arr .jac 422))) (.mul (.mul (.mul (.rd (.var .jTemp)) (.sub (.rd (.arr .cp 19)) (.rd (.arr .cp 20)))) (.rd (.arr .spRates 1))) (.num 100794 5)))))]

/-- utilities/mechanisms/drm19/lib/src/jacobs/jacob_3.c:87-126 -/
def jacobEnd2 : List CStmt := [
  .set (.arr .jac 24) (.add (.rd (.arr .jac 24)) (.mul (.mul (.mul (.rd (.arr .spRates 2)) (.rd (.var .mwAvg))) (.num 73655505555459868 16)) (.rd (.var .rhoInv)))),
  .set (.arr .jac 21) (.sub (.rd (.arr .jac 21)) (.mul (.rd (.arr .h 2)) (.sub (.mul (.rd (.var .workTemp)) (.rd (.arr .jac 24))) (.mul (.mul (.mul (.rd (.var .jTemp)) (.sub (.rd (.arr .cp 0)) (.rd (.arr .cp 20)))) (.rd (.arr .spRates 2))) (.num 159994 4))))),
  .set (.arr .jac 45) (.add (.rd (.arr .jac 45)) (.mul (.mul (.mul (.rd (.arr .spRates 2)) (.rd (.var .mwAvg))) (.num 15302233294597915 15)) (.rd (.var .rhoInv)))),
  .set (.arr .jac 42) (.sub (.rd (.arr .jac 42)) (.mul (.rd (.arr .h 2)) (.sub (.mul (.rd (.var .workTemp)) (.rd (.arr .jac 45))) (.mul (.mul (.mul (.rd (.var .jTemp)) (.sub (.rd (.arr .cp 1)) (.rd (.arr .cp 20)))) (.rd (.arr .spRates 2))) (.num 159994 4))))),
  .set (.arr .jac 66) (.add (.rd (.arr .jac 66)) (.mul (.mul (.mul (.rd (.arr .spRates 2)) (.rd (.var .mwAvg))) (.num 42886781649405936 17)) (.rd (.var .rhoInv)))),
  .set (.arr .jac 63) (.sub (.rd (.arr .jac 63)) (.mul (.rd (.arr .h 2)) (.sub (.mul (.rd (.var .workTemp)) (.rd (.arr .jac 66))) (.mul (.mul (.mul (.rd (.var .jTemp)) (.sub (.rd (.arr .cp 2)) (.rd (.arr .cp 20)))) (.rd (.arr .spRates 2))) (.num 159994 4))))),
  .set (.arr .jac 87) (.add (.rd (.arr .jac 87)) (.mul (.mul (.mul (.rd (.arr .spRates 2)) (.rd (.var .mwAvg))) (.neg (.num 71132183505940638 18))) (.rd (.var .rhoInv)))),
  .set (.arr .jac 84) (.sub (.rd (.arr .jac 84)) (.mul (.rd (.arr .h 2)) (.sub (.mul (.rd (.var .workTemp)) (.rd (.arr .jac 87))) (.mul (.mul (.mul (.rd (.var .jTemp)) (.sub (.rd (.arr .cp 3)) (.rd (.arr .cp 20)))) (.rd (.arr .spRates 2))) (.num 159994 4))))),
  .set (.arr .jac 108) (.add (.rd (.arr .jac 108)) (.mul (.mul (.mul (.rd (.arr .spRates 2)) (.rd (.var .mwAvg))) (.num 36960281679392992 17)) (.rd (.var .rhoInv)))),
  .set (.arr .jac 105) (.sub (.rd (.arr .jac 105)) (.mul (.rd (.arr .h 2)) (.sub (.mul (.rd (.var .workTemp)) (.rd (.arr .jac 108))) (.mul (.mul (.mul (.rd (.var .jTemp)) (.sub (.rd (.arr .cp 4)) (.rd (.arr .cp 20)))) (.rd (.arr .spRates 2))) (.num 159994 4))))),
  .set (.arr .jac 129) (.add (.rd (.arr .jac 129)) (.mul (.mul (.mul (.rd (.arr .spRates 2)) (.rd (.var .mwAvg))) (.num 31696947242169404 17)) (.rd (.var .rhoInv)))),
  .set (.arr .jac 126) (.sub (.rd (.arr .jac 126)) (.mul (.rd (.arr .h 2)) (.sub (.mul (.rd (.var .workTemp)) (.rd (.arr .jac 129))) (.mul (.mul (.mul (.rd (.var .jTemp)) (.sub (.rd (.arr .cp 5)) (.rd (.arr .cp 20)))) (.rd (.arr .spRates 2))) (.num 159994 4))))),
  .set (.arr .jac 150) (.add (.rd (.arr .jac 150)) (.mul (.mul (.mul (.rd (.arr .spRates 2)) (.rd (.var .mwAvg))) (.neg (.num 86400883171524182 18))) (.rd (.var .rhoInv)))),
  .set (.arr .jac 147) (.sub (.rd (.arr .jac 147)) (.mul (.rd (.arr .h 2)) (.sub (.mul (.rd (.var .workTemp)) (.rd (.arr .jac 150))) (.mul (.mul (.mul (.rd (.var .jTemp)) (.sub (.rd (.arr .cp 6)) (.rd (.arr .cp 20)))) (.rd (.arr .spRates 2))) (.num 159994 4))))),
  .set (.arr .jac 171) (.add (.rd (.arr .jac 171)) (.mul (.mul (.mul (.rd (.arr .spRates 2)) (.rd (.var .mwAvg))) (.num 56949210357714553 17)) (.rd (.var .rhoInv)))),
  .set (.arr .jac 168) (.sub (.rd (.arr .jac 168)) (.mul (.rd (.arr .h 2)) (.sub (.mul (.rd (.var .workTemp)) (.rd (.arr .jac 171))) (.mul (.mul (.mul (.rd (.var .jTemp)) (.sub (.rd (.arr .cp 7)) (.rd (.arr .cp 20)))) (.rd (.arr .spRates 2))) (.num 159994 4))))),
  .set (.arr .jac 192) (.add (.rd (.arr .jac 192)) (.mul (.mul (.mul (.rd (.arr .spRates 2)) (.rd (.var .mwAvg))) (.num 56949210357714553 17)) (.rd (.var .rhoInv)))),
  .set (.arr .jac 189) (.sub (.rd (.arr .jac 189)) (.mul (.rd (.arr .h 2)) (.sub (.mul (.rd (.var .workTemp)) (.rd (.arr .jac 192))) (.mul (.mul (.mul (.rd (.var .jTemp)) (.sub (.rd (.arr .cp 8)) (.rd (.arr .cp 20)))) (.rd (.arr .spRates 2))) (.num 159994 4))))),
  .set (.arr .jac 213) (.add (.rd (.arr .jac 213)) (.mul (.mul (.mul (.rd (.arr .spRates 2)) (.rd (.var .mwAvg))) (.num 49302422142607716 17)) (.rd (.var .rhoInv)))),
  .set (.arr .jac 210) (.sub (.rd (.arr .jac 210)) (.mul (.rd (.arr .h 2)) (.sub (.mul (.rd (.var .workTemp)) (.rd (.arr .jac 213))) (.mul (.mul (.mul (.rd (.var .jTemp)) (.sub (.rd (.arr .cp 9)) (.rd (.arr .cp 20)))) (.rd (.arr .spRates 2))) (.num 159994 4))))),
  .set (.arr .jac 234) (.add (.rd (.arr .jac 234)) (.mul (.mul (.mul (.rd (.arr .spRates 2)) (.rd (.var .mwAvg))) (.num 42616503966513453 17)) (.rd (.var .rhoInv)))),
  .set (.arr .jac 231) (.sub (.rd (.arr .jac 231)) (.mul (.rd (.arr .h 2)) (.sub (.mul (.rd (.var .workTemp)) (.rd (.arr .jac 234))) (.mul (.mul (.mul (.rd (.var .jTemp)) (.sub (.rd (.arr .cp 10)) (.rd (.arr .cp 20)))) (.rd (.arr .spRates 2))) (.num 159994 4))))),
  .set (.arr .jac 255) (.add (.rd (.arr .jac 255)) (.mul (.mul (.mul (.rd (.arr .spRates 2)) (.rd (.var .mwAvg))) (.num 62801214020533931 21)) (.rd (.var .rhoInv)))),
  .set (.arr .jac 252) (.sub (.rd (.arr .jac 252)) (.mul (.rd (.arr .h 2)) (.sub (.mul (.rd (.var .workTemp)) (.rd (.arr .jac 255))) (.mul (.mul (.mul (.rd (.var .jTemp)) (.sub (.rd (.arr .cp 11)) (.rd (.arr .cp 20)))) (.rd (.arr .spRates 2))) (.num 159994 4))))),
  .set (.arr .jac 276) (.add (.rd (.arr .jac 276)) (.mul (.mul (.mul (.rd (.arr .spRates 2)) (.rd (.var .mwAvg))) (.neg (.num 20759042689718529 17))) (.rd (.var .rhoInv)))),
  .set (.arr .jac 273) (.sub (.rd (.arr .jac 273)) (.mul (.rd (.arr .h 2)) (.sub (.mul (.rd (.var .workTemp)) (.rd (.arr .jac 276))) (.mul (.mul (.mul (.rd (.var .jTemp)) (.sub (.rd (.arr .cp 12)) (.rd (.arr .cp 20)))) (.rd (.arr .spRates 2))) (.num 159994 4))))),
  .set (.arr .jac 297) (.add (.rd (.arr .jac 297)) (.mul (.mul (.mul (.rd (.arr .spRates 2)) (.rd (.var .mwAvg))) (.neg (.num 19777419587673751 18))) (.rd (.var .rhoInv)))),
  .set (.arr .jac 294) (.sub (.rd (.arr .jac 294)) (.mul (.rd (.arr .h 2)) (.sub (.mul (.rd (.var .workTemp)) (.rd (.arr .jac 297))) (.mul (.mul (.mul (.rd (.var .jTemp)) (.sub (.rd (.arr .cp 13)) (.rd (.arr .cp 20)))) (.rd (.arr .spRates 2))) (.num 159994 4))))),
  .set (.arr .jac 318) (.add (.rd (.arr .jac 318)) (.mul (.mul (.mul (.rd (.arr .spRates 2)) (.rd (.var .mwAvg))) (.neg (.num 38285623758945744 18))) (.rd (.var .rhoInv)))),
  .set (.arr .jac 315) (.sub (.rd (.arr .jac 315)) (.mul (.rd (.arr .h 2)) (.sub (.mul (.rd (.var .workTemp)) (.rd (.arr .jac 318))) (.mul (.mul (.mul (.rd (.var .jTemp)) (.sub (.rd (.arr .cp 14)) (.rd (.arr .cp 20)))) (.rd (.arr .spRates 2))) (.num 159994 4))))),
  .set (.arr .jac 339) (.add (.rd (.arr .jac 339)) (.mul (.mul (.mul (.rd (.arr .spRates 2)) (.rd (.var .mwAvg))) (.neg (.num 55591596373413973 18))) (.rd (.var .rhoInv)))),
  .set (.arr .jac 336) (.sub (.rd (.arr .jac 336)) (.mul (.rd (.arr .h 2)) (.sub (.mul (.rd (.var .workTemp)) (.rd (.arr .jac 339))) (.mul (.mul (.mul (.rd (.var .jTemp)) (.sub (.rd (.arr .cp 15)) (.rd (.arr .cp 20)))) (.rd (.arr .spRates 2))) (.num 159994 4))))),
  .set (.arr .jac 360) (.add (.rd (.arr .jac 360)) (.mul (.mul (.mul (.rd (.arr .spRates 2)) (.rd (.var .mwAvg))) (.neg (.num 82003996439758593 20))) (.rd (.var .rhoInv)))),
  .set (.arr .jac 357) (.sub (.rd (.arr .jac 357)) (.mul (.rd (.arr .h 2)) (.sub (.mul (.rd (.var .workTemp)) (.rd (.arr .jac 360))) (.mul (.mul (.mul (.rd (.var .jTemp)) (.sub (.rd (.arr .cp 16)) (.rd (.arr .cp 20)))) (.rd (.arr .spRates 2))) (.num 159994 4))))),
  .set (.arr .jac 381) (.add (.rd (.arr .jac 381)) (.mul (.mul (.mul (.rd (.arr .spRates 2)) (.rd (.var .mwAvg))) (.neg (.num 20600039825426453 18))) (.rd (.var .rhoInv)))),
  .set (.arr .jac 378) (.sub (.rd (.arr .jac 378)) (.mul (.rd (.arr .h 2)) (.sub (.mul (.rd (.var .workTemp)) (.rd (.arr .jac 381))) (.mul (.mul (.mul (.rd (.var .jTemp)) (.sub (.rd (.arr .cp 17)) (.rd (.arr .cp 20)))) (.rd (.arr .spRates 2))) (.num 159994 4))))),
  .set (.arr .jac 402) (.add (.rd (.arr .jac 402)) (.mul (.mul (.mul (.rd (.arr .spRates 2)) (.rd (.var .mwAvg))) (.neg (.num 39053981039931747 18))) (.rd (.var .rhoInv)))),
  .set (.arr .jac 399) (.sub (.rd (.arr .jac 399)) (.mul (.rd (.arr .h 2)) (.sub (.mul (.rd (.var .workTemp)) (.rd (.arr .jac 402))) (.mul (.mul (.mul (.rd (.var .jTemp)) (.sub (.rd (.arr .cp 18)) (.rd (.arr .cp 20)))) (.rd (.arr .spRates 2))) (.num 159994 4))))),
  .set (.arr .jac 423) (.add (.rd (.arr .jac 423)) (.mul (.mul (.mul (.rd (.arr .spRates 2)) (.rd (.var .mwAvg))) (.neg (.num 17062652615137971 17))) (.rd (.var .rhoInv)))),
  .set (.arr .jac 420) (.sub (.rd (.arr .jac 420)) (.mul (.rd (.arr .h 2)) (.sub (.mul (.rd (.var .workTemp)) (.rd (.arr .jac 423))) (.mul (.mul (.mul (.rd (.var .jTemp)) (.sub (.rd (.arr .cp 19)) (.rd (.arr .cp 20)))) (.rd (.arr .spRates 2))) (.num 159994 4)))))]

/-- utilities/mechanisms/drm19/lib/src/jacobs/jacob_3.c:127-166 -/
def jacobEnd3 : List CStmt := [
  .set (.arr .jac 25) (.add (.rd (.arr .jac 25)) (.mul (.mul (.mul (.rd (.arr .spRates 3)) (.rd (.var .mwAvg))) (.num 14731101111091974 15)) (.rd (.var .rhoInv)))),
  .set (.arr .jac 21) (.sub (.rd (.arr .jac 21)) (.mul (.rd (.arr .h 3)) (.sub (.mul (.rd (.var .workTemp)) (.rd (.arr .jac 25))) (.mul (.mul (.mul (.rd (.var .jTemp)) (.sub (.rd (.arr .cp 0)) (.rd (.arr .cp 20)))) (.rd (.arr .spRates 3))) (.num 319988 4))))),
  .set (.arr .jac 46) (.add (.rd (.arr .jac 46)) (.mul (.mul (.mul (.rd (.arr .spRates 3)) (.rd (.var .mwAvg))) (.num 3060446658919583 14)) (.rd (.var .rhoInv)))),
  .set (.arr .jac 42) (.sub (.rd (.arr .jac 42)) (.mul (.rd (.arr .h 3)) (.sub (.mul (.rd (.var .workTemp)) (.rd (.arr .jac 46))) (.mul (.mul (.mul (.rd (.var .jTemp)) (.sub (.rd (.arr .cp 1)) (.rd (.arr .cp 20)))) (.rd (.arr .spRates 3))) (.num 319988 4))))),
  .set (.arr .jac 67) (.add (.rd (.arr .jac 67)) (.mul (.mul (.mul (.rd (.arr .spRates 3)) (.rd (.var .mwAvg))) (.num 85773563298811872 17)) (.rd (.var .rhoInv)))),
  .set (.arr .jac 63) (.sub (.rd (.arr .jac 63)) (.mul (.rd (.arr .h 3)) (.sub (.mul (.rd (.var .workTemp)) (.rd (.arr .jac 67))) (.mul (.mul (.mul (.rd (.var .jTemp)) (.sub (.rd (.arr .cp 2)) (.rd (.arr .cp 20)))) (.rd (.arr .spRates 3))) (.num 319988 4))))),
  .set (.arr .jac 88) (.add (.rd (.arr .jac 88)) (.mul (.mul (.mul (.rd (.arr .spRates 3)) (.rd (.var .mwAvg))) (.neg (.num 14226436701188128 17))) (.rd (.var .rhoInv)))),
  .set (.arr .jac 84) (.sub (.rd (.arr .jac 84)) (.mul (.rd (.arr .h 3)) (.sub (.mul (.rd (.var .workTemp)) (.rd (.arr .jac 88))) (.mul (.mul (.mul (.rd (.var .jTemp)) (.sub (.rd (.arr .cp 3)) (.rd (.arr .cp 20)))) (.rd (.arr .spRates 3))) (.num 319988 4))))),
  .set (.arr .jac 109) (.add (.rd (.arr .jac 109)) (.mul (.mul (.mul (.rd (.arr .spRates 3)) (.rd (.var .mwAvg))) (.num 73920563358785984 17)) (.rd (.var .rhoInv)))),
  .set (.arr .jac 105) (.sub (.rd (.arr .jac 105)) (.mul (.rd (.arr .h 3)) (.sub (.mul (.rd (.var .workTemp)) (.rd (.arr .jac 109))) (.mul (.mul (.mul (.rd (.var .jTemp)) (.sub (.rd (.arr .cp 4)) (.rd (.arr .cp 20)))) (.rd (.arr .spRates 3))) (.num 319988 4))))),
  .set (.arr .jac 130) (.add (.rd (.arr .jac 130)) (.mul (.mul (.mul (.rd (.arr .spRates 3)) (.rd (.var .mwAvg))) (.num 63393894484338809 17)) (.rd (.var .rhoInv)))),
  .set (.arr .jac 126) (.sub (.rd (.arr .jac 126)) (.mul (.rd (.arr .h 3)) (.sub (.mul (.rd (.var .workTemp)) (.rd (.arr .jac 130))) (.mul (.mul (.mul (.rd (.var .jTemp)) (.sub (.rd (.arr .cp 5)) (.rd (.arr .cp 20)))) (.rd (.arr .spRates 3))) (.num 319988 4))))),
  .set (.arr .jac 151) (.add (.rd (.arr .jac 151)) (.mul (.mul (.mul (.rd (.arr .spRates 3)) (.rd (.var .mwAvg))) (.neg (.num 17280176634304836 17))) (.rd (.var .rhoInv)))),
  .set (.arr .jac 147) (.sub (.rd (.arr .jac 147)) (.mul (.rd (.arr .h 3)) (.sub (.mul (.rd (.var .workTemp)) (.rd (.arr .jac 151))) (.mul (.mul (.mul (.rd (.var .jTemp)) (.sub (.rd (.arr .cp 6)) (.rd (.arr .cp 20)))) (.rd (.arr .spRates 3))) (.num 319988 4))))),
  .set (.arr .jac 172) (.add (.rd (.arr .jac 172)) (.mul (.mul (.mul (.rd (.arr .spRates 3)) (.rd (.var .mwAvg))) (.num 11389842071542911 16)) (.rd (.var .rhoInv)))),
  .set (.arr .jac 168) (.sub (.rd (.arr .jac 168)) (.mul (.rd (.arr .h 3)) (.sub (.mul (.rd (.var .workTemp)) (.rd (.arr .jac 172))) (.mul (.mul (.mul (.rd (.var .jTemp)) (.sub (.rd (.arr .cp 7)) (.rd (.arr .cp 20)))) (.rd (.arr .spRates 3))) (.num 319988 4))))),
  .set (.arr .jac 193) (.add (.rd (.arr .jac 193)) (.mul (.mul (.mul (.rd (.arr .spRates 3)) (.rd (.var .mwAvg))) (.num 11389842071542911 16)) (.rd (.var .rhoInv)))),
  .set (.arr .jac 189) (.sub (.rd (.arr .jac 189)) (.mul (.rd (.arr .h 3)) (.sub (.mul (.rd (.var .workTemp)) (.rd (.arr .jac 193))) (.mul (.mul (.mul (.rd (.var .jTemp)) (.sub (.rd (.arr .cp 8)) (.rd (.arr .cp 20)))) (.rd (.arr .spRates 3))) (.num 319988 4))))),
  .set (.arr .jac 214) (.add (.rd (.arr .jac 214)) (.mul (.mul (.mul (.rd (.arr .spRates 3)) (.rd (.var .mwAvg))) (.num 98604844285215432 17)) (.rd (.var .rhoInv)))),
  .set (.arr .jac 210) (.sub (.rd (.arr .jac 210)) (.mul (.rd (.arr .h 3)) (.sub (.mul (.rd (.var .workTemp)) (.rd (.arr .jac 214))) (.mul (.mul (.mul (.rd (.var .jTemp)) (.sub (.rd (.arr .cp 9)) (.rd (.arr .cp 20)))) (.rd (.arr .spRates 3))) (.num 319988 4))))),
  .set (.arr .jac 235) (.add (.rd (.arr .jac 235)) (.mul (.mul (.mul (.rd (.arr .spRates 3)) (.rd (.var .mwAvg))) (.num 85233007933026905 17)) (.rd (.var .rhoInv)))),
  .set (.arr .jac 231) (.sub (.rd (.arr .jac 231)) (.mul (.rd (.arr .h 3)) (.sub (.mul (.rd (.var .workTemp)) (.rd (.arr .jac 235))) (.mul (.mul (.mul (.rd (.var .jTemp)) (.sub (.rd (.arr .cp 10)) (.rd (.arr .cp 20)))) (.rd (.arr .spRates 3))) (.num 319988 4))))),
  .set (.arr .jac 256) (.add (.rd (.arr .jac 256)) (.mul (.mul (.mul (.rd (.arr .spRates 3)) (.rd (.var .mwAvg))) (.num 12560242804106786 20)) (.rd (.var .rhoInv)))),
  .set (.arr .jac 252) (.sub (.rd (.arr .jac 252)) (.mul (.rd (.arr .h 3)) (.sub (.mul (.rd (.var .workTemp)) (.rd (.arr .jac 256))) (.mul (.mul (.mul (.rd (.var .jTemp)) (.sub (.rd (.arr .cp 11)) (.rd (.arr .cp 20)))) (.rd (.arr .spRates 3))) (.num 319988 4))))),
  .set (.arr .jac 277) (.add (.rd (.arr .jac 277)) (.mul (.mul (.mul (.rd (.arr .spRates 3)) (.rd (.var .mwAvg))) (.neg (.num 41518085379437059 17))) (.rd (.var .rhoInv)))),
  .set (.arr .jac 273) (.sub (.rd (.arr .jac 273)) (.mul (.rd (.arr .h 3)) (.sub (.mul (.rd (.var .workTemp)) (.rd (.arr .jac 277))) (.mul (.mul (.mul (.rd (.var .jTemp)) (.sub (.rd (.arr .cp 12)) (.rd (.arr .cp 20)))) (.rd (.arr .spRates 3))) (.num 319988 4))))),
  .set (.arr .jac 298) (.add (.rd (.arr .jac 298)) (.mul (.mul (.mul (.rd (.arr .spRates 3)) (.rd (.var .mwAvg))) (.neg (.num 39554839175347502 18))) (.rd (.var .rhoInv)))),
  .set (.arr .jac 294) (.sub (.rd (.arr .jac 294)) (.mul (.rd (.arr .h 3)) (.sub (.mul (.rd (.var .workTemp)) (.rd (.arr .jac 298))) (.mul (.mul (.mul (.rd (.var .jTemp)) (.sub (.rd (.arr .cp 13)) (.rd (.arr .cp 20)))) (.rd (.arr .spRates 3))) (.num 319988 4))))),
  .set (.arr .jac 319) (.add (.rd (.arr .jac 319)) (.mul (.mul (.mul (.rd (.arr .spRates 3)) (.rd (.var .mwAvg))) (.neg (.num 76571247517891489 18))) (.rd (.var .rhoInv)))),
  .set (.arr .jac 315) (.sub (.rd (.arr .jac 315)) (.mul (.rd (.arr .h 3)) (.sub (.mul (.rd (.var .workTemp)) (.rd (.arr .jac 319))) (.mul (.mul (.mul (.rd (.var .jTemp)) (.sub (.rd (.arr .cp 14)) (.rd (.arr .cp 20)))) (.rd (.arr .spRates 3))) (.num 319988 4))))),
  .set (.arr .jac 340) (.add (.rd (.arr .jac 340)) (.mul (.mul (.mul (.rd (.arr .spRates 3)) (.rd (.var .mwAvg))) (.neg (.num 11118319274682795 17))) (.rd (.var .rhoInv)))),
  .set (.arr .jac 336) (.sub (.rd (.arr .jac 336)) (.mul (.rd (.arr .h 3)) (.sub (.mul (.rd (.var .workTemp)) (.rd (.arr .jac 340))) (.mul (.mul (.mul (.rd (.var .jTemp)) (.sub (.rd (.arr .cp 15)) (.rd (.arr .cp 20)))) (.rd (.arr .spRates 3))) (.num 319988 4))))),
  .set (.arr .jac 361) (.add (.rd (.arr .jac 361)) (.mul (.mul (.mul (.rd (.arr .spRates 3)) (.rd (.var .mwAvg))) (.neg (.num 16400799287951719 19))) (.rd (.var .rhoInv)))),
  .set (.arr .jac 357) (.sub (.rd (.arr .jac 357)) (.mul (.rd (.arr .h 3)) (.sub (.mul (.rd (.var .workTemp)) (.rd (.arr .jac 361))) (.mul (.mul (.mul (.rd (.var .jTemp)) (.sub (.rd (.arr .cp 16)) (.rd (.arr .cp 20)))) (.rd (.arr .spRates 3))) (.num 319988 4))))),
  .set (.arr .jac 382) (.add (.rd (.arr .jac 382)) (.mul (.mul (.mul (.rd (.arr .spRates 3)) (.rd (.var .mwAvg))) (.neg (.num 41200079650852907 18))) (.rd (.var .rhoInv)))),
  .set (.arr .jac 378) (.sub (.rd (.arr .jac 378)) (.mul (.rd (.arr .h 3)) (.sub (.mul (.rd (.var .workTemp)) (.rd (.arr .jac 382))) (.mul (.mul (.mul (.rd (.var .jTemp)) (.sub (.rd (.arr .cp 17)) (.rd (.arr .cp 20)))) (.rd (.arr .spRates 3))) (.num 319988 4))))),
  .set (.arr .jac 403) (.add (.rd (.arr .jac 403)) (.mul (.mul (.mul (.rd (.arr .spRates 3)) (.rd (.var .mwAvg))) (.neg (.num 78107962079863494 18))) (.rd (.var .rhoInv)))),
  .set (.arr .jac 399) (.sub (.rd (.arr .jac 399)) (.mul (.rd (.arr .h 3)) (.sub (.mul (.rd (.var .workTemp)) (.rd (.arr .jac 403))) (.mul (.mul (.mul (.rd (.var .jTemp)) (.sub (.rd (.arr .cp 18)) (.rd (.arr .cp 20)))) (.rd (.arr .spRates 3))) (.num 319988 4))))),
  .set (.arr .jac 424) (.add (.rd (.arr .jac 424)) (.mul (.mul (.mul (.rd (.arr .spRates 3)) (.rd (.var .mwAvg))) (.neg (.num 34125305230275943 17))) (.rd (.var .rhoInv)))),
  .set (.arr .jac 420) (.sub (.rd (.arr .jac 420)) (.mul (.rd (.arr .h 3)) (.sub (.mul (.rd (.var .workTemp)) (.rd (.arr .jac 424))) (.mul (.mul (.mul (.rd (.var .jTemp)) (.sub (.rd (.arr .cp 19)) (.rd (.arr .cp 20)))) (.rd (.arr .spRates 3))) (.num 319988 4)))))]

/-- utilities/mechanisms/drm19/lib/src/jacobs/jacob_3.c:167-206 -/
def jacobEnd4 : List CStmt := [
  .set (.arr .jac 26) (.add (.rd (.arr .jac 26)) (.mul (.mul (.mul (.rd (.arr .spRates 4)) (.rd (.var .mwAvg))) (.num 78295700204607348 16)) (.rd (.var .rhoInv)))),
  .set (.arr .jac 21) (.sub (.rd (.arr .jac 21)) (.mul (.rd (.arr .h 4)) (.sub (.mul (.rd (.var .workTemp)) (.rd (.arr .jac 26))) (.mul (.mul (.mul (.rd (.var .jTemp)) (.sub (.rd (.arr .cp 0)) (.rd (.arr .cp 20)))) (.rd (.arr .spRates 4))) (.num 1700734 5))))),
  .set (.arr .jac 47) (.add (.rd (.arr .jac 47)) (.mul (.mul (.mul (.rd (.arr .spRates 4)) (.rd (.var .mwAvg))) (.num 1626625275951266 14)) (.rd (.var .rhoInv)))),
  .set (.arr .jac 42) (.sub (.rd (.arr .jac 42)) (.mul (.rd (.arr .h 4)) (.sub (.mul (.rd (.var .workTemp)) (.rd (.arr .jac 47))) (.mul (.mul (.mul (.rd (.var .jTemp)) (.sub (.rd (.arr .cp 1)) (.rd (.arr .cp 20)))) (.rd (.arr .spRates 4))) (.num 1700734 5))))),
  .set (.arr .jac 68) (.add (.rd (.arr .jac 68)) (.mul (.mul (.mul (.rd (.arr .spRates 4)) (.rd (.var .mwAvg))) (.num 4558858938567743 16)) (.rd (.var .rhoInv)))),
  .set (.arr .jac 63) (.sub (.rd (.arr .jac 63)) (.mul (.rd (.arr .h 4)) (.sub (.mul (.rd (.var .workTemp)) (.rd (.arr .jac 68))) (.mul (.mul (.mul (.rd (.var .jTemp)) (.sub (.rd (.arr .cp 2)) (.rd (.arr .cp 20)))) (.rd (.arr .spRates 4))) (.num 1700734 5))))),
  .set (.arr .jac 89) (.add (.rd (.arr .jac 89)) (.mul (.mul (.mul (.rd (.arr .spRates 4)) (.rd (.var .mwAvg))) (.neg (.num 75613412367209046 18))) (.rd (.var .rhoInv)))),
  .set (.arr .jac 84) (.sub (.rd (.arr .jac 84)) (.mul (.rd (.arr .h 4)) (.sub (.mul (.rd (.var .workTemp)) (.rd (.arr .jac 89))) (.mul (.mul (.mul (.rd (.var .jTemp)) (.sub (.rd (.arr .cp 3)) (.rd (.arr .cp 20)))) (.rd (.arr .spRates 4))) (.num 1700734 5))))),
  .set (.arr .jac 110) (.add (.rd (.arr .jac 110)) (.mul (.mul (.mul (.rd (.arr .spRates 4)) (.rd (.var .mwAvg))) (.num 39288728140880758 17)) (.rd (.var .rhoInv)))),
  .set (.arr .jac 105) (.sub (.rd (.arr .jac 105)) (.mul (.rd (.arr .h 4)) (.sub (.mul (.rd (.var .workTemp)) (.rd (.arr .jac 110))) (.mul (.mul (.mul (.rd (.var .jTemp)) (.sub (.rd (.arr .cp 4)) (.rd (.arr .cp 20)))) (.rd (.arr .spRates 4))) (.num 1700734 5))))),
  .set (.arr .jac 131) (.add (.rd (.arr .jac 131)) (.mul (.mul (.mul (.rd (.arr .spRates 4)) (.rd (.var .mwAvg))) (.num 33693810937262486 17)) (.rd (.var .rhoInv)))),
  .set (.arr .jac 126) (.sub (.rd (.arr .jac 126)) (.mul (.rd (.arr .h 4)) (.sub (.mul (.rd (.var .workTemp)) (.rd (.arr .jac 131))) (.mul (.mul (.mul (.rd (.var .jTemp)) (.sub (.rd (.arr .cp 5)) (.rd (.arr .cp 20)))) (.rd (.arr .spRates 4))) (.num 1700734 5))))),
  .set (.arr .jac 152) (.add (.rd (.arr .jac 152)) (.mul (.mul (.mul (.rd (.arr .spRates 4)) (.rd (.var .mwAvg))) (.neg (.num 91844018925609089 18))) (.rd (.var .rhoInv)))),
  .set (.arr .jac 147) (.sub (.rd (.arr .jac 147)) (.mul (.rd (.arr .h 4)) (.sub (.mul (.rd (.var .workTemp)) (.rd (.arr .jac 152))) (.mul (.mul (.mul (.rd (.var .jTemp)) (.sub (.rd (.arr .cp 6)) (.rd (.arr .cp 20)))) (.rd (.arr .spRates 4))) (.num 1700734 5))))),
  .set (.arr .jac 173) (.add (.rd (.arr .jac 173)) (.mul (.mul (.mul (.rd (.arr .spRates 4)) (.rd (.var .mwAvg))) (.num 60536931590257959 17)) (.rd (.var .rhoInv)))),
  .set (.arr .jac 168) (.sub (.rd (.arr .jac 168)) (.mul (.rd (.arr .h 4)) (.sub (.mul (.rd (.var .workTemp)) (.rd (.arr .jac 173))) (.mul (.mul (.mul (.rd (.var .jTemp)) (.sub (.rd (.arr .cp 7)) (.rd (.arr .cp 20)))) (.rd (.arr .spRates 4))) (.num 1700734 5))))),
  .set (.arr .jac 194) (.add (.rd (.arr .jac 194)) (.mul (.mul (.mul (.rd (.arr .spRates 4)) (.rd (.var .mwAvg))) (.num 60536931590257959 17)) (.rd (.var .rhoInv)))),
  .set (.arr .jac 189) (.sub (.rd (.arr .jac 189)) (.mul (.rd (.arr .h 4)) (.sub (.mul (.rd (.var .workTemp)) (.rd (.arr .jac 194))) (.mul (.mul (.mul (.rd (.var .jTemp)) (.sub (.rd (.arr .cp 8)) (.rd (.arr .cp 20)))) (.rd (.arr .spRates 4))) (.num 1700734 5))))),
  .set (.arr .jac 215) (.add (.rd (.arr .jac 215)) (.mul (.mul (.mul (.rd (.arr .spRates 4)) (.rd (.var .mwAvg))) (.num 52408406327915913 17)) (.rd (.var .rhoInv)))),
  .set (.arr .jac 210) (.sub (.rd (.arr .jac 210)) (.mul (.rd (.arr .h 4)) (.sub (.mul (.rd (.var .workTemp)) (.rd (.arr .jac 215))) (.mul (.mul (.mul (.rd (.var .jTemp)) (.sub (.rd (.arr .cp 9)) (.rd (.arr .cp 20)))) (.rd (.arr .spRates 4))) (.num 1700734 5))))),
  .set (.arr .jac 236) (.add (.rd (.arr .jac 236)) (.mul (.mul (.mul (.rd (.arr .spRates 4)) (.rd (.var .mwAvg))) (.num 45301284583787071 17)) (.rd (.var .rhoInv)))),
  .set (.arr .jac 231) (.sub (.rd (.arr .jac 231)) (.mul (.rd (.arr .h 4)) (.sub (.mul (.rd (.var .workTemp)) (.rd (.arr .jac 236))) (.mul (.mul (.mul (.rd (.var .jTemp)) (.sub (.rd (.arr .cp 10)) (.rd (.arr .cp 20)))) (.rd (.arr .spRates 4))) (.num 1700734 5))))),
  .set (.arr .jac 257) (.add (.rd (.arr .jac 257)) (.mul (.mul (.mul (.rd (.arr .spRates 4)) (.rd (.var .mwAvg))) (.num 66757603363875367 21)) (.rd (.var .rhoInv)))),
  .set (.arr .jac 252) (.sub (.rd (.arr .jac 252)) (.mul (.rd (.arr .h 4)) (.sub (.mul (.rd (.var .workTemp)) (.rd (.arr .jac 257))) (.mul (.mul (.mul (.rd (.var .jTemp)) (.sub (.rd (.arr .cp 11)) (.rd (.arr .cp 20)))) (.rd (.arr .spRates 4))) (.num 1700734 5))))),
  .set (.arr .jac 278) (.add (.rd (.arr .jac 278)) (.mul (.mul (.mul (.rd (.arr .spRates 4)) (.rd (.var .mwAvg))) (.neg (.num 22066833574918907 17))) (.rd (.var .rhoInv)))),
  .set (.arr .jac 273) (.sub (.rd (.arr .jac 273)) (.mul (.rd (.arr .h 4)) (.sub (.mul (.rd (.var .workTemp)) (.rd (.arr .jac 278))) (.mul (.mul (.mul (.rd (.var .jTemp)) (.sub (.rd (.arr .cp 12)) (.rd (.arr .cp 20)))) (.rd (.arr .spRates 4))) (.num 1700734 5))))),
  .set (.arr .jac 299) (.add (.rd (.arr .jac 299)) (.mul (.mul (.mul (.rd (.arr .spRates 4)) (.rd (.var .mwAvg))) (.neg (.num 21023369579498435 18))) (.rd (.var .rhoInv)))),
  .set (.arr .jac 294) (.sub (.rd (.arr .jac 294)) (.mul (.rd (.arr .h 4)) (.sub (.mul (.rd (.var .workTemp)) (.rd (.arr .jac 299))) (.mul (.mul (.mul (.rd (.var .jTemp)) (.sub (.rd (.arr .cp 13)) (.rd (.arr .cp 20)))) (.rd (.arr .spRates 4))) (.num 1700734 5))))),
  .set (.arr .jac 320) (.add (.rd (.arr .jac 320)) (.mul (.mul (.mul (.rd (.arr .spRates 4)) (.rd (.var .mwAvg))) (.neg (.num 40697564932464243 18))) (.rd (.var .rhoInv)))),
  .set (.arr .jac 315) (.sub (.rd (.arr .jac 315)) (.mul (.rd (.arr .h 4)) (.sub (.mul (.rd (.var .workTemp)) (.rd (.arr .jac 320))) (.mul (.mul (.mul (.rd (.var .jTemp)) (.sub (.rd (.arr .cp 14)) (.rd (.arr .cp 20)))) (.rd (.arr .spRates 4))) (.num 1700734 5))))),
  .set (.arr .jac 341) (.add (.rd (.arr .jac 341)) (.mul (.mul (.mul (.rd (.arr .spRates 4)) (.rd (.var .mwAvg))) (.neg (.num 59093789808706484 18))) (.rd (.var .rhoInv)))),
  .set (.arr .jac 336) (.sub (.rd (.arr .jac 336)) (.mul (.rd (.arr .h 4)) (.sub (.mul (.rd (.var .workTemp)) (.rd (.arr .jac 341))) (.mul (.mul (.mul (.rd (.var .jTemp)) (.sub (.rd (.arr .cp 15)) (.rd (.arr .cp 20)))) (.rd (.arr .spRates 4))) (.num 1700734 5))))),
  .set (.arr .jac 362) (.add (.rd (.arr .jac 362)) (.mul (.mul (.mul (.rd (.arr .spRates 4)) (.rd (.var .mwAvg))) (.neg (.num 87170134430651397 20))) (.rd (.var .rhoInv)))),
  .set (.arr .jac 357) (.sub (.rd (.arr .jac 357)) (.mul (.rd (.arr .h 4)) (.sub (.mul (.rd (.var .workTemp)) (.rd (.arr .jac 362))) (.mul (.mul (.mul (.rd (.var .jTemp)) (.sub (.rd (.arr .cp 16)) (.rd (.arr .cp 20)))) (.rd (.arr .spRates 4))) (.num 1700734 5))))),
  .set (.arr .jac 383) (.add (.rd (.arr .jac 383)) (.mul (.mul (.mul (.rd (.arr .spRates 4)) (.rd (.var .mwAvg))) (.neg (.num 2189781375080117 17))) (.rd (.var .rhoInv)))),
  .set (.arr .jac 378) (.sub (.rd (.arr .jac 378)) (.mul (.rd (.arr .h 4)) (.sub (.mul (.rd (.var .workTemp)) (.rd (.arr .jac 383))) (.mul (.mul (.mul (.rd (.var .jTemp)) (.sub (.rd (.arr .cp 17)) (.rd (.arr .cp 20)))) (.rd (.arr .spRates 4))) (.num 1700734 5))))),
  .set (.arr .jac 404) (.add (.rd (.arr .jac 404)) (.mul (.mul (.mul (.rd (.arr .spRates 4)) (.rd (.var .mwAvg))) (.neg (.num 41514327656016654 18))) (.rd (.var .rhoInv)))),
  .set (.arr .jac 399) (.sub (.rd (.arr .jac 399)) (.mul (.rd (.arr .h 4)) (.sub (.mul (.rd (.var .workTemp)) (.rd (.arr .jac 404))) (.mul (.mul (.mul (.rd (.var .jTemp)) (.sub (.rd (.arr .cp 18)) (.rd (.arr .cp 20)))) (.rd (.arr .spRates 4))) (.num 1700734 5))))),
  .set (.arr .jac 425) (.add (.rd (.arr .jac 425)) (.mul (.mul (.mul (.rd (.arr .spRates 4)) (.rd (.var .mwAvg))) (.neg (.num 18137576054573337 17))) (.rd (.var .rhoInv)))),
  .set (.arr .jac 420) (.sub (.rd (.arr .jac 420)) (.mul (.rd (.arr .h 4)) (.sub (.mul (.rd (.var .workTemp)) (.rd (.arr .jac 425))) (.mul (.mul (.mul (.rd (.var .jTemp)) (.sub (.rd (.arr .cp 19)) (.rd (.arr .cp 20)))) (.rd (.arr .spRates 4))) (.num 1700734 5)))))]

/-- utilities/mechanisms/drm19/lib/src/jacobs/jacob_3.c:207-246 -/
def jacobEnd5 : List CStmt := [
  .set (.arr .jac 27) (.add (.rd (.arr .jac 27)) (.mul (.mul (.mul (.rd (.arr .spRates 5)) (.rd (.var .mwAvg))) (.num 82935894853754846 16)) (.rd (.var .rhoInv)))),
  .set (.arr .jac 21) (.sub (.rd (.arr .jac 21)) (.mul (.rd (.arr .h 5)) (.sub (.mul (.rd (.var .workTemp)) (.rd (.arr .jac 27))) (.mul (.mul (.mul (.rd (.var .jTemp)) (.sub (.rd (.arr .cp 0)) (.rd (.arr .cp 20)))) (.rd (.arr .spRates 5))) (.num 1801528 5))))),
  .set (.arr .jac 48) (.add (.rd (.arr .jac 48)) (.mul (.mul (.mul (.rd (.arr .spRates 5)) (.rd (.var .mwAvg))) (.num 17230272224427413 15)) (.rd (.var .rhoInv)))),
  .set (.arr .jac 42) (.sub (.rd (.arr .jac 42)) (.mul (.rd (.arr .h 5)) (.sub (.mul (.rd (.var .workTemp)) (.rd (.arr .jac 48))) (.mul (.mul (.mul (.rd (.var .jTemp)) (.sub (.rd (.arr .cp 1)) (.rd (.arr .cp 20)))) (.rd (.arr .spRates 5))) (.num 1801528 5))))),
  .set (.arr .jac 69) (.add (.rd (.arr .jac 69)) (.mul (.mul (.mul (.rd (.arr .spRates 5)) (.rd (.var .mwAvg))) (.num 4829039712194893 16)) (.rd (.var .rhoInv)))),
  .set (.arr .jac 63) (.sub (.rd (.arr .jac 63)) (.mul (.rd (.arr .h 5)) (.sub (.mul (.rd (.var .workTemp)) (.rd (.arr .jac 69))) (.mul (.mul (.mul (.rd (.var .jTemp)) (.sub (.rd (.arr .cp 2)) (.rd (.arr .cp 20)))) (.rd (.arr .spRates 5))) (.num 1801528 5))))),
  .set (.arr .jac 90) (.add (.rd (.arr .jac 90)) (.mul (.mul (.mul (.rd (.arr .spRates 5)) (.rd (.var .mwAvg))) (.neg (.num 80094641228477453 18))) (.rd (.var .rhoInv)))),
  .set (.arr .jac 84) (.sub (.rd (.arr .jac 84)) (.mul (.rd (.arr .h 5)) (.sub (.mul (.rd (.var .workTemp)) (.rd (.arr .jac 90))) (.mul (.mul (.mul (.rd (.var .jTemp)) (.sub (.rd (.arr .cp 3)) (.rd (.arr .cp 20)))) (.rd (.arr .spRates 5))) (.num 1801528 5))))),
  .set (.arr .jac 111) (.add (.rd (.arr .jac 111)) (.mul (.mul (.mul (.rd (.arr .spRates 5)) (.rd (.var .mwAvg))) (.num 41617174602368529 17)) (.rd (.var .rhoInv)))),
  .set (.arr .jac 105) (.sub (.rd (.arr .jac 105)) (.mul (.rd (.arr .h 5)) (.sub (.mul (.rd (.var .workTemp)) (.rd (.arr .jac 111))) (.mul (.mul (.mul (.rd (.var .jTemp)) (.sub (.rd (.arr .cp 4)) (.rd (.arr .cp 20)))) (.rd (.arr .spRates 5))) (.num 1801528 5))))),
  .set (.arr .jac 132) (.add (.rd (.arr .jac 132)) (.mul (.mul (.mul (.rd (.arr .spRates 5)) (.rd (.var .mwAvg))) (.num 35690674632355568 17)) (.rd (.var .rhoInv)))),
  .set (.arr .jac 126) (.sub (.rd (.arr .jac 126)) (.mul (.rd (.arr .h 5)) (.sub (.mul (.rd (.var .workTemp)) (.rd (.arr .jac 132))) (.mul (.mul (.mul (.rd (.var .jTemp)) (.sub (.rd (.arr .cp 5)) (.rd (.arr .cp 20)))) (.rd (.arr .spRates 5))) (.num 1801528 5))))),
  .set (.arr .jac 153) (.add (.rd (.arr .jac 153)) (.mul (.mul (.mul (.rd (.arr .spRates 5)) (.rd (.var .mwAvg))) (.neg (.num 9728715467969401 17))) (.rd (.var .rhoInv)))),
  .set (.arr .jac 147) (.sub (.rd (.arr .jac 147)) (.mul (.rd (.arr .h 5)) (.sub (.mul (.rd (.var .workTemp)) (.rd (.arr .jac 153))) (.mul (.mul (.mul (.rd (.var .jTemp)) (.sub (.rd (.arr .cp 6)) (.rd (.arr .cp 20)))) (.rd (.arr .spRates 5))) (.num 1801528 5))))),
  .set (.arr .jac 174) (.add (.rd (.arr .jac 174)) (.mul (.mul (.mul (.rd (.arr .spRates 5)) (.rd (.var .mwAvg))) (.num 64124652822801353 17)) (.rd (.var .rhoInv)))),
  .set (.arr .jac 168) (.sub (.rd (.arr .jac 168)) (.mul (.rd (.arr .h 5)) (.sub (.mul (.rd (.var .workTemp)) (.rd (.arr .jac 174))) (.mul (.mul (.mul (.rd (.var .jTemp)) (.sub (.rd (.arr .cp 7)) (.rd (.arr .cp 20)))) (.rd (.arr .spRates 5))) (.num 1801528 5))))),
  .set (.arr .jac 195) (.add (.rd (.arr .jac 195)) (.mul (.mul (.mul (.rd (.arr .spRates 5)) (.rd (.var .mwAvg))) (.num 64124652822801353 17)) (.rd (.var .rhoInv)))),
  .set (.arr .jac 189) (.sub (.rd (.arr .jac 189)) (.mul (.rd (.arr .h 5)) (.sub (.mul (.rd (.var .workTemp)) (.rd (.arr .jac 195))) (.mul (.mul (.mul (.rd (.var .jTemp)) (.sub (.rd (.arr .cp 8)) (.rd (.arr .cp 20)))) (.rd (.arr .spRates 5))) (.num 1801528 5))))),
  .set (.arr .jac 216) (.add (.rd (.arr .jac 216)) (.mul (.mul (.mul (.rd (.arr .spRates 5)) (.rd (.var .mwAvg))) (.num 55514390513224121 17)) (.rd (.var .rhoInv)))),
  .set (.arr .jac 210) (.sub (.rd (.arr .jac 210)) (.mul (.rd (.arr .h 5)) (.sub (.mul (.rd (.var .workTemp)) (.rd (.arr .jac 216))) (.mul (.mul (.mul (.rd (.var .jTemp)) (.sub (.rd (.arr .cp 9)) (.rd (.arr .cp 20)))) (.rd (.arr .spRates 5))) (.num 1801528 5))))),
  .set (.arr .jac 237) (.add (.rd (.arr .jac 237)) (.mul (.mul (.mul (.rd (.arr .spRates 5)) (.rd (.var .mwAvg))) (.num 4798606520106069 16)) (.rd (.var .rhoInv)))),
  .set (.arr .jac 231) (.sub (.rd (.arr .jac 231)) (.mul (.rd (.arr .h 5)) (.sub (.mul (.rd (.var .workTemp)) (.rd (.arr .jac 237))) (.mul (.mul (.mul (.rd (.var .jTemp)) (.sub (.rd (.arr .cp 10)) (.rd (.arr .cp 20)))) (.rd (.arr .spRates 5))) (.num 1801528 5))))),
  .set (.arr .jac 258) (.add (.rd (.arr .jac 258)) (.mul (.mul (.mul (.rd (.arr .spRates 5)) (.rd (.var .mwAvg))) (.num 70713992707216802 21)) (.rd (.var .rhoInv)))),
  .set (.arr .jac 252) (.sub (.rd (.arr .jac 252)) (.mul (.rd (.arr .h 5)) (.sub (.mul (.rd (.var .workTemp)) (.rd (.arr .jac 258))) (.mul (.mul (.mul (.rd (.var .jTemp)) (.sub (.rd (.arr .cp 11)) (.rd (.arr .cp 20)))) (.rd (.arr .spRates 5))) (.num 1801528 5))))),
  .set (.arr .jac 279) (.add (.rd (.arr .jac 279)) (.mul (.mul (.mul (.rd (.arr .spRates 5)) (.rd (.var .mwAvg))) (.neg (.num 23374624460119284 17))) (.rd (.var .rhoInv)))),
  .set (.arr .jac 273) (.sub (.rd (.arr .jac 273)) (.mul (.rd (.arr .h 5)) (.sub (.mul (.rd (.var .workTemp)) (.rd (.arr .jac 279))) (.mul (.mul (.mul (.rd (.var .jTemp)) (.sub (.rd (.arr .cp 12)) (.rd (.arr .cp 20)))) (.rd (.arr .spRates 5))) (.num 1801528 5))))),
  .set (.arr .jac 300) (.add (.rd (.arr .jac 300)) (.mul (.mul (.mul (.rd (.arr .spRates 5)) (.rd (.var .mwAvg))) (.neg (.num 22269319571323123 18))) (.rd (.var .rhoInv)))),
  .set (.arr .jac 294) (.sub (.rd (.arr .jac 294)) (.mul (.rd (.arr .h 5)) (.sub (.mul (.rd (.var .workTemp)) (.rd (.arr .jac 300))) (.mul (.mul (.mul (.rd (.var .jTemp)) (.sub (.rd (.arr .cp 13)) (.rd (.arr .cp 20)))) (.rd (.arr .spRates 5))) (.num 1801528 5))))),
  .set (.arr .jac 321) (.add (.rd (.arr .jac 321)) (.mul (.mul (.mul (.rd (.arr .spRates 5)) (.rd (.var .mwAvg))) (.neg (.num 43109506105982735 18))) (.rd (.var .rhoInv)))),
  .set (.arr .jac 315) (.sub (.rd (.arr .jac 315)) (.mul (.rd (.arr .h 5)) (.sub (.mul (.rd (.var .workTemp)) (.rd (.arr .jac 321))) (.mul (.mul (.mul (.rd (.var .jTemp)) (.sub (.rd (.arr .cp 14)) (.rd (.arr .cp 20)))) (.rd (.arr .spRates 5))) (.num 1801528 5))))),
  .set (.arr .jac 342) (.add (.rd (.arr .jac 342)) (.mul (.mul (.mul (.rd (.arr .spRates 5)) (.rd (.var .mwAvg))) (.neg (.num 62595983243998982 18))) (.rd (.var .rhoInv)))),
  .set (.arr .jac 336) (.sub (.rd (.arr .jac 336)) (.mul (.rd (.arr .h 5)) (.sub (.mul (.rd (.var .workTemp)) (.rd (.arr .jac 342))) (.mul (.mul (.mul (.rd (.var .jTemp)) (.sub (.rd (.arr .cp 15)) (.rd (.arr .cp 20)))) (.rd (.arr .spRates 5))) (.num 1801528 5))))),
  .set (.arr .jac 363) (.add (.rd (.arr .jac 363)) (.mul (.mul (.mul (.rd (.arr .spRates 5)) (.rd (.var .mwAvg))) (.neg (.num 92336272421544201 20))) (.rd (.var .rhoInv)))),
  .set (.arr .jac 357) (.sub (.rd (.arr .jac 357)) (.mul (.rd (.arr .h 5)) (.sub (.mul (.rd (.var .workTemp)) (.rd (.arr .jac 363))) (.mul (.mul (.mul (.rd (.var .jTemp)) (.sub (.rd (.arr .cp 16)) (.rd (.arr .cp 20)))) (.rd (.arr .spRates 5))) (.num 1801528 5))))),
  .set (.arr .jac 384) (.add (.rd (.arr .jac 384)) (.mul (.mul (.mul (.rd (.arr .spRates 5)) (.rd (.var .mwAvg))) (.neg (.num 23195587676175893 18))) (.rd (.var .rhoInv)))),
  .set (.arr .jac 378) (.sub (.rd (.arr .jac 378)) (.mul (.rd (.arr .h 5)) (.sub (.mul (.rd (.var .workTemp)) (.rd (.arr .jac 384))) (.mul (.mul (.mul (.rd (.var .jTemp)) (.sub (.rd (.arr .cp 17)) (.rd (.arr .cp 20)))) (.rd (.arr .spRates 5))) (.num 1801528 5))))),
  .set (.arr .jac 405) (.add (.rd (.arr .jac 405)) (.mul (.mul (.mul (.rd (.arr .spRates 5)) (.rd (.var .mwAvg))) (.neg (.num 43974674272101555 18))) (.rd (.var .rhoInv)))),
  .set (.arr .jac 399) (.sub (.rd (.arr .jac 399)) (.mul (.rd (.arr .h 5)) (.sub (.mul (.rd (.var .workTemp)) (.rd (.arr .jac 405))) (.mul (.mul (.mul (.rd (.var .jTemp)) (.sub (.rd (.arr .cp 18)) (.rd (.arr .cp 20)))) (.rd (.arr .spRates 5))) (.num 1801528 5))))),
  .set (.arr .jac 426) (.add (.rd (.arr .jac 426)) (.mul (.mul (.mul (.rd (.arr .spRates 5)) (.rd (.var .mwAvg))) (.neg (.num 19212499494008703 17))) (.rd (.var .rhoInv)))),
  .set (.arr .jac 420) (.sub (.rd (.arr .jac 420)) (.mul (.rd (.arr .h 5)) (.sub (.mul (.rd (.var .workTemp)) (.rd (.arr .jac 426))) (.mul (.mul (.mul (.rd (.var .jTemp)) (.sub (.rd (.arr .cp 19)) (.rd (.arr .cp 20)))) (.rd (.arr .spRates 5))) (.num 1801528 5)))))]

/-- utilities/mechanisms/drm19/lib/src/jacobs/jacob_3.c:247-286 -/
def jacobEnd6 : List CStmt := [
  .set (.arr .jac 28) (.add (.rd (.arr .jac 28)) (.mul (.mul (.mul (.rd (.arr .spRates 6)) (.rd (.var .mwAvg))) (.num 15195120576006721 15)) (.rd (.var .rhoInv)))),
  .set (.arr .jac 21) (.sub (.rd (.arr .jac 21)) (.mul (.rd (.arr .h 6)) (.sub (.mul (.rd (.var .workTemp)) (.rd (.arr .jac 28))) (.mul (.mul (.mul (.rd (.var .jTemp)) (.sub (.rd (.arr .cp 0)) (.rd (.arr .cp 20)))) (.rd (.arr .spRates 6))) (.num 3300674 5))))),
  .set (.arr .jac 49) (.add (.rd (.arr .jac 49)) (.mul (.mul (.mul (.rd (.arr .spRates 6)) (.rd (.var .mwAvg))) (.num 31568486054110576 15)) (.rd (.var .rhoInv)))),
  .set (.arr .jac 42) (.sub (.rd (.arr .jac 42)) (.mul (.rd (.arr .h 6)) (.sub (.mul (.rd (.var .workTemp)) (.rd (.arr .jac 49))) (.mul (.mul (.mul (.rd (.var .jTemp)) (.sub (.rd (.arr .cp 1)) (.rd (.arr .cp 20)))) (.rd (.arr .spRates 6))) (.num 3300674 5))))),
  .set (.arr .jac 70) (.add (.rd (.arr .jac 70)) (.mul (.mul (.mul (.rd (.arr .spRates 6)) (.rd (.var .mwAvg))) (.num 88475371035083372 17)) (.rd (.var .rhoInv)))),
  .set (.arr .jac 63) (.sub (.rd (.arr .jac 63)) (.mul (.rd (.arr .h 6)) (.sub (.mul (.rd (.var .workTemp)) (.rd (.arr .jac 70))) (.mul (.mul (.mul (.rd (.var .jTemp)) (.sub (.rd (.arr .cp 2)) (.rd (.arr .cp 20)))) (.rd (.arr .spRates 6))) (.num 3300674 5))))),
  .set (.arr .jac 91) (.add (.rd (.arr .jac 91)) (.mul (.mul (.mul (.rd (.arr .spRates 6)) (.rd (.var .mwAvg))) (.neg (.num 1467455958731497 16))) (.rd (.var .rhoInv)))),
  .set (.arr .jac 84) (.sub (.rd (.arr .jac 84)) (.mul (.rd (.arr .h 6)) (.sub (.mul (.rd (.var .workTemp)) (.rd (.arr .jac 91))) (.mul (.mul (.mul (.rd (.var .jTemp)) (.sub (.rd (.arr .cp 3)) (.rd (.arr .cp 20)))) (.rd (.arr .spRates 6))) (.num 3300674 5))))),
  .set (.arr .jac 112) (.add (.rd (.arr .jac 112)) (.mul (.mul (.mul (.rd (.arr .spRates 6)) (.rd (.var .mwAvg))) (.num 7624900982027375 16)) (.rd (.var .rhoInv)))),
  .set (.arr .jac 105) (.sub (.rd (.arr .jac 105)) (.mul (.rd (.arr .h 6)) (.sub (.mul (.rd (.var .workTemp)) (.rd (.arr .jac 112))) (.mul (.mul (.mul (.rd (.var .jTemp)) (.sub (.rd (.arr .cp 4)) (.rd (.arr .cp 20)))) (.rd (.arr .spRates 6))) (.num 3300674 5))))),
  .set (.arr .jac 133) (.add (.rd (.arr .jac 133)) (.mul (.mul (.mul (.rd (.arr .spRates 6)) (.rd (.var .mwAvg))) (.num 65390758179431885 17)) (.rd (.var .rhoInv)))),
  .set (.arr .jac 126) (.sub (.rd (.arr .jac 126)) (.mul (.rd (.arr .h 6)) (.sub (.mul (.rd (.var .workTemp)) (.rd (.arr .jac 133))) (.mul (.mul (.mul (.rd (.var .jTemp)) (.sub (.rd (.arr .cp 5)) (.rd (.arr .cp 20)))) (.rd (.arr .spRates 6))) (.num 3300674 5))))),
  .set (.arr .jac 154) (.add (.rd (.arr .jac 154)) (.mul (.mul (.mul (.rd (.arr .spRates 6)) (.rd (.var .mwAvg))) (.neg (.num 17824490209713328 17))) (.rd (.var .rhoInv)))),
  .set (.arr .jac 147) (.sub (.rd (.arr .jac 147)) (.mul (.rd (.arr .h 6)) (.sub (.mul (.rd (.var .workTemp)) (.rd (.arr .jac 154))) (.mul (.mul (.mul (.rd (.var .jTemp)) (.sub (.rd (.arr .cp 6)) (.rd (.arr .cp 20)))) (.rd (.arr .spRates 6))) (.num 3300674 5))))),
  .set (.arr .jac 175) (.add (.rd (.arr .jac 175)) (.mul (.mul (.mul (.rd (.arr .spRates 6)) (.rd (.var .mwAvg))) (.num 11748614194797251 16)) (.rd (.var .rhoInv)))),
  .set (.arr .jac 168) (.sub (.rd (.arr .jac 168)) (.mul (.rd (.arr .h 6)) (.sub (.mul (.rd (.var .workTemp)) (.rd (.arr .jac 175))) (.mul (.mul (.mul (.rd (.var .jTemp)) (.sub (.rd (.arr .cp 7)) (.rd (.arr .cp 20)))) (.rd (.arr .spRates 6))) (.num 3300674 5))))),
  .set (.arr .jac 196) (.add (.rd (.arr .jac 196)) (.mul (.mul (.mul (.rd (.arr .spRates 6)) (.rd (.var .mwAvg))) (.num 11748614194797251 16)) (.rd (.var .rhoInv)))),
  .set (.arr .jac 189) (.sub (.rd (.arr .jac 189)) (.mul (.rd (.arr .h 6)) (.sub (.mul (.rd (.var .workTemp)) (.rd (.arr .jac 196))) (.mul (.mul (.mul (.rd (.var .jTemp)) (.sub (.rd (.arr .cp 8)) (.rd (.arr .cp 20)))) (.rd (.arr .spRates 6))) (.num 3300674 5))))),
  .set (.arr .jac 217) (.add (.rd (.arr .jac 217)) (.mul (.mul (.mul (.rd (.arr .spRates 6)) (.rd (.var .mwAvg))) (.num 10171082847052364 16)) (.rd (.var .rhoInv)))),
  .set (.arr .jac 210) (.sub (.rd (.arr .jac 210)) (.mul (.rd (.arr .h 6)) (.sub (.mul (.rd (.var .workTemp)) (.rd (.arr .jac 217))) (.mul (.mul (.mul (.rd (.var .jTemp)) (.sub (.rd (.arr .cp 9)) (.rd (.arr .cp 20)))) (.rd (.arr .spRates 6))) (.num 3300674 5))))),
  .set (.arr .jac 238) (.add (.rd (.arr .jac 238)) (.mul (.mul (.mul (.rd (.arr .spRates 6)) (.rd (.var .mwAvg))) (.num 87917788550300524 17)) (.rd (.var .rhoInv)))),
  .set (.arr .jac 231) (.sub (.rd (.arr .jac 231)) (.mul (.rd (.arr .h 6)) (.sub (.mul (.rd (.var .workTemp)) (.rd (.arr .jac 238))) (.mul (.mul (.mul (.rd (.var .jTemp)) (.sub (.rd (.arr .cp 10)) (.rd (.arr .cp 20)))) (.rd (.arr .spRates 6))) (.num 3300674 5))))),
  .set (.arr .jac 259) (.add (.rd (.arr .jac 259)) (.mul (.mul (.mul (.rd (.arr .spRates 6)) (.rd (.var .mwAvg))) (.num 12955881738440931 20)) (.rd (.var .rhoInv)))),
  .set (.arr .jac 252) (.sub (.rd (.arr .jac 252)) (.mul (.rd (.arr .h 6)) (.sub (.mul (.rd (.var .workTemp)) (.rd (.arr .jac 259))) (.mul (.mul (.mul (.rd (.var .jTemp)) (.sub (.rd (.arr .cp 11)) (.rd (.arr .cp 20)))) (.rd (.arr .spRates 6))) (.num 3300674 5))))),
  .set (.arr .jac 280) (.add (.rd (.arr .jac 280)) (.mul (.mul (.mul (.rd (.arr .spRates 6)) (.rd (.var .mwAvg))) (.neg (.num 42825876264637441 17))) (.rd (.var .rhoInv)))),
  .set (.arr .jac 273) (.sub (.rd (.arr .jac 273)) (.mul (.rd (.arr .h 6)) (.sub (.mul (.rd (.var .workTemp)) (.rd (.arr .jac 280))) (.mul (.mul (.mul (.rd (.var .jTemp)) (.sub (.rd (.arr .cp 12)) (.rd (.arr .cp 20)))) (.rd (.arr .spRates 6))) (.num 3300674 5))))),
  .set (.arr .jac 301) (.add (.rd (.arr .jac 301)) (.mul (.mul (.mul (.rd (.arr .spRates 6)) (.rd (.var .mwAvg))) (.neg (.num 40800789167172183 18))) (.rd (.var .rhoInv)))),
  .set (.arr .jac 294) (.sub (.rd (.arr .jac 294)) (.mul (.rd (.arr .h 6)) (.sub (.mul (.rd (.var .workTemp)) (.rd (.arr .jac 301))) (.mul (.mul (.mul (.rd (.var .jTemp)) (.sub (.rd (.arr .cp 13)) (.rd (.arr .cp 20)))) (.rd (.arr .spRates 6))) (.num 3300674 5))))),
  .set (.arr .jac 322) (.add (.rd (.arr .jac 322)) (.mul (.mul (.mul (.rd (.arr .spRates 6)) (.rd (.var .mwAvg))) (.neg (.num 78983188691409995 18))) (.rd (.var .rhoInv)))),
  .set (.arr .jac 315) (.sub (.rd (.arr .jac 315)) (.mul (.rd (.arr .h 6)) (.sub (.mul (.rd (.var .workTemp)) (.rd (.arr .jac 322))) (.mul (.mul (.mul (.rd (.var .jTemp)) (.sub (.rd (.arr .cp 14)) (.rd (.arr .cp 20)))) (.rd (.arr .spRates 6))) (.num 3300674 5))))),
  .set (.arr .jac 343) (.add (.rd (.arr .jac 343)) (.mul (.mul (.mul (.rd (.arr .spRates 6)) (.rd (.var .mwAvg))) (.neg (.num 11468538618212047 17))) (.rd (.var .rhoInv)))),
  .set (.arr .jac 336) (.sub (.rd (.arr .jac 336)) (.mul (.rd (.arr .h 6)) (.sub (.mul (.rd (.var .workTemp)) (.rd (.arr .jac 343))) (.mul (.mul (.mul (.rd (.var .jTemp)) (.sub (.rd (.arr .cp 15)) (.rd (.arr .cp 20)))) (.rd (.arr .spRates 6))) (.num 3300674 5))))),
  .set (.arr .jac 364) (.add (.rd (.arr .jac 364)) (.mul (.mul (.mul (.rd (.arr .spRates 6)) (.rd (.var .mwAvg))) (.neg (.num 16917413087040999 19))) (.rd (.var .rhoInv)))),
  .set (.arr .jac 357) (.sub (.rd (.arr .jac 357)) (.mul (.rd (.arr .h 6)) (.sub (.mul (.rd (.var .workTemp)) (.rd (.arr .jac 364))) (.mul (.mul (.mul (.rd (.var .jTemp)) (.sub (.rd (.arr .cp 16)) (.rd (.arr .cp 20)))) (.rd (.arr .spRates 6))) (.num 3300674 5))))),
  .set (.arr .jac 385) (.add (.rd (.arr .jac 385)) (.mul (.mul (.mul (.rd (.arr .spRates 6)) (.rd (.var .mwAvg))) (.neg (.num 42497853576227623 18))) (.rd (.var .rhoInv)))),
  .set (.arr .jac 378) (.sub (.rd (.arr .jac 378)) (.mul (.rd (.arr .h 6)) (.sub (.mul (.rd (.var .workTemp)) (.rd (.arr .jac 385))) (.mul (.mul (.mul (.rd (.var .jTemp)) (.sub (.rd (.arr .cp 17)) (.rd (.arr .cp 20)))) (.rd (.arr .spRates 6))) (.num 3300674 5))))),
  .set (.arr .jac 406) (.add (.rd (.arr .jac 406)) (.mul (.mul (.mul (.rd (.arr .spRates 6)) (.rd (.var .mwAvg))) (.neg (.num 80568308695948401 18))) (.rd (.var .rhoInv)))),
  .set (.arr .jac 399) (.sub (.rd (.arr .jac 399)) (.mul (.rd (.arr .h 6)) (.sub (.mul (.rd (.var .workTemp)) (.rd (.arr .jac 406))) (.mul (.mul (.mul (.rd (.var .jTemp)) (.sub (.rd (.arr .cp 18)) (.rd (.arr .cp 20)))) (.rd (.arr .spRates 6))) (.num 3300674 5))))),
  .set (.arr .jac 427) (.add (.rd (.arr .jac 427)) (.mul (.mul (.mul (.rd (.arr .spRates 6)) (.rd (.var .mwAvg))) (.neg (.num 35200228669711314 17))) (.rd (.var .rhoInv)))),
  .set (.arr .jac 420) (.sub (.rd (.arr .jac 420)) (.mul (.rd (.arr .h 6)) (.sub (.mul (.rd (.var .workTemp)) (.rd (.arr .jac 427))) (.mul (.mul (.mul (.rd (.var .jTemp)) (.sub (.rd (.arr .cp 19)) (.rd (.arr .cp 20)))) (.rd (.arr .spRates 6))) (.num 3300674 5)))))]

/-- utilities/mechanisms/drm19/lib/src/jacobs/jacob_3.c:287-326 -/
def jacobEnd7 : List CStmt := [
  .set (.arr .jac 29) (.add (.rd (.arr .jac 29)) (.mul (.mul (.mul (.rd (.arr .spRates 7)) (.rd (.var .mwAvg))) (.num 64574730162741654 16)) (.rd (.var .rhoInv)))),
  .set (.arr .jac 21) (.sub (.rd (.arr .jac 21)) (.mul (.rd (.arr .h 7)) (.sub (.mul (.rd (.var .workTemp)) (.rd (.arr .jac 29))) (.mul (.mul (.mul (.rd (.var .jTemp)) (.sub (.rd (.arr .cp 0)) (.rd (.arr .cp 20)))) (.rd (.arr .spRates 7))) (.num 1402688 5))))),
  .set (.arr .jac 50) (.add (.rd (.arr .jac 50)) (.mul (.mul (.mul (.rd (.arr .spRates 7)) (.rd (.var .mwAvg))) (.num 13415664972144553 15)) (.rd (.var .rhoInv)))),
  .set (.arr .jac 42) (.sub (.rd (.arr .jac 42)) (.mul (.rd (.arr .h 7)) (.sub (.mul (.rd (.var .workTemp)) (.rd (.arr .jac 50))) (.mul (.mul (.mul (.rd (.var .jTemp)) (.sub (.rd (.arr .cp 1)) (.rd (.arr .cp 20)))) (.rd (.arr .spRates 7))) (.num 1402688 5))))),
  .set (.arr .jac 71) (.add (.rd (.arr .jac 71)) (.mul (.mul (.mul (.rd (.arr .spRates 7)) (.rd (.var .mwAvg))) (.num 37599393713665458 17)) (.rd (.var .rhoInv)))),
  .set (.arr .jac 63) (.sub (.rd (.arr .jac 63)) (.mul (.rd (.arr .h 7)) (.sub (.mul (.rd (.var .workTemp)) (.rd (.arr .jac 71))) (.mul (.mul (.mul (.rd (.var .jTemp)) (.sub (.rd (.arr .cp 2)) (.rd (.arr .cp 20)))) (.rd (.arr .spRates 7))) (.num 1402688 5))))),
  .set (.arr .jac 92) (.add (.rd (.arr .jac 92)) (.mul (.mul (.mul (.rd (.arr .spRates 7)) (.rd (.var .mwAvg))) (.neg (.num 62362501229784151 18))) (.rd (.var .rhoInv)))),
  .set (.arr .jac 84) (.sub (.rd (.arr .jac 84)) (.mul (.rd (.arr .h 7)) (.sub (.mul (.rd (.var .workTemp)) (.rd (.arr .jac 92))) (.mul (.mul (.mul (.rd (.var .jTemp)) (.sub (.rd (.arr .cp 3)) (.rd (.arr .cp 20)))) (.rd (.arr .spRates 7))) (.num 1402688 5))))),
  .set (.arr .jac 113) (.add (.rd (.arr .jac 113)) (.mul (.mul (.mul (.rd (.arr .spRates 7)) (.rd (.var .mwAvg))) (.num 32403554875998097 17)) (.rd (.var .rhoInv)))),
  .set (.arr .jac 105) (.sub (.rd (.arr .jac 105)) (.mul (.rd (.arr .h 7)) (.sub (.mul (.rd (.var .workTemp)) (.rd (.arr .jac 113))) (.mul (.mul (.mul (.rd (.var .jTemp)) (.sub (.rd (.arr .cp 4)) (.rd (.arr .cp 20)))) (.rd (.arr .spRates 7))) (.num 1402688 5))))),
  .set (.arr .jac 134) (.add (.rd (.arr .jac 134)) (.mul (.mul (.mul (.rd (.arr .spRates 7)) (.rd (.var .mwAvg))) (.num 27789121800332584 17)) (.rd (.var .rhoInv)))),
  .set (.arr .jac 126) (.sub (.rd (.arr .jac 126)) (.mul (.rd (.arr .h 7)) (.sub (.mul (.rd (.var .workTemp)) (.rd (.arr .jac 134))) (.mul (.mul (.mul (.rd (.var .jTemp)) (.sub (.rd (.arr .cp 5)) (.rd (.arr .cp 20)))) (.rd (.arr .spRates 7))) (.num 1402688 5))))),
  .set (.arr .jac 155) (.add (.rd (.arr .jac 155)) (.mul (.mul (.mul (.rd (.arr .spRates 7)) (.rd (.var .mwAvg))) (.neg (.num 75748766837568218 18))) (.rd (.var .rhoInv)))),
  .set (.arr .jac 147) (.sub (.rd (.arr .jac 147)) (.mul (.rd (.arr .h 7)) (.sub (.mul (.rd (.var .workTemp)) (.rd (.arr .jac 155))) (.mul (.mul (.mul (.rd (.var .jTemp)) (.sub (.rd (.arr .cp 6)) (.rd (.arr .cp 20)))) (.rd (.arr .spRates 7))) (.num 1402688 5))))),
  .set (.arr .jac 176) (.add (.rd (.arr .jac 176)) (.mul (.mul (.mul (.rd (.arr .spRates 7)) (.rd (.var .mwAvg))) (.num 49928106040377707 17)) (.rd (.var .rhoInv)))),
  .set (.arr .jac 168) (.sub (.rd (.arr .jac 168)) (.mul (.rd (.arr .h 7)) (.sub (.mul (.rd (.var .workTemp)) (.rd (.arr .jac 176))) (.mul (.mul (.mul (.rd (.var .jTemp)) (.sub (.rd (.arr .cp 7)) (.rd (.arr .cp 20)))) (.rd (.arr .spRates 7))) (.num 1402688 5))))),
  .set (.arr .jac 197) (.add (.rd (.arr .jac 197)) (.mul (.mul (.mul (.rd (.arr .spRates 7)) (.rd (.var .mwAvg))) (.num 49928106040377707 17)) (.rd (.var .rhoInv)))),
  .set (.arr .jac 189) (.sub (.rd (.arr .jac 189)) (.mul (.rd (.arr .h 7)) (.sub (.mul (.rd (.var .workTemp)) (.rd (.arr .jac 197))) (.mul (.mul (.mul (.rd (.var .jTemp)) (.sub (.rd (.arr .cp 8)) (.rd (.arr .cp 20)))) (.rd (.arr .spRates 7))) (.num 1402688 5))))),
  .set (.arr .jac 218) (.add (.rd (.arr .jac 218)) (.mul (.mul (.mul (.rd (.arr .spRates 7)) (.rd (.var .mwAvg))) (.num 43224068346544325 17)) (.rd (.var .rhoInv)))),
  .set (.arr .jac 210) (.sub (.rd (.arr .jac 210)) (.mul (.rd (.arr .h 7)) (.sub (.mul (.rd (.var .workTemp)) (.rd (.arr .jac 218))) (.mul (.mul (.mul (.rd (.var .jTemp)) (.sub (.rd (.arr .cp 9)) (.rd (.arr .cp 20)))) (.rd (.arr .spRates 7))) (.num 1402688 5))))),
  .set (.arr .jac 239) (.add (.rd (.arr .jac 239)) (.mul (.mul (.mul (.rd (.arr .spRates 7)) (.rd (.var .mwAvg))) (.num 3736243778878009 16)) (.rd (.var .rhoInv)))),
  .set (.arr .jac 231) (.sub (.rd (.arr .jac 231)) (.mul (.rd (.arr .h 7)) (.sub (.mul (.rd (.var .workTemp)) (.rd (.arr .jac 239))) (.mul (.mul (.mul (.rd (.var .jTemp)) (.sub (.rd (.arr .cp 10)) (.rd (.arr .cp 20)))) (.rd (.arr .spRates 7))) (.num 1402688 5))))),
  .set (.arr .jac 260) (.add (.rd (.arr .jac 260)) (.mul (.mul (.mul (.rd (.arr .spRates 7)) (.rd (.var .mwAvg))) (.num 55058633006259423 21)) (.rd (.var .rhoInv)))),
  .set (.arr .jac 252) (.sub (.rd (.arr .jac 252)) (.mul (.rd (.arr .h 7)) (.sub (.mul (.rd (.var .workTemp)) (.rd (.arr .jac 260))) (.mul (.mul (.mul (.rd (.var .jTemp)) (.sub (.rd (.arr .cp 11)) (.rd (.arr .cp 20)))) (.rd (.arr .spRates 7))) (.num 1402688 5))))),
  .set (.arr .jac 281) (.add (.rd (.arr .jac 281)) (.mul (.mul (.mul (.rd (.arr .spRates 7)) (.rd (.var .mwAvg))) (.neg (.num 18199720034723743 17))) (.rd (.var .rhoInv)))),
  .set (.arr .jac 273) (.sub (.rd (.arr .jac 273)) (.mul (.rd (.arr .h 7)) (.sub (.mul (.rd (.var .workTemp)) (.rd (.arr .jac 281))) (.mul (.mul (.mul (.rd (.var .jTemp)) (.sub (.rd (.arr .cp 12)) (.rd (.arr .cp 20)))) (.rd (.arr .spRates 7))) (.num 1402688 5))))),
  .set (.arr .jac 302) (.add (.rd (.arr .jac 302)) (.mul (.mul (.mul (.rd (.arr .spRates 7)) (.rd (.var .mwAvg))) (.neg (.num 17339118421062609 18))) (.rd (.var .rhoInv)))),
  .set (.arr .jac 294) (.sub (.rd (.arr .jac 294)) (.mul (.rd (.arr .h 7)) (.sub (.mul (.rd (.var .workTemp)) (.rd (.arr .jac 302))) (.mul (.mul (.mul (.rd (.var .jTemp)) (.sub (.rd (.arr .cp 13)) (.rd (.arr .cp 20)))) (.rd (.arr .spRates 7))) (.num 1402688 5))))),
  .set (.arr .jac 323) (.add (.rd (.arr .jac 323)) (.mul (.mul (.mul (.rd (.arr .spRates 7)) (.rd (.var .mwAvg))) (.neg (.num 33565499343217925 18))) (.rd (.var .rhoInv)))),
  .set (.arr .jac 315) (.sub (.rd (.arr .jac 315)) (.mul (.rd (.arr .h 7)) (.sub (.mul (.rd (.var .workTemp)) (.rd (.arr .jac 323))) (.mul (.mul (.mul (.rd (.var .jTemp)) (.sub (.rd (.arr .cp 14)) (.rd (.arr .cp 20)))) (.rd (.arr .spRates 7))) (.num 1402688 5))))),
  .set (.arr .jac 344) (.add (.rd (.arr .jac 344)) (.mul (.mul (.mul (.rd (.arr .spRates 7)) (.rd (.var .mwAvg))) (.neg (.num 48737868378708762 18))) (.rd (.var .rhoInv)))),
  .set (.arr .jac 336) (.sub (.rd (.arr .jac 336)) (.mul (.rd (.arr .h 7)) (.sub (.mul (.rd (.var .workTemp)) (.rd (.arr .jac 344))) (.mul (.mul (.mul (.rd (.var .jTemp)) (.sub (.rd (.arr .cp 15)) (.rd (.arr .cp 20)))) (.rd (.arr .spRates 7))) (.num 1402688 5))))),
  .set (.arr .jac 365) (.add (.rd (.arr .jac 365)) (.mul (.mul (.mul (.rd (.arr .spRates 7)) (.rd (.var .mwAvg))) (.neg (.num 71893959622293391 20))) (.rd (.var .rhoInv)))),
  .set (.arr .jac 357) (.sub (.rd (.arr .jac 357)) (.mul (.rd (.arr .h 7)) (.sub (.mul (.rd (.var .workTemp)) (.rd (.arr .jac 365))) (.mul (.mul (.mul (.rd (.var .jTemp)) (.sub (.rd (.arr .cp 16)) (.rd (.arr .cp 20)))) (.rd (.arr .spRates 7))) (.num 1402688 5))))),
  .set (.arr .jac 386) (.add (.rd (.arr .jac 386)) (.mul (.mul (.mul (.rd (.arr .spRates 7)) (.rd (.var .mwAvg))) (.neg (.num 18060320176161465 18))) (.rd (.var .rhoInv)))),
  .set (.arr .jac 378) (.sub (.rd (.arr .jac 378)) (.mul (.rd (.arr .h 7)) (.sub (.mul (.rd (.var .workTemp)) (.rd (.arr .jac 386))) (.mul (.mul (.mul (.rd (.var .jTemp)) (.sub (.rd (.arr .cp 17)) (.rd (.arr .cp 20)))) (.rd (.arr .spRates 7))) (.num 1402688 5))))),
  .set (.arr .jac 407) (.add (.rd (.arr .jac 407)) (.mul (.mul (.mul (.rd (.arr .spRates 7)) (.rd (.var .mwAvg))) (.neg (.num 34239128065389812 18))) (.rd (.var .rhoInv)))),
  .set (.arr .jac 399) (.sub (.rd (.arr .jac 399)) (.mul (.rd (.arr .h 7)) (.sub (.mul (.rd (.var .workTemp)) (.rd (.arr .jac 407))) (.mul (.mul (.mul (.rd (.var .jTemp)) (.sub (.rd (.arr .cp 18)) (.rd (.arr .cp 20)))) (.rd (.arr .spRates 7))) (.num 1402688 5))))),
  .set (.arr .jac 428) (.add (.rd (.arr .jac 428)) (.mul (.mul (.mul (.rd (.arr .spRates 7)) (.rd (.var .mwAvg))) (.neg (.num 14959047258911368 17))) (.rd (.var .rhoInv)))),
  .set (.arr .jac 420) (.sub (.rd (.arr .jac 420)) (.mul (.rd (.arr .h 7)) (.sub (.mul (.rd (.var .workTemp)) (.rd (.arr .jac 428))) (.mul (.mul (.mul (.rd (.var .jTemp)) (.sub (.rd (.arr .cp 19)) (.rd (.arr .cp 20)))) (.rd (.arr .spRates 7))) (.num 1402688 5)))))]

/-- utilities/mechanisms/drm19/lib/src/jacobs/jacob_3.c:327-366 -/
def jacobEnd8 : List CStmt := [
  .set (.arr .jac 30) (.add (.rd (.arr .jac 30)) (.mul (.mul (.mul (.rd (.arr .spRates 8)) (.rd (.var .mwAvg))) (.num 64574730162741654 16)) (.rd (.var .rhoInv)))),
  .set (.arr .jac 21) (.sub (.rd (.arr .jac 21)) (.mul (.rd (.arr .h 8)) (.sub (.mul (.rd (.var .workTemp)) (.rd (.arr .jac 30))) (.mul (.mul (.mul (.rd (.var .jTemp)) (.sub (.rd (.arr .cp 0)) (.rd (.arr .cp 20)))) (.rd (.arr .spRates 8))) (.num 1402688 5))))),
  .set (.arr .jac 51) (.add (.rd (.arr .jac 51)) (.mul (.mul (.mul (.rd (.arr .spRates 8)) (.rd (.var .mwAvg))) (.num 13415664972144553 15)) (.rd (.var .rhoInv)))),
  .set (.arr .jac 42) (.sub (.rd (.arr .jac 42)) (.mul (.rd (.arr .h 8)) (.sub (.mul (.rd (.var .workTemp)) (.rd (.arr .jac 51))) (.mul (.mul (.mul (.rd (.var .jTemp)) (.sub (.rd (.arr .cp 1)) (.rd (.arr .cp 20)))) (.rd (.arr .spRates 8))) (.num 1402688 5))))),
  .set (.arr .jac 72) (.add (.rd (.arr .jac 72)) (.mul (.mul (.mul (.rd (.arr .spRates 8)) (.rd (.var .mwAvg))) (.num 37599393713665458 17)) (.rd (.var .rhoInv)))),
  .set (.arr .jac 63) (.sub (.rd (.arr .jac 63)) (.mul (.rd (.arr .h 8)) (.sub (.mul (.rd (.var .workTemp)) (.rd (.arr .jac 72))) (.mul (.mul (.mul (.rd (.var .jTemp)) (.sub (.rd (.arr .cp 2)) (.rd (.arr .cp 20)))) (.rd (.arr .spRates 8))) (.num 1402688 5))))),
  .set (.arr .jac 93) (.add (.rd (.arr .jac 93)) (.mul (.mul (.mul (.rd (.arr .spRates 8)) (.rd (.var .mwAvg))) (.neg (.num 62362501229784151 18))) (.rd (.var .rhoInv)))),
  .set (.arr .jac 84) (.sub (.rd (.arr .jac 84)) (.mul (.rd (.arr .h 8)) (.sub (.mul (.rd (.var .workTemp)) (.rd (.arr .jac 93))) (.mul (.mul (.mul (.rd (.var .jTemp)) (.sub (.rd (.arr .cp 3)) (.rd (.arr .cp 20)))) (.rd (.arr .spRates 8))) (.num 1402688 5))))),
  .set (.arr .jac 114) (.add (.rd (.arr .jac 114)) (.mul (.mul (.mul (.rd (.arr .spRates 8)) (.rd (.var .mwAvg))) (.num 32403554875998097 17)) (.rd (.var .rhoInv)))),
  .set (.arr .jac 105) (.sub (.rd (.arr .jac 105)) (.mul (.rd (.arr .h 8)) (.sub (.mul (.rd (.var .workTemp)) (.rd (.arr .jac 114))) (.mul (.mul (.mul (.rd (.var .jTemp)) (.sub (.rd (.arr .cp 4)) (.rd (.arr .cp 20)))) (.rd (.arr .spRates 8))) (.num 1402688 5))))),
  .set (.arr .jac 135) (.add (.rd (.arr .jac 135)) (.mul (.mul (.mul (.rd (.arr .spRates 8)) (.rd (.var .mwAvg))) (.num 27789121800332584 17)) (.rd (.var .rhoInv)))),
  .set (.arr .jac 126) (.sub (.rd (.arr .jac 126)) (.mul (.rd (.arr .h 8)) (.sub (.mul (.rd (.var .workTemp)) (.rd (.arr .jac 135))) (.mul (.mul (.mul (.rd (.var .jTemp)) (.sub (.rd (.arr .cp 5)) (.rd (.arr .cp 20)))) (.rd (.arr .spRates 8))) (.num 1402688 5))))),
  .set (.arr .jac 156) (.add (.rd (.arr .jac 156)) (.mul (.mul (.mul (.rd (.arr .spRates 8)) (.rd (.var .mwAvg))) (.neg (.num 75748766837568218 18))) (.rd (.var .rhoInv)))),
  .set (.arr .jac 147) (.sub (.rd (.arr .jac 147)) (.mul (.rd (.arr .h 8)) (.sub (.mul (.rd (.var .workTemp)) (.rd (.arr .jac 156))) (.mul (.mul (.mul (.rd (.var .jTemp)) (.sub (.rd (.arr .cp 6)) (.rd (.arr .cp 20)))) (.rd (.arr .spRates 8))) (.num 1402688 5))))),
  .set (.arr .jac 177) (.add (.rd (.arr .jac 177)) (.mul (.mul (.mul (.rd (.arr .spRates 8)) (.rd (.var .mwAvg))) (.num 49928106040377707 17)) (.rd (.var .rhoInv)))),
  .set (.arr .jac 168) (.sub (.rd (.arr .jac 168)) (.mul (.rd (.arr .h 8)) (.sub (.mul (.rd (.var .workTemp)) (.rd (.arr .jac 177))) (.mul (.mul (.mul (.rd (.var .jTemp)) (.sub (.rd (.arr .cp 7)) (.rd (.arr .cp 20)))) (.rd (.arr .spRates 8))) (.num 1402688 5))))),
  .set (.arr .jac 198) (.add (.rd (.arr .jac 198)) (.mul (.mul (.mul (.rd (.arr .spRates 8)) (.rd (.var .mwAvg))) (.num 49928106040377707 17)) (.rd (.var .rhoInv)))),
  .set (.arr .jac 189) (.sub (.rd (.arr .jac 189)) (.mul (.rd (.arr .h 8)) (.sub (.mul (.rd (.var .workTemp)) (.rd (.arr .jac 198))) (.mul (.mul (.mul (.rd (.var .jTemp)) (.sub (.rd (.arr .cp 8)) (.rd (.arr .cp 20)))) (.rd (.arr .spRates 8))) (.num 1402688 5))))),
  .set (.arr .jac 219) (.add (.rd (.arr .jac 219)) (.mul (.mul (.mul (.rd (.arr .spRates 8)) (.rd (.var .mwAvg))) (.num 43224068346544325 17)) (.rd (.var .rhoInv)))),
  .set (.arr .jac 210) (.sub (.rd (.arr .jac 210)) (.mul (.rd (.arr .h 8)) (.sub (.mul (.rd (.var .workTemp)) (.rd (.arr .jac 219))) (.mul (.mul (.mul (.rd (.var .jTemp)) (.sub (.rd (.arr .cp 9)) (.rd (.arr .cp 20)))) (.rd (.arr .spRates 8))) (.num 1402688 5))))),
  .set (.arr .jac 240) (.add (.rd (.arr .jac 240)) (.mul (.mul (.mul (.rd (.arr .spRates 8)) (.rd (.var .mwAvg))) (.num 3736243778878009 16)) (.rd (.var .rhoInv)))),
  .set (.arr .jac 231) (.sub (.rd (.arr .jac 231)) (.mul (.rd (.arr .h 8)) (.sub (.mul (.rd (.var .workTemp)) (.rd (.arr .jac 240))) (.mul (.mul (.mul (.rd (.var .jTemp)) (.sub (.rd (.arr .cp 10)) (.rd (.arr .cp 20)))) (.rd (.arr .spRates 8))) (.num 1402688 5))))),
  .set (.arr .jac 261) (.add (.rd (.arr .jac 261)) (.mul (.mul (.mul (.rd (.arr .spRates 8)) (.rd (.var .mwAvg))) (.num 55058633006259423 21)) (.rd (.var .rhoInv)))),
  .set (.arr .jac 252) (.sub (.rd (.arr .jac 252)) (.mul (.rd (.arr .h 8)) (.sub (.mul (.rd (.var .workTemp)) (.rd (.arr .jac 261))) (.mul (.mul (.mul (.rd (.var .jTemp)) (.sub (.rd (.arr .cp 11)) (.rd (.arr .cp 20)))) (.rd (.arr .spRates 8))) (.num 1402688 5))))),
  .set (.arr .jac 282) (.add (.rd (.arr .jac 282)) (.mul (.mul (.mul (.rd (.arr .spRates 8)) (.rd (.var .mwAvg))) (.neg (.num 18199720034723743 17))) (.rd (.var .rhoInv)))),
  .set (.arr .jac 273) (.sub (.rd (.arr .jac 273)) (.mul (.rd (.arr .h 8)) (.sub (.mul (.rd (.var .workTemp)) (.rd (.arr .jac 282))) (.mul (.mul (.mul (.rd (.var .jTemp)) (.sub (.rd (.arr .cp 12)) (.rd (.arr .cp 20)))) (.rd (.arr .spRates 8))) (.num 1402688 5))))),
  .set (.arr .jac 303) (.add (.rd (.arr .jac 303)) (.mul (.mul (.mul (.rd (.arr .spRates 8)) (.rd (.var .mwAvg))) (.neg (.num 17339118421062609 18))) (.rd (.var .rhoInv)))),
  .set (.arr .jac 294) (.sub (.rd (.arr .jac 294)) (.mul (.rd (.arr .h 8)) (.sub (.mul (.rd (.var .workTemp)) (.rd (.arr .jac 303))) (.mul (.mul (.mul (.rd (.var .jTemp)) (.sub (.rd (.arr .cp 13)) (.rd (.arr .cp 20)))) (.rd (.arr .spRates 8))) (.num 1402688 5))))),
  .set (.arr .jac 324) (.add (.rd (.arr .jac 324)) (.mul (.mul (.mul (.rd (.arr .spRates 8)) (.rd (.var .mwAvg))) (.neg (.num 33565499343217925 18))) (.rd (.var .rhoInv)))),
  .set (.arr .jac 315) (.sub (.rd (.arr .jac 315)) (.mul (.rd (.arr .h 8)) (.sub (.mul (.rd (.var .workTemp)) (.rd (.arr .jac 324))) (.mul (.mul (.mul (.rd (.var .jTemp)) (.sub (.rd (.arr .cp 14)) (.rd (.arr .cp 20)))) (.rd (.arr .spRates 8))) (.num 1402688 5))))),
  .set (.arr .jac 345) (.add (.rd (.arr .jac 345)) (.mul (.mul (.mul (.rd (.arr .spRates 8)) (.rd (.var .mwAvg))) (.neg (.num 48737868378708762 18))) (.rd (.var .rhoInv)))),
  .set (.arr .jac 336) (.sub (.rd (.arr .jac 336)) (.mul (.rd (.arr .h 8)) (.sub (.mul (.rd (.var .workTemp)) (.rd (.arr .jac 345))) (.mul (.mul (.mul (.rd (.var .jTemp)) (.sub (.rd (.arr .cp 15)) (.rd (.arr .cp 20)))) (.rd (.arr .spRates 8))) (.num 1402688 5))))),
  .set (.arr .jac 366) (.add (.rd (.arr .jac 366)) (.mul (.mul (.mul (.rd (.arr .spRates 8)) (.rd (.var .mwAvg))) (.neg (.num 71893959622293391 20))) (.rd (.var .rhoInv)))),
  .set (.arr .jac 357) (.sub (.rd (.arr .jac 357)) (.mul (.rd (.arr .h 8)) (.sub (.mul (.rd (.var .workTemp)) (.rd (.arr .jac 366))) (.mul (.mul (.mul (.rd (.var .jTemp)) (.sub (.rd (.arr .cp 16)) (.rd (.arr .cp 20)))) (.rd (.arr .spRates 8))) (.num 1402688 5))))),
  .set (.arr .jac 387) (.add (.rd (.arr .jac 387)) (.mul (.mul (.mul (.rd (.arr .spRates 8)) (.rd (.var .mwAvg))) (.neg (.num 18060320176161465 18))) (.rd (.var .rhoInv)))),
  .set (.arr .jac 378) (.sub (.rd (.arr .jac 378)) (.mul (.rd (.arr .h 8)) (.sub (.mul (.rd (.var .workTemp)) (.rd (.arr .jac 387))) (.mul (.mul (.mul (.rd (.var .jTemp)) (.sub (.rd (.arr .cp 17)) (.rd (.arr .cp 20)))) (.rd (.arr .spRates 8))) (.num 1402688 5))))),
  .set (.arr .jac 408) (.add (.rd (.arr .jac 408)) (.mul (.mul (.mul (.rd (.arr .spRates 8)) (.rd (.var .mwAvg))) (.neg (.num 34239128065389812 18))) (.rd (.var .rhoInv)))),
  .set (.arr .jac 399) (.sub (.rd (.arr .jac 399)) (.mul (.rd (.arr .h 8)) (.sub (.mul (.rd (.var .workTemp)) (.rd (.arr .jac 408))) (.mul (.mul (.mul (.rd (.var .jTemp)) (.sub (.rd (.arr .cp 18)) (.rd (.arr .cp 20)))) (.rd (.arr .spRates 8))) (.num 1402688 5))))),
  .set (.arr .jac 429) (.add (.rd (.arr .jac 429)) (.mul (.mul (.mul (.rd (.arr .spRates 8)) (.rd (.var .mwAvg))) (.neg (.num 14959047258911368 17))) (.rd (.var .rhoInv)))),
  .set (.arr .jac 420) (.sub (.rd (.arr .jac 420)) (.mul (.rd (.arr .h 8)) (.sub (.mul (.rd (.var .workTemp)) (.rd (.arr .jac 429))) (.mul (.mul (.mul (.rd (.var .jTemp)) (.sub (.rd (.arr .cp 19)) (.rd (.arr .cp 20)))) (.rd (.arr .spRates 8))) (.num 1402688 5)))))]

/-- utilities/mechanisms/drm19/lib/src/jacobs/jacob_3.c:367-406 -/
def jacobEnd9 : List CStmt := [
  .set (.arr .jac 31) (.add (.rd (.arr .jac 31)) (.mul (.mul (.mul (.rd (.arr .spRates 9)) (.rd (.var .mwAvg))) (.num 69214924811889142 16)) (.rd (.var .rhoInv)))),
  .set (.arr .jac 21) (.sub (.rd (.arr .jac 21)) (.mul (.rd (.arr .h 9)) (.sub (.mul (.rd (.var .workTemp)) (.rd (.arr .jac 31))) (.mul (.mul (.mul (.rd (.var .jTemp)) (.sub (.rd (.arr .cp 0)) (.rd (.arr .cp 20)))) (.rd (.arr .spRates 9))) (.num 1503482 5))))),
  .set (.arr .jac 52) (.add (.rd (.arr .jac 52)) (.mul (.mul (.mul (.rd (.arr .spRates 9)) (.rd (.var .mwAvg))) (.num 14379684437059302 15)) (.rd (.var .rhoInv)))),
  .set (.arr .jac 42) (.sub (.rd (.arr .jac 42)) (.mul (.rd (.arr .h 9)) (.sub (.mul (.rd (.var .workTemp)) (.rd (.arr .jac 52))) (.mul (.mul (.mul (.rd (.var .jTemp)) (.sub (.rd (.arr .cp 1)) (.rd (.arr .cp 20)))) (.rd (.arr .spRates 9))) (.num 1503482 5))))),
  .set (.arr .jac 73) (.add (.rd (.arr .jac 73)) (.mul (.mul (.mul (.rd (.arr .spRates 9)) (.rd (.var .mwAvg))) (.num 40301201449936958 17)) (.rd (.var .rhoInv)))),
  .set (.arr .jac 63) (.sub (.rd (.arr .jac 63)) (.mul (.rd (.arr .h 9)) (.sub (.mul (.rd (.var .workTemp)) (.rd (.arr .jac 73))) (.mul (.mul (.mul (.rd (.var .jTemp)) (.sub (.rd (.arr .cp 2)) (.rd (.arr .cp 20)))) (.rd (.arr .spRates 9))) (.num 1503482 5))))),
  .set (.arr .jac 94) (.add (.rd (.arr .jac 94)) (.mul (.mul (.mul (.rd (.arr .spRates 9)) (.rd (.var .mwAvg))) (.neg (.num 66843730091052558 18))) (.rd (.var .rhoInv)))),
  .set (.arr .jac 84) (.sub (.rd (.arr .jac 84)) (.mul (.rd (.arr .h 9)) (.sub (.mul (.rd (.var .workTemp)) (.rd (.arr .jac 94))) (.mul (.mul (.mul (.rd (.var .jTemp)) (.sub (.rd (.arr .cp 3)) (.rd (.arr .cp 20)))) (.rd (.arr .spRates 9))) (.num 1503482 5))))),
  .set (.arr .jac 115) (.add (.rd (.arr .jac 115)) (.mul (.mul (.mul (.rd (.arr .spRates 9)) (.rd (.var .mwAvg))) (.num 34732001337485863 17)) (.rd (.var .rhoInv)))),
  .set (.arr .jac 105) (.sub (.rd (.arr .jac 105)) (.mul (.rd (.arr .h 9)) (.sub (.mul (.rd (.var .workTemp)) (.rd (.arr .jac 115))) (.mul (.mul (.mul (.rd (.var .jTemp)) (.sub (.rd (.arr .cp 4)) (.rd (.arr .cp 20)))) (.rd (.arr .spRates 9))) (.num 1503482 5))))),
  .set (.arr .jac 136) (.add (.rd (.arr .jac 136)) (.mul (.mul (.mul (.rd (.arr .spRates 9)) (.rd (.var .mwAvg))) (.num 29785985495425665 17)) (.rd (.var .rhoInv)))),
  .set (.arr .jac 126) (.sub (.rd (.arr .jac 126)) (.mul (.rd (.arr .h 9)) (.sub (.mul (.rd (.var .workTemp)) (.rd (.arr .jac 136))) (.mul (.mul (.mul (.rd (.var .jTemp)) (.sub (.rd (.arr .cp 5)) (.rd (.arr .cp 20)))) (.rd (.arr .spRates 9))) (.num 1503482 5))))),
  .set (.arr .jac 157) (.add (.rd (.arr .jac 157)) (.mul (.mul (.mul (.rd (.arr .spRates 9)) (.rd (.var .mwAvg))) (.neg (.num 81191902591653139 18))) (.rd (.var .rhoInv)))),
  .set (.arr .jac 147) (.sub (.rd (.arr .jac 147)) (.mul (.rd (.arr .h 9)) (.sub (.mul (.rd (.var .workTemp)) (.rd (.arr .jac 157))) (.mul (.mul (.mul (.rd (.var .jTemp)) (.sub (.rd (.arr .cp 6)) (.rd (.arr .cp 20)))) (.rd (.arr .spRates 9))) (.num 1503482 5))))),
  .set (.arr .jac 178) (.add (.rd (.arr .jac 178)) (.mul (.mul (.mul (.rd (.arr .spRates 9)) (.rd (.var .mwAvg))) (.num 53515827272921102 17)) (.rd (.var .rhoInv)))),
  .set (.arr .jac 168) (.sub (.rd (.arr .jac 168)) (.mul (.rd (.arr .h 9)) (.sub (.mul (.rd (.var .workTemp)) (.rd (.arr .jac 178))) (.mul (.mul (.mul (.rd (.var .jTemp)) (.sub (.rd (.arr .cp 7)) (.rd (.arr .cp 20)))) (.rd (.arr .spRates 9))) (.num 1503482 5))))),
  .set (.arr .jac 199) (.add (.rd (.arr .jac 199)) (.mul (.mul (.mul (.rd (.arr .spRates 9)) (.rd (.var .mwAvg))) (.num 53515827272921102 17)) (.rd (.var .rhoInv)))),
  .set (.arr .jac 189) (.sub (.rd (.arr .jac 189)) (.mul (.rd (.arr .h 9)) (.sub (.mul (.rd (.var .workTemp)) (.rd (.arr .jac 199))) (.mul (.mul (.mul (.rd (.var .jTemp)) (.sub (.rd (.arr .cp 8)) (.rd (.arr .cp 20)))) (.rd (.arr .spRates 9))) (.num 1503482 5))))),
  .set (.arr .jac 220) (.add (.rd (.arr .jac 220)) (.mul (.mul (.mul (.rd (.arr .spRates 9)) (.rd (.var .mwAvg))) (.num 46330052531852528 17)) (.rd (.var .rhoInv)))),
  .set (.arr .jac 210) (.sub (.rd (.arr .jac 210)) (.mul (.rd (.arr .h 9)) (.sub (.mul (.rd (.var .workTemp)) (.rd (.arr .jac 220))) (.mul (.mul (.mul (.rd (.var .jTemp)) (.sub (.rd (.arr .cp 9)) (.rd (.arr .cp 20)))) (.rd (.arr .spRates 9))) (.num 1503482 5))))),
  .set (.arr .jac 241) (.add (.rd (.arr .jac 241)) (.mul (.mul (.mul (.rd (.arr .spRates 9)) (.rd (.var .mwAvg))) (.num 40047218406053714 17)) (.rd (.var .rhoInv)))),
  .set (.arr .jac 231) (.sub (.rd (.arr .jac 231)) (.mul (.rd (.arr .h 9)) (.sub (.mul (.rd (.var .workTemp)) (.rd (.arr .jac 241))) (.mul (.mul (.mul (.rd (.var .jTemp)) (.sub (.rd (.arr .cp 10)) (.rd (.arr .cp 20)))) (.rd (.arr .spRates 9))) (.num 1503482 5))))),
  .set (.arr .jac 262) (.add (.rd (.arr .jac 262)) (.mul (.mul (.mul (.rd (.arr .spRates 9)) (.rd (.var .mwAvg))) (.num 59015022349600859 21)) (.rd (.var .rhoInv)))),
  .set (.arr .jac 252) (.sub (.rd (.arr .jac 252)) (.mul (.rd (.arr .h 9)) (.sub (.mul (.rd (.var .workTemp)) (.rd (.arr .jac 262))) (.mul (.mul (.mul (.rd (.var .jTemp)) (.sub (.rd (.arr .cp 11)) (.rd (.arr .cp 20)))) (.rd (.arr .spRates 9))) (.num 1503482 5))))),
  .set (.arr .jac 283) (.add (.rd (.arr .jac 283)) (.mul (.mul (.mul (.rd (.arr .spRates 9)) (.rd (.var .mwAvg))) (.neg (.num 1950751091992412 16))) (.rd (.var .rhoInv)))),
  .set (.arr .jac 273) (.sub (.rd (.arr .jac 273)) (.mul (.rd (.arr .h 9)) (.sub (.mul (.rd (.var .workTemp)) (.rd (.arr .jac 283))) (.mul (.mul (.mul (.rd (.var .jTemp)) (.sub (.rd (.arr .cp 12)) (.rd (.arr .cp 20)))) (.rd (.arr .spRates 9))) (.num 1503482 5))))),
  .set (.arr .jac 304) (.add (.rd (.arr .jac 304)) (.mul (.mul (.mul (.rd (.arr .spRates 9)) (.rd (.var .mwAvg))) (.neg (.num 18585068412887297 18))) (.rd (.var .rhoInv)))),
  .set (.arr .jac 294) (.sub (.rd (.arr .jac 294)) (.mul (.rd (.arr .h 9)) (.sub (.mul (.rd (.var .workTemp)) (.rd (.arr .jac 304))) (.mul (.mul (.mul (.rd (.var .jTemp)) (.sub (.rd (.arr .cp 13)) (.rd (.arr .cp 20)))) (.rd (.arr .spRates 9))) (.num 1503482 5))))),
  .set (.arr .jac 325) (.add (.rd (.arr .jac 325)) (.mul (.mul (.mul (.rd (.arr .spRates 9)) (.rd (.var .mwAvg))) (.neg (.num 35977440516736424 18))) (.rd (.var .rhoInv)))),
  .set (.arr .jac 315) (.sub (.rd (.arr .jac 315)) (.mul (.rd (.arr .h 9)) (.sub (.mul (.rd (.var .workTemp)) (.rd (.arr .jac 325))) (.mul (.mul (.mul (.rd (.var .jTemp)) (.sub (.rd (.arr .cp 14)) (.rd (.arr .cp 20)))) (.rd (.arr .spRates 9))) (.num 1503482 5))))),
  .set (.arr .jac 346) (.add (.rd (.arr .jac 346)) (.mul (.mul (.mul (.rd (.arr .spRates 9)) (.rd (.var .mwAvg))) (.neg (.num 52240061814001273 18))) (.rd (.var .rhoInv)))),
  .set (.arr .jac 336) (.sub (.rd (.arr .jac 336)) (.mul (.rd (.arr .h 9)) (.sub (.mul (.rd (.var .workTemp)) (.rd (.arr .jac 346))) (.mul (.mul (.mul (.rd (.var .jTemp)) (.sub (.rd (.arr .cp 15)) (.rd (.arr .cp 20)))) (.rd (.arr .spRates 9))) (.num 1503482 5))))),
  .set (.arr .jac 367) (.add (.rd (.arr .jac 367)) (.mul (.mul (.mul (.rd (.arr .spRates 9)) (.rd (.var .mwAvg))) (.neg (.num 77060097613186195 20))) (.rd (.var .rhoInv)))),
  .set (.arr .jac 357) (.sub (.rd (.arr .jac 357)) (.mul (.rd (.arr .h 9)) (.sub (.mul (.rd (.var .workTemp)) (.rd (.arr .jac 367))) (.mul (.mul (.mul (.rd (.var .jTemp)) (.sub (.rd (.arr .cp 16)) (.rd (.arr .cp 20)))) (.rd (.arr .spRates 9))) (.num 1503482 5))))),
  .set (.arr .jac 388) (.add (.rd (.arr .jac 388)) (.mul (.mul (.mul (.rd (.arr .spRates 9)) (.rd (.var .mwAvg))) (.neg (.num 19358094101536192 18))) (.rd (.var .rhoInv)))),
  .set (.arr .jac 378) (.sub (.rd (.arr .jac 378)) (.mul (.rd (.arr .h 9)) (.sub (.mul (.rd (.var .workTemp)) (.rd (.arr .jac 388))) (.mul (.mul (.mul (.rd (.var .jTemp)) (.sub (.rd (.arr .cp 17)) (.rd (.arr .cp 20)))) (.rd (.arr .spRates 9))) (.num 1503482 5))))),
  .set (.arr .jac 409) (.add (.rd (.arr .jac 409)) (.mul (.mul (.mul (.rd (.arr .spRates 9)) (.rd (.var .mwAvg))) (.neg (.num 3669947468147472 17))) (.rd (.var .rhoInv)))),
  .set (.arr .jac 399) (.sub (.rd (.arr .jac 399)) (.mul (.rd (.arr .h 9)) (.sub (.mul (.rd (.var .workTemp)) (.rd (.arr .jac 409))) (.mul (.mul (.mul (.rd (.var .jTemp)) (.sub (.rd (.arr .cp 18)) (.rd (.arr .cp 20)))) (.rd (.arr .spRates 9))) (.num 1503482 5))))),
  .set (.arr .jac 430) (.add (.rd (.arr .jac 430)) (.mul (.mul (.mul (.rd (.arr .spRates 9)) (.rd (.var .mwAvg))) (.neg (.num 16033970698346731 17))) (.rd (.var .rhoInv)))),
  .set (.arr .jac 420) (.sub (.rd (.arr .jac 420)) (.mul (.rd (.arr .h 9)) (.sub (.mul (.rd (.var .workTemp)) (.rd (.arr .jac 430))) (.mul (.mul (.mul (.rd (.var .jTemp)) (.sub (.rd (.arr .cp 19)) (.rd (.arr .cp 20)))) (.rd (.arr .spRates 9))) (.num 1503482 5)))))]

/-- utilities/mechanisms/drm19/lib/src/jacobs/jacob_3.c:407-446 -/
def jacobEnd10 : List CStmt := [
  .set (.arr .jac 32) (.add (.rd (.arr .jac 32)) (.mul (.mul (.mul (.rd (.arr .spRates 10)) (.rd (.var .mwAvg))) (.num 73855119461036631 16)) (.rd (.var .rhoInv)))),
  .set (.arr .jac 21) (.sub (.rd (.arr .jac 21)) (.mul (.rd (.arr .h 10)) (.sub (.mul (.rd (.var .workTemp)) (.rd (.arr .jac 32))) (.mul (.mul (.mul (.rd (.var .jTemp)) (.sub (.rd (.arr .cp 0)) (.rd (.arr .cp 20)))) (.rd (.arr .spRates 10))) (.num 1604276 5))))),
  .set (.arr .jac 53) (.add (.rd (.arr .jac 53)) (.mul (.mul (.mul (.rd (.arr .spRates 10)) (.rd (.var .mwAvg))) (.num 15343703901974052 15)) (.rd (.var .rhoInv)))),
  .set (.arr .jac 42) (.sub (.rd (.arr .jac 42)) (.mul (.rd (.arr .h 10)) (.sub (.mul (.rd (.var .workTemp)) (.rd (.arr .jac 53))) (.mul (.mul (.mul (.rd (.var .jTemp)) (.sub (.rd (.arr .cp 1)) (.rd (.arr .cp 20)))) (.rd (.arr .spRates 10))) (.num 1604276 5))))),
  .set (.arr .jac 74) (.add (.rd (.arr .jac 74)) (.mul (.mul (.mul (.rd (.arr .spRates 10)) (.rd (.var .mwAvg))) (.num 43003009186208457 17)) (.rd (.var .rhoInv)))),
  .set (.arr .jac 63) (.sub (.rd (.arr .jac 63)) (.mul (.rd (.arr .h 10)) (.sub (.mul (.rd (.var .workTemp)) (.rd (.arr .jac 74))) (.mul (.mul (.mul (.rd (.var .jTemp)) (.sub (.rd (.arr .cp 2)) (.rd (.arr .cp 20)))) (.rd (.arr .spRates 10))) (.num 1604276 5))))),
  .set (.arr .jac 95) (.add (.rd (.arr .jac 95)) (.mul (.mul (.mul (.rd (.arr .spRates 10)) (.rd (.var .mwAvg))) (.neg (.num 7132495895232098 17))) (.rd (.var .rhoInv)))),
  .set (.arr .jac 84) (.sub (.rd (.arr .jac 84)) (.mul (.rd (.arr .h 10)) (.sub (.mul (.rd (.var .workTemp)) (.rd (.arr .jac 95))) (.mul (.mul (.mul (.rd (.var .jTemp)) (.sub (.rd (.arr .cp 3)) (.rd (.arr .cp 20)))) (.rd (.arr .spRates 10))) (.num 1604276 5))))),
  .set (.arr .jac 116) (.add (.rd (.arr .jac 116)) (.mul (.mul (.mul (.rd (.arr .spRates 10)) (.rd (.var .mwAvg))) (.num 37060447798973634 17)) (.rd (.var .rhoInv)))),
  .set (.arr .jac 105) (.sub (.rd (.arr .jac 105)) (.mul (.rd (.arr .h 10)) (.sub (.mul (.rd (.var .workTemp)) (.rd (.arr .jac 116))) (.mul (.mul (.mul (.rd (.var .jTemp)) (.sub (.rd (.arr .cp 4)) (.rd (.arr .cp 20)))) (.rd (.arr .spRates 10))) (.num 1604276 5))))),
  .set (.arr .jac 137) (.add (.rd (.arr .jac 137)) (.mul (.mul (.mul (.rd (.arr .spRates 10)) (.rd (.var .mwAvg))) (.num 31782849190518753 17)) (.rd (.var .rhoInv)))),
  .set (.arr .jac 126) (.sub (.rd (.arr .jac 126)) (.mul (.rd (.arr .h 10)) (.sub (.mul (.rd (.var .workTemp)) (.rd (.arr .jac 137))) (.mul (.mul (.mul (.rd (.var .jTemp)) (.sub (.rd (.arr .cp 5)) (.rd (.arr .cp 20)))) (.rd (.arr .spRates 10))) (.num 1604276 5))))),
  .set (.arr .jac 158) (.add (.rd (.arr .jac 158)) (.mul (.mul (.mul (.rd (.arr .spRates 10)) (.rd (.var .mwAvg))) (.neg (.num 86635038345738047 18))) (.rd (.var .rhoInv)))),
  .set (.arr .jac 147) (.sub (.rd (.arr .jac 147)) (.mul (.rd (.arr .h 10)) (.sub (.mul (.rd (.var .workTemp)) (.rd (.arr .jac 158))) (.mul (.mul (.mul (.rd (.var .jTemp)) (.sub (.rd (.arr .cp 6)) (.rd (.arr .cp 20)))) (.rd (.arr .spRates 10))) (.num 1604276 5))))),
  .set (.arr .jac 179) (.add (.rd (.arr .jac 179)) (.mul (.mul (.mul (.rd (.arr .spRates 10)) (.rd (.var .mwAvg))) (.num 57103548505464508 17)) (.rd (.var .rhoInv)))),
  .set (.arr .jac 168) (.sub (.rd (.arr .jac 168)) (.mul (.rd (.arr .h 10)) (.sub (.mul (.rd (.var .workTemp)) (.rd (.arr .jac 179))) (.mul (.mul (.mul (.rd (.var .jTemp)) (.sub (.rd (.arr .cp 7)) (.rd (.arr .cp 20)))) (.rd (.arr .spRates 10))) (.num 1604276 5))))),
  .set (.arr .jac 200) (.add (.rd (.arr .jac 200)) (.mul (.mul (.mul (.rd (.arr .spRates 10)) (.rd (.var .mwAvg))) (.num 57103548505464508 17)) (.rd (.var .rhoInv)))),
  .set (.arr .jac 189) (.sub (.rd (.arr .jac 189)) (.mul (.rd (.arr .h 10)) (.sub (.mul (.rd (.var .workTemp)) (.rd (.arr .jac 200))) (.mul (.mul (.mul (.rd (.var .jTemp)) (.sub (.rd (.arr .cp 8)) (.rd (.arr .cp 20)))) (.rd (.arr .spRates 10))) (.num 1604276 5))))),
  .set (.arr .jac 221) (.add (.rd (.arr .jac 221)) (.mul (.mul (.mul (.rd (.arr .spRates 10)) (.rd (.var .mwAvg))) (.num 49436036717160731 17)) (.rd (.var .rhoInv)))),
  .set (.arr .jac 210) (.sub (.rd (.arr .jac 210)) (.mul (.rd (.arr .h 10)) (.sub (.mul (.rd (.var .workTemp)) (.rd (.arr .jac 221))) (.mul (.mul (.mul (.rd (.var .jTemp)) (.sub (.rd (.arr .cp 9)) (.rd (.arr .cp 20)))) (.rd (.arr .spRates 10))) (.num 1604276 5))))),
  .set (.arr .jac 242) (.add (.rd (.arr .jac 242)) (.mul (.mul (.mul (.rd (.arr .spRates 10)) (.rd (.var .mwAvg))) (.num 42731999023327338 17)) (.rd (.var .rhoInv)))),
  .set (.arr .jac 231) (.sub (.rd (.arr .jac 231)) (.mul (.rd (.arr .h 10)) (.sub (.mul (.rd (.var .workTemp)) (.rd (.arr .jac 242))) (.mul (.mul (.mul (.rd (.var .jTemp)) (.sub (.rd (.arr .cp 10)) (.rd (.arr .cp 20)))) (.rd (.arr .spRates 10))) (.num 1604276 5))))),
  .set (.arr .jac 263) (.add (.rd (.arr .jac 263)) (.mul (.mul (.mul (.rd (.arr .spRates 10)) (.rd (.var .mwAvg))) (.num 62971411692942314 21)) (.rd (.var .rhoInv)))),
  .set (.arr .jac 252) (.sub (.rd (.arr .jac 252)) (.mul (.rd (.arr .h 10)) (.sub (.mul (.rd (.var .workTemp)) (.rd (.arr .jac 263))) (.mul (.mul (.mul (.rd (.var .jTemp)) (.sub (.rd (.arr .cp 11)) (.rd (.arr .cp 20)))) (.rd (.arr .spRates 10))) (.num 1604276 5))))),
  .set (.arr .jac 284) (.add (.rd (.arr .jac 284)) (.mul (.mul (.mul (.rd (.arr .spRates 10)) (.rd (.var .mwAvg))) (.neg (.num 20815301805124498 17))) (.rd (.var .rhoInv)))),
  .set (.arr .jac 273) (.sub (.rd (.arr .jac 273)) (.mul (.rd (.arr .h 10)) (.sub (.mul (.rd (.var .workTemp)) (.rd (.arr .jac 284))) (.mul (.mul (.mul (.rd (.var .jTemp)) (.sub (.rd (.arr .cp 12)) (.rd (.arr .cp 20)))) (.rd (.arr .spRates 10))) (.num 1604276 5))))),
  .set (.arr .jac 305) (.add (.rd (.arr .jac 305)) (.mul (.mul (.mul (.rd (.arr .spRates 10)) (.rd (.var .mwAvg))) (.neg (.num 19831018404711988 18))) (.rd (.var .rhoInv)))),
  .set (.arr .jac 294) (.sub (.rd (.arr .jac 294)) (.mul (.rd (.arr .h 10)) (.sub (.mul (.rd (.var .workTemp)) (.rd (.arr .jac 305))) (.mul (.mul (.mul (.rd (.var .jTemp)) (.sub (.rd (.arr .cp 13)) (.rd (.arr .cp 20)))) (.rd (.arr .spRates 10))) (.num 1604276 5))))),
  .set (.arr .jac 326) (.add (.rd (.arr .jac 326)) (.mul (.mul (.mul (.rd (.arr .spRates 10)) (.rd (.var .mwAvg))) (.neg (.num 38389381690254923 18))) (.rd (.var .rhoInv)))),
  .set (.arr .jac 315) (.sub (.rd (.arr .jac 315)) (.mul (.rd (.arr .h 10)) (.sub (.mul (.rd (.var .workTemp)) (.rd (.arr .jac 326))) (.mul (.mul (.mul (.rd (.var .jTemp)) (.sub (.rd (.arr .cp 14)) (.rd (.arr .cp 20)))) (.rd (.arr .spRates 10))) (.num 1604276 5))))),
  .set (.arr .jac 347) (.add (.rd (.arr .jac 347)) (.mul (.mul (.mul (.rd (.arr .spRates 10)) (.rd (.var .mwAvg))) (.neg (.num 55742255249293778 18))) (.rd (.var .rhoInv)))),
  .set (.arr .jac 336) (.sub (.rd (.arr .jac 336)) (.mul (.rd (.arr .h 10)) (.sub (.mul (.rd (.var .workTemp)) (.rd (.arr .jac 347))) (.mul (.mul (.mul (.rd (.var .jTemp)) (.sub (.rd (.arr .cp 15)) (.rd (.arr .cp 20)))) (.rd (.arr .spRates 10))) (.num 1604276 5))))),
  .set (.arr .jac 368) (.add (.rd (.arr .jac 368)) (.mul (.mul (.mul (.rd (.arr .spRates 10)) (.rd (.var .mwAvg))) (.neg (.num 82226235604078999 20))) (.rd (.var .rhoInv)))),
  .set (.arr .jac 357) (.sub (.rd (.arr .jac 357)) (.mul (.rd (.arr .h 10)) (.sub (.mul (.rd (.var .workTemp)) (.rd (.arr .jac 368))) (.mul (.mul (.mul (.rd (.var .jTemp)) (.sub (.rd (.arr .cp 16)) (.rd (.arr .cp 20)))) (.rd (.arr .spRates 10))) (.num 1604276 5))))),
  .set (.arr .jac 389) (.add (.rd (.arr .jac 389)) (.mul (.mul (.mul (.rd (.arr .spRates 10)) (.rd (.var .mwAvg))) (.neg (.num 20655868026910915 18))) (.rd (.var .rhoInv)))),
  .set (.arr .jac 378) (.sub (.rd (.arr .jac 378)) (.mul (.rd (.arr .h 10)) (.sub (.mul (.rd (.var .workTemp)) (.rd (.arr .jac 389))) (.mul (.mul (.mul (.rd (.var .jTemp)) (.sub (.rd (.arr .cp 17)) (.rd (.arr .cp 20)))) (.rd (.arr .spRates 10))) (.num 1604276 5))))),
  .set (.arr .jac 410) (.add (.rd (.arr .jac 410)) (.mul (.mul (.mul (.rd (.arr .spRates 10)) (.rd (.var .mwAvg))) (.neg (.num 39159821297559627 18))) (.rd (.var .rhoInv)))),
  .set (.arr .jac 399) (.sub (.rd (.arr .jac 399)) (.mul (.rd (.arr .h 10)) (.sub (.mul (.rd (.var .workTemp)) (.rd (.arr .jac 410))) (.mul (.mul (.mul (.rd (.var .jTemp)) (.sub (.rd (.arr .cp 18)) (.rd (.arr .cp 20)))) (.rd (.arr .spRates 10))) (.num 1604276 5))))),
  .set (.arr .jac 431) (.add (.rd (.arr .jac 431)) (.mul (.mul (.mul (.rd (.arr .spRates 10)) (.rd (.var .mwAvg))) (.neg (.num 17108894137782099 17))) (.rd (.var .rhoInv)))),
  .set (.arr .jac 420) (.sub (.rd (.arr .jac 420)) (.mul (.rd (.arr .h 10)) (.sub (.mul (.rd (.var .workTemp)) (.rd (.arr .jac 431))) (.mul (.mul (.mul (.rd (.var .jTemp)) (.sub (.rd (.arr .cp 19)) (.rd (.arr .cp 20)))) (.rd (.arr .spRates 10))) (.num 1604276 5)))))]

/-- utilities/mechanisms/drm19/lib/src/jacobs/jacob_3.c:447-486 -/
def jacobEnd11 : List CStmt := [
  .set (.arr .jac 33) (.add (.rd (.arr .jac 33)) (.mul (.mul (.mul (.rd (.arr .spRates 11)) (.rd (.var .mwAvg))) (.num 12894984641990655 15)) (.rd (.var .rhoInv)))),
  .set (.arr .jac 21) (.sub (.rd (.arr .jac 21)) (.mul (.rd (.arr .h 11)) (.sub (.mul (.rd (.var .workTemp)) (.rd (.arr .jac 33))) (.mul (.mul (.mul (.rd (.var .jTemp)) (.sub (.rd (.arr .cp 0)) (.rd (.arr .cp 20)))) (.rd (.arr .spRates 11))) (.num 280104 4))))),
  .set (.arr .jac 54) (.add (.rd (.arr .jac 54)) (.mul (.mul (.mul (.rd (.arr .spRates 11)) (.rd (.var .mwAvg))) (.num 26789859336912972 15)) (.rd (.var .rhoInv)))),
  .set (.arr .jac 42) (.sub (.rd (.arr .jac 42)) (.mul (.rd (.arr .h 11)) (.sub (.mul (.rd (.var .workTemp)) (.rd (.arr .jac 54))) (.mul (.mul (.mul (.rd (.var .jTemp)) (.sub (.rd (.arr .cp 1)) (.rd (.arr .cp 20)))) (.rd (.arr .spRates 11))) (.num 280104 4))))),
  .set (.arr .jac 75) (.add (.rd (.arr .jac 75)) (.mul (.mul (.mul (.rd (.arr .spRates 11)) (.rd (.var .mwAvg))) (.num 75082559890528389 17)) (.rd (.var .rhoInv)))),
  .set (.arr .jac 63) (.sub (.rd (.arr .jac 63)) (.mul (.rd (.arr .h 11)) (.sub (.mul (.rd (.var .workTemp)) (.rd (.arr .jac 75))) (.mul (.mul (.mul (.rd (.var .jTemp)) (.sub (.rd (.arr .cp 2)) (.rd (.arr .cp 20)))) (.rd (.arr .spRates 11))) (.num 280104 4))))),
  .set (.arr .jac 96) (.add (.rd (.arr .jac 96)) (.mul (.mul (.mul (.rd (.arr .spRates 11)) (.rd (.var .mwAvg))) (.neg (.num 12453222701318796 17))) (.rd (.var .rhoInv)))),
  .set (.arr .jac 84) (.sub (.rd (.arr .jac 84)) (.mul (.rd (.arr .h 11)) (.sub (.mul (.rd (.var .workTemp)) (.rd (.arr .jac 96))) (.mul (.mul (.mul (.rd (.var .jTemp)) (.sub (.rd (.arr .cp 3)) (.rd (.arr .cp 20)))) (.rd (.arr .spRates 11))) (.num 280104 4))))),
  .set (.arr .jac 117) (.add (.rd (.arr .jac 117)) (.mul (.mul (.mul (.rd (.arr .spRates 11)) (.rd (.var .mwAvg))) (.num 64706943632415548 17)) (.rd (.var .rhoInv)))),
  .set (.arr .jac 105) (.sub (.rd (.arr .jac 105)) (.mul (.rd (.arr .h 11)) (.sub (.mul (.rd (.var .workTemp)) (.rd (.arr .jac 117))) (.mul (.mul (.mul (.rd (.var .jTemp)) (.sub (.rd (.arr .cp 4)) (.rd (.arr .cp 20)))) (.rd (.arr .spRates 11))) (.num 280104 4))))),
  .set (.arr .jac 138) (.add (.rd (.arr .jac 138)) (.mul (.mul (.mul (.rd (.arr .spRates 11)) (.rd (.var .mwAvg))) (.num 55492341652315824 17)) (.rd (.var .rhoInv)))),
  .set (.arr .jac 126) (.sub (.rd (.arr .jac 126)) (.mul (.rd (.arr .h 11)) (.sub (.mul (.rd (.var .workTemp)) (.rd (.arr .jac 138))) (.mul (.mul (.mul (.rd (.var .jTemp)) (.sub (.rd (.arr .cp 5)) (.rd (.arr .cp 20)))) (.rd (.arr .spRates 11))) (.num 280104 4))))),
  .set (.arr .jac 159) (.add (.rd (.arr .jac 159)) (.mul (.mul (.mul (.rd (.arr .spRates 11)) (.rd (.var .mwAvg))) (.neg (.num 15126337850092259 17))) (.rd (.var .rhoInv)))),
  .set (.arr .jac 147) (.sub (.rd (.arr .jac 147)) (.mul (.rd (.arr .h 11)) (.sub (.mul (.rd (.var .workTemp)) (.rd (.arr .jac 159))) (.mul (.mul (.mul (.rd (.var .jTemp)) (.sub (.rd (.arr .cp 6)) (.rd (.arr .cp 20)))) (.rd (.arr .spRates 11))) (.num 280104 4))))),
  .set (.arr .jac 180) (.add (.rd (.arr .jac 180)) (.mul (.mul (.mul (.rd (.arr .spRates 11)) (.rd (.var .mwAvg))) (.num 99701873933005458 17)) (.rd (.var .rhoInv)))),
  .set (.arr .jac 168) (.sub (.rd (.arr .jac 168)) (.mul (.rd (.arr .h 11)) (.sub (.mul (.rd (.var .workTemp)) (.rd (.arr .jac 180))) (.mul (.mul (.mul (.rd (.var .jTemp)) (.sub (.rd (.arr .cp 7)) (.rd (.arr .cp 20)))) (.rd (.arr .spRates 11))) (.num 280104 4))))),
  .set (.arr .jac 201) (.add (.rd (.arr .jac 201)) (.mul (.mul (.mul (.rd (.arr .spRates 11)) (.rd (.var .mwAvg))) (.num 99701873933005458 17)) (.rd (.var .rhoInv)))),
  .set (.arr .jac 189) (.sub (.rd (.arr .jac 189)) (.mul (.rd (.arr .h 11)) (.sub (.mul (.rd (.var .workTemp)) (.rd (.arr .jac 201))) (.mul (.mul (.mul (.rd (.var .jTemp)) (.sub (.rd (.arr .cp 8)) (.rd (.arr .cp 20)))) (.rd (.arr .spRates 11))) (.num 280104 4))))),
  .set (.arr .jac 222) (.add (.rd (.arr .jac 222)) (.mul (.mul (.mul (.rd (.arr .spRates 11)) (.rd (.var .mwAvg))) (.num 8631452211853563 16)) (.rd (.var .rhoInv)))),
  .set (.arr .jac 210) (.sub (.rd (.arr .jac 210)) (.mul (.rd (.arr .h 11)) (.sub (.mul (.rd (.var .workTemp)) (.rd (.arr .jac 222))) (.mul (.mul (.mul (.rd (.var .jTemp)) (.sub (.rd (.arr .cp 9)) (.rd (.arr .cp 20)))) (.rd (.arr .spRates 11))) (.num 280104 4))))),
  .set (.arr .jac 243) (.add (.rd (.arr .jac 243)) (.mul (.mul (.mul (.rd (.arr .spRates 11)) (.rd (.var .mwAvg))) (.num 74609380520746305 17)) (.rd (.var .rhoInv)))),
  .set (.arr .jac 231) (.sub (.rd (.arr .jac 231)) (.mul (.rd (.arr .h 11)) (.sub (.mul (.rd (.var .workTemp)) (.rd (.arr .jac 243))) (.mul (.mul (.mul (.rd (.var .jTemp)) (.sub (.rd (.arr .cp 10)) (.rd (.arr .cp 20)))) (.rd (.arr .spRates 11))) (.num 280104 4))))),
  .set (.arr .jac 264) (.add (.rd (.arr .jac 264)) (.mul (.mul (.mul (.rd (.arr .spRates 11)) (.rd (.var .mwAvg))) (.num 10994706834011048 20)) (.rd (.var .rhoInv)))),
  .set (.arr .jac 252) (.sub (.rd (.arr .jac 252)) (.mul (.rd (.arr .h 11)) (.sub (.mul (.rd (.var .workTemp)) (.rd (.arr .jac 264))) (.mul (.mul (.mul (.rd (.var .jTemp)) (.sub (.rd (.arr .cp 11)) (.rd (.arr .cp 20)))) (.rd (.arr .spRates 11))) (.num 280104 4))))),
  .set (.arr .jac 285) (.add (.rd (.arr .jac 285)) (.mul (.mul (.mul (.rd (.arr .spRates 11)) (.rd (.var .mwAvg))) (.neg (.num 36343180954041521 17))) (.rd (.var .rhoInv)))),
  .set (.arr .jac 273) (.sub (.rd (.arr .jac 273)) (.mul (.rd (.arr .h 11)) (.sub (.mul (.rd (.var .workTemp)) (.rd (.arr .jac 285))) (.mul (.mul (.mul (.rd (.var .jTemp)) (.sub (.rd (.arr .cp 12)) (.rd (.arr .cp 20)))) (.rd (.arr .spRates 11))) (.num 280104 4))))),
  .set (.arr .jac 306) (.add (.rd (.arr .jac 306)) (.mul (.mul (.mul (.rd (.arr .spRates 11)) (.rd (.var .mwAvg))) (.neg (.num 34624638025086987 18))) (.rd (.var .rhoInv)))),
  .set (.arr .jac 294) (.sub (.rd (.arr .jac 294)) (.mul (.rd (.arr .h 11)) (.sub (.mul (.rd (.var .workTemp)) (.rd (.arr .jac 306))) (.mul (.mul (.mul (.rd (.var .jTemp)) (.sub (.rd (.arr .cp 13)) (.rd (.arr .cp 20)))) (.rd (.arr .spRates 11))) (.num 280104 4))))),
  .set (.arr .jac 327) (.add (.rd (.arr .jac 327)) (.mul (.mul (.mul (.rd (.arr .spRates 11)) (.rd (.var .mwAvg))) (.neg (.num 67027240755126685 18))) (.rd (.var .rhoInv)))),
  .set (.arr .jac 315) (.sub (.rd (.arr .jac 315)) (.mul (.rd (.arr .h 11)) (.sub (.mul (.rd (.var .workTemp)) (.rd (.arr .jac 327))) (.mul (.mul (.mul (.rd (.var .jTemp)) (.sub (.rd (.arr .cp 14)) (.rd (.arr .cp 20)))) (.rd (.arr .spRates 11))) (.num 280104 4))))),
  .set (.arr .jac 348) (.add (.rd (.arr .jac 348)) (.mul (.mul (.mul (.rd (.arr .spRates 11)) (.rd (.var .mwAvg))) (.neg (.num 97325077881537728 18))) (.rd (.var .rhoInv)))),
  .set (.arr .jac 336) (.sub (.rd (.arr .jac 336)) (.mul (.rd (.arr .h 11)) (.sub (.mul (.rd (.var .workTemp)) (.rd (.arr .jac 348))) (.mul (.mul (.mul (.rd (.var .jTemp)) (.sub (.rd (.arr .cp 15)) (.rd (.arr .cp 20)))) (.rd (.arr .spRates 11))) (.num 280104 4))))),
  .set (.arr .jac 369) (.add (.rd (.arr .jac 369)) (.mul (.mul (.mul (.rd (.arr .spRates 11)) (.rd (.var .mwAvg))) (.neg (.num 14356568008026638 19))) (.rd (.var .rhoInv)))),
  .set (.arr .jac 357) (.sub (.rd (.arr .jac 357)) (.mul (.rd (.arr .h 11)) (.sub (.mul (.rd (.var .workTemp)) (.rd (.arr .jac 369))) (.mul (.mul (.mul (.rd (.var .jTemp)) (.sub (.rd (.arr .cp 16)) (.rd (.arr .cp 20)))) (.rd (.arr .spRates 11))) (.num 280104 4))))),
  .set (.arr .jac 390) (.add (.rd (.arr .jac 390)) (.mul (.mul (.mul (.rd (.arr .spRates 11)) (.rd (.var .mwAvg))) (.neg (.num 36064812150838468 18))) (.rd (.var .rhoInv)))),
  .set (.arr .jac 378) (.sub (.rd (.arr .jac 378)) (.mul (.rd (.arr .h 11)) (.sub (.mul (.rd (.var .workTemp)) (.rd (.arr .jac 390))) (.mul (.mul (.mul (.rd (.var .jTemp)) (.sub (.rd (.arr .cp 17)) (.rd (.arr .cp 20)))) (.rd (.arr .spRates 11))) (.num 280104 4))))),
  .set (.arr .jac 411) (.add (.rd (.arr .jac 411)) (.mul (.mul (.mul (.rd (.arr .spRates 11)) (.rd (.var .mwAvg))) (.neg (.num 68372415873151751 18))) (.rd (.var .rhoInv)))),
  .set (.arr .jac 399) (.sub (.rd (.arr .jac 399)) (.mul (.rd (.arr .h 11)) (.sub (.mul (.rd (.var .workTemp)) (.rd (.arr .jac 411))) (.mul (.mul (.mul (.rd (.var .jTemp)) (.sub (.rd (.arr .cp 18)) (.rd (.arr .cp 20)))) (.rd (.arr .spRates 11))) (.num 280104 4))))),
  .set (.arr .jac 432) (.add (.rd (.arr .jac 432)) (.mul (.mul (.mul (.rd (.arr .spRates 11)) (.rd (.var .mwAvg))) (.neg (.num 2987185299517861 16))) (.rd (.var .rhoInv)))),
  .set (.arr .jac 420) (.sub (.rd (.arr .jac 420)) (.mul (.rd (.arr .h 11)) (.sub (.mul (.rd (.var .workTemp)) (.rd (.arr .jac 432))) (.mul (.mul (.mul (.rd (.var .jTemp)) (.sub (.rd (.arr .cp 19)) (.rd (.arr .cp 20)))) (.rd (.arr .spRates 11))) (.num 280104 4)))))]

/-- utilities/mechanisms/drm19/lib/src/jacobs/jacob_3.c:487-526 -/
def jacobEnd12 : List CStmt := [
  .set (.arr .jac 34) (.add (.rd (.arr .jac 34)) (.mul (.mul (.mul (.rd (.arr .spRates 12)) (.rd (.var .mwAvg))) (.num 20260535197536644 15)) (.rd (.var .rhoInv)))),
  .set (.arr .jac 21) (.sub (.rd (.arr .jac 21)) (.mul (.rd (.arr .h 12)) (.sub (.mul (.rd (.var .workTemp)) (.rd (.arr .jac 34))) (.mul (.mul (.mul (.rd (.var .jTemp)) (.sub (.rd (.arr .cp 0)) (.rd (.arr .cp 20)))) (.rd (.arr .spRates 12))) (.num 440098 4))))),
  .set (.arr .jac 55) (.add (.rd (.arr .jac 55)) (.mul (.mul (.mul (.rd (.arr .spRates 12)) (.rd (.var .mwAvg))) (.num 42092092631510887 15)) (.rd (.var .rhoInv)))),
  .set (.arr .jac 42) (.sub (.rd (.arr .jac 42)) (.mul (.rd (.arr .h 12)) (.sub (.mul (.rd (.var .workTemp)) (.rd (.arr .jac 55))) (.mul (.mul (.mul (.rd (.var .jTemp)) (.sub (.rd (.arr .cp 1)) (.rd (.arr .cp 20)))) (.rd (.arr .spRates 12))) (.num 440098 4))))),
  .set (.arr .jac 76) (.add (.rd (.arr .jac 76)) (.mul (.mul (.mul (.rd (.arr .spRates 12)) (.rd (.var .mwAvg))) (.num 11796934153993435 16)) (.rd (.var .rhoInv)))),
  .set (.arr .jac 63) (.sub (.rd (.arr .jac 63)) (.mul (.rd (.arr .h 12)) (.sub (.mul (.rd (.var .workTemp)) (.rd (.arr .jac 76))) (.mul (.mul (.mul (.rd (.var .jTemp)) (.sub (.rd (.arr .cp 2)) (.rd (.arr .cp 20)))) (.rd (.arr .spRates 12))) (.num 440098 4))))),
  .set (.arr .jac 97) (.add (.rd (.arr .jac 97)) (.mul (.mul (.mul (.rd (.arr .spRates 12)) (.rd (.var .mwAvg))) (.neg (.num 19566441051912861 17))) (.rd (.var .rhoInv)))),
  .set (.arr .jac 84) (.sub (.rd (.arr .jac 84)) (.mul (.rd (.arr .h 12)) (.sub (.mul (.rd (.var .workTemp)) (.rd (.arr .jac 97))) (.mul (.mul (.mul (.rd (.var .jTemp)) (.sub (.rd (.arr .cp 3)) (.rd (.arr .cp 20)))) (.rd (.arr .spRates 12))) (.num 440098 4))))),
  .set (.arr .jac 118) (.add (.rd (.arr .jac 118)) (.mul (.mul (.mul (.rd (.arr .spRates 12)) (.rd (.var .mwAvg))) (.num 10166722531180856 16)) (.rd (.var .rhoInv)))),
  .set (.arr .jac 105) (.sub (.rd (.arr .jac 105)) (.mul (.rd (.arr .h 12)) (.sub (.mul (.rd (.var .workTemp)) (.rd (.arr .jac 118))) (.mul (.mul (.mul (.rd (.var .jTemp)) (.sub (.rd (.arr .cp 4)) (.rd (.arr .cp 20)))) (.rd (.arr .spRates 12))) (.num 440098 4))))),
  .set (.arr .jac 139) (.add (.rd (.arr .jac 139)) (.mul (.mul (.mul (.rd (.arr .spRates 12)) (.rd (.var .mwAvg))) (.num 8718928889448524 16)) (.rd (.var .rhoInv)))),
  .set (.arr .jac 126) (.sub (.rd (.arr .jac 126)) (.mul (.rd (.arr .h 12)) (.sub (.mul (.rd (.var .workTemp)) (.rd (.arr .jac 139))) (.mul (.mul (.mul (.rd (.var .jTemp)) (.sub (.rd (.arr .cp 5)) (.rd (.arr .cp 20)))) (.rd (.arr .spRates 12))) (.num 440098 4))))),
  .set (.arr .jac 160) (.add (.rd (.arr .jac 160)) (.mul (.mul (.mul (.rd (.arr .spRates 12)) (.rd (.var .mwAvg))) (.neg (.num 23766426167244681 17))) (.rd (.var .rhoInv)))),
  .set (.arr .jac 147) (.sub (.rd (.arr .jac 147)) (.mul (.rd (.arr .h 12)) (.sub (.mul (.rd (.var .workTemp)) (.rd (.arr .jac 160))) (.mul (.mul (.mul (.rd (.var .jTemp)) (.sub (.rd (.arr .cp 6)) (.rd (.arr .cp 20)))) (.rd (.arr .spRates 12))) (.num 440098 4))))),
  .set (.arr .jac 181) (.add (.rd (.arr .jac 181)) (.mul (.mul (.mul (.rd (.arr .spRates 12)) (.rd (.var .mwAvg))) (.num 15665108429072001 16)) (.rd (.var .rhoInv)))),
  .set (.arr .jac 168) (.sub (.rd (.arr .jac 168)) (.mul (.rd (.arr .h 12)) (.sub (.mul (.rd (.var .workTemp)) (.rd (.arr .jac 181))) (.mul (.mul (.mul (.rd (.var .jTemp)) (.sub (.rd (.arr .cp 7)) (.rd (.arr .cp 20)))) (.rd (.arr .spRates 12))) (.num 440098 4))))),
  .set (.arr .jac 202) (.add (.rd (.arr .jac 202)) (.mul (.mul (.mul (.rd (.arr .spRates 12)) (.rd (.var .mwAvg))) (.num 15665108429072001 16)) (.rd (.var .rhoInv)))),
  .set (.arr .jac 189) (.sub (.rd (.arr .jac 189)) (.mul (.rd (.arr .h 12)) (.sub (.mul (.rd (.var .workTemp)) (.rd (.arr .jac 202))) (.mul (.mul (.mul (.rd (.var .jTemp)) (.sub (.rd (.arr .cp 8)) (.rd (.arr .cp 20)))) (.rd (.arr .spRates 12))) (.num 440098 4))))),
  .set (.arr .jac 223) (.add (.rd (.arr .jac 223)) (.mul (.mul (.mul (.rd (.arr .spRates 12)) (.rd (.var .mwAvg))) (.num 13561694426114335 16)) (.rd (.var .rhoInv)))),
  .set (.arr .jac 210) (.sub (.rd (.arr .jac 210)) (.mul (.rd (.arr .h 12)) (.sub (.mul (.rd (.var .workTemp)) (.rd (.arr .jac 223))) (.mul (.mul (.mul (.rd (.var .jTemp)) (.sub (.rd (.arr .cp 9)) (.rd (.arr .cp 20)))) (.rd (.arr .spRates 12))) (.num 440098 4))))),
  .set (.arr .jac 244) (.add (.rd (.arr .jac 244)) (.mul (.mul (.mul (.rd (.arr .spRates 12)) (.rd (.var .mwAvg))) (.num 11722588448725975 16)) (.rd (.var .rhoInv)))),
  .set (.arr .jac 231) (.sub (.rd (.arr .jac 231)) (.mul (.rd (.arr .h 12)) (.sub (.mul (.rd (.var .workTemp)) (.rd (.arr .jac 244))) (.mul (.mul (.mul (.rd (.var .jTemp)) (.sub (.rd (.arr .cp 10)) (.rd (.arr .cp 20)))) (.rd (.arr .spRates 12))) (.num 440098 4))))),
  .set (.arr .jac 265) (.add (.rd (.arr .jac 265)) (.mul (.mul (.mul (.rd (.arr .spRates 12)) (.rd (.var .mwAvg))) (.num 17274828236064443 20)) (.rd (.var .rhoInv)))),
  .set (.arr .jac 252) (.sub (.rd (.arr .jac 252)) (.mul (.rd (.arr .h 12)) (.sub (.mul (.rd (.var .workTemp)) (.rd (.arr .jac 265))) (.mul (.mul (.mul (.rd (.var .jTemp)) (.sub (.rd (.arr .cp 11)) (.rd (.arr .cp 20)))) (.rd (.arr .spRates 12))) (.num 440098 4))))),
  .set (.arr .jac 286) (.add (.rd (.arr .jac 286)) (.mul (.mul (.mul (.rd (.arr .spRates 12)) (.rd (.var .mwAvg))) (.neg (.num 57102223643760053 17))) (.rd (.var .rhoInv)))),
  .set (.arr .jac 273) (.sub (.rd (.arr .jac 273)) (.mul (.rd (.arr .h 12)) (.sub (.mul (.rd (.var .workTemp)) (.rd (.arr .jac 286))) (.mul (.mul (.mul (.rd (.var .jTemp)) (.sub (.rd (.arr .cp 12)) (.rd (.arr .cp 20)))) (.rd (.arr .spRates 12))) (.num 440098 4))))),
  .set (.arr .jac 307) (.add (.rd (.arr .jac 307)) (.mul (.mul (.mul (.rd (.arr .spRates 12)) (.rd (.var .mwAvg))) (.neg (.num 54402057612760735 18))) (.rd (.var .rhoInv)))),
  .set (.arr .jac 294) (.sub (.rd (.arr .jac 294)) (.mul (.rd (.arr .h 12)) (.sub (.mul (.rd (.var .workTemp)) (.rd (.arr .jac 307))) (.mul (.mul (.mul (.rd (.var .jTemp)) (.sub (.rd (.arr .cp 13)) (.rd (.arr .cp 20)))) (.rd (.arr .spRates 12))) (.num 440098 4))))),
  .set (.arr .jac 328) (.add (.rd (.arr .jac 328)) (.mul (.mul (.mul (.rd (.arr .spRates 12)) (.rd (.var .mwAvg))) (.neg (.num 10531286451407244 17))) (.rd (.var .rhoInv)))),
  .set (.arr .jac 315) (.sub (.rd (.arr .jac 315)) (.mul (.rd (.arr .h 12)) (.sub (.mul (.rd (.var .workTemp)) (.rd (.arr .jac 328))) (.mul (.mul (.mul (.rd (.var .jTemp)) (.sub (.rd (.arr .cp 14)) (.rd (.arr .cp 20)))) (.rd (.arr .spRates 12))) (.num 440098 4))))),
  .set (.arr .jac 349) (.add (.rd (.arr .jac 349)) (.mul (.mul (.mul (.rd (.arr .spRates 12)) (.rd (.var .mwAvg))) (.neg (.num 15291667425495173 17))) (.rd (.var .rhoInv)))),
  .set (.arr .jac 336) (.sub (.rd (.arr .jac 336)) (.mul (.rd (.arr .h 12)) (.sub (.mul (.rd (.var .workTemp)) (.rd (.arr .jac 349))) (.mul (.mul (.mul (.rd (.var .jTemp)) (.sub (.rd (.arr .cp 15)) (.rd (.arr .cp 20)))) (.rd (.arr .spRates 12))) (.num 440098 4))))),
  .set (.arr .jac 370) (.add (.rd (.arr .jac 370)) (.mul (.mul (.mul (.rd (.arr .spRates 12)) (.rd (.var .mwAvg))) (.neg (.num 22556967652002497 19))) (.rd (.var .rhoInv)))),
  .set (.arr .jac 357) (.sub (.rd (.arr .jac 357)) (.mul (.rd (.arr .h 12)) (.sub (.mul (.rd (.var .workTemp)) (.rd (.arr .jac 370))) (.mul (.mul (.mul (.rd (.var .jTemp)) (.sub (.rd (.arr .cp 16)) (.rd (.arr .cp 20)))) (.rd (.arr .spRates 12))) (.num 440098 4))))),
  .set (.arr .jac 391) (.add (.rd (.arr .jac 391)) (.mul (.mul (.mul (.rd (.arr .spRates 12)) (.rd (.var .mwAvg))) (.neg (.num 56664851976264925 18))) (.rd (.var .rhoInv)))),
  .set (.arr .jac 378) (.sub (.rd (.arr .jac 378)) (.mul (.rd (.arr .h 12)) (.sub (.mul (.rd (.var .workTemp)) (.rd (.arr .jac 391))) (.mul (.mul (.mul (.rd (.var .jTemp)) (.sub (.rd (.arr .cp 17)) (.rd (.arr .cp 20)))) (.rd (.arr .spRates 12))) (.num 440098 4))))),
  .set (.arr .jac 412) (.add (.rd (.arr .jac 412)) (.mul (.mul (.mul (.rd (.arr .spRates 12)) (.rd (.var .mwAvg))) (.neg (.num 10742639691308349 17))) (.rd (.var .rhoInv)))),
  .set (.arr .jac 399) (.sub (.rd (.arr .jac 399)) (.mul (.rd (.arr .h 12)) (.sub (.mul (.rd (.var .workTemp)) (.rd (.arr .jac 412))) (.mul (.mul (.mul (.rd (.var .jTemp)) (.sub (.rd (.arr .cp 18)) (.rd (.arr .cp 20)))) (.rd (.arr .spRates 12))) (.num 440098 4))))),
  .set (.arr .jac 433) (.add (.rd (.arr .jac 433)) (.mul (.mul (.mul (.rd (.arr .spRates 12)) (.rd (.var .mwAvg))) (.neg (.num 46934505610316585 17))) (.rd (.var .rhoInv)))),
  .set (.arr .jac 420) (.sub (.rd (.arr .jac 420)) (.mul (.rd (.arr .h 12)) (.sub (.mul (.rd (.var .workTemp)) (.rd (.arr .jac 433))) (.mul (.mul (.mul (.rd (.var .jTemp)) (.sub (.rd (.arr .cp 19)) (.rd (.arr .cp 20)))) (.rd (.arr .spRates 12))) (.num 440098 4)))))]

/-- utilities/mechanisms/drm19/lib/src/jacobs/jacob_3.c:527-566 -/
def jacobEnd13 : List CStmt := [
  .set (.arr .jac 35) (.add (.rd (.arr .jac 35)) (.mul (.mul (.mul (.rd (.arr .spRates 13)) (.rd (.var .mwAvg))) (.num 13359004106905404 15)) (.rd (.var .rhoInv)))),
  .set (.arr .jac 21) (.sub (.rd (.arr .jac 21)) (.mul (.rd (.arr .h 13)) (.sub (.mul (.rd (.var .workTemp)) (.rd (.arr .jac 35))) (.mul (.mul (.mul (.rd (.var .jTemp)) (.sub (.rd (.arr .cp 0)) (.rd (.arr .cp 20)))) (.rd (.arr .spRates 13))) (.num 2901834 5))))),
  .set (.arr .jac 56) (.add (.rd (.arr .jac 56)) (.mul (.mul (.mul (.rd (.arr .spRates 13)) (.rd (.var .mwAvg))) (.num 27753878801827717 15)) (.rd (.var .rhoInv)))),
  .set (.arr .jac 42) (.sub (.rd (.arr .jac 42)) (.mul (.rd (.arr .h 13)) (.sub (.mul (.rd (.var .workTemp)) (.rd (.arr .jac 56))) (.mul (.mul (.mul (.rd (.var .jTemp)) (.sub (.rd (.arr .cp 1)) (.rd (.arr .cp 20)))) (.rd (.arr .spRates 13))) (.num 2901834 5))))),
  .set (.arr .jac 77) (.add (.rd (.arr .jac 77)) (.mul (.mul (.mul (.rd (.arr .spRates 13)) (.rd (.var .mwAvg))) (.num 777843676267999 15)) (.rd (.var .rhoInv)))),
  .set (.arr .jac 63) (.sub (.rd (.arr .jac 63)) (.mul (.rd (.arr .h 13)) (.sub (.mul (.rd (.var .workTemp)) (.rd (.arr .jac 77))) (.mul (.mul (.mul (.rd (.var .jTemp)) (.sub (.rd (.arr .cp 2)) (.rd (.arr .cp 20)))) (.rd (.arr .spRates 13))) (.num 2901834 5))))),
  .set (.arr .jac 98) (.add (.rd (.arr .jac 98)) (.mul (.mul (.mul (.rd (.arr .spRates 13)) (.rd (.var .mwAvg))) (.neg (.num 1290134558744564 16))) (.rd (.var .rhoInv)))),
  .set (.arr .jac 84) (.sub (.rd (.arr .jac 84)) (.mul (.rd (.arr .h 13)) (.sub (.mul (.rd (.var .workTemp)) (.rd (.arr .jac 98))) (.mul (.mul (.mul (.rd (.var .jTemp)) (.sub (.rd (.arr .cp 3)) (.rd (.arr .cp 20)))) (.rd (.arr .spRates 13))) (.num 2901834 5))))),
  .set (.arr .jac 119) (.add (.rd (.arr .jac 119)) (.mul (.mul (.mul (.rd (.arr .spRates 13)) (.rd (.var .mwAvg))) (.num 67035390093903313 17)) (.rd (.var .rhoInv)))),
  .set (.arr .jac 105) (.sub (.rd (.arr .jac 105)) (.mul (.rd (.arr .h 13)) (.sub (.mul (.rd (.var .workTemp)) (.rd (.arr .jac 119))) (.mul (.mul (.mul (.rd (.var .jTemp)) (.sub (.rd (.arr .cp 4)) (.rd (.arr .cp 20)))) (.rd (.arr .spRates 13))) (.num 2901834 5))))),
  .set (.arr .jac 140) (.add (.rd (.arr .jac 140)) (.mul (.mul (.mul (.rd (.arr .spRates 13)) (.rd (.var .mwAvg))) (.num 57489205347408912 17)) (.rd (.var .rhoInv)))),
  .set (.arr .jac 126) (.sub (.rd (.arr .jac 126)) (.mul (.rd (.arr .h 13)) (.sub (.mul (.rd (.var .workTemp)) (.rd (.arr .jac 140))) (.mul (.mul (.mul (.rd (.var .jTemp)) (.sub (.rd (.arr .cp 5)) (.rd (.arr .cp 20)))) (.rd (.arr .spRates 13))) (.num 2901834 5))))),
  .set (.arr .jac 161) (.add (.rd (.arr .jac 161)) (.mul (.mul (.mul (.rd (.arr .spRates 13)) (.rd (.var .mwAvg))) (.neg (.num 15670651425500751 17))) (.rd (.var .rhoInv)))),
  .set (.arr .jac 147) (.sub (.rd (.arr .jac 147)) (.mul (.rd (.arr .h 13)) (.sub (.mul (.rd (.var .workTemp)) (.rd (.arr .jac 161))) (.mul (.mul (.mul (.rd (.var .jTemp)) (.sub (.rd (.arr .cp 6)) (.rd (.arr .cp 20)))) (.rd (.arr .spRates 13))) (.num 2901834 5))))),
  .set (.arr .jac 182) (.add (.rd (.arr .jac 182)) (.mul (.mul (.mul (.rd (.arr .spRates 13)) (.rd (.var .mwAvg))) (.num 10328959516554888 16)) (.rd (.var .rhoInv)))),
  .set (.arr .jac 168) (.sub (.rd (.arr .jac 168)) (.mul (.rd (.arr .h 13)) (.sub (.mul (.rd (.var .workTemp)) (.rd (.arr .jac 182))) (.mul (.mul (.mul (.rd (.var .jTemp)) (.sub (.rd (.arr .cp 7)) (.rd (.arr .cp 20)))) (.rd (.arr .spRates 13))) (.num 2901834 5))))),
  .set (.arr .jac 203) (.add (.rd (.arr .jac 203)) (.mul (.mul (.mul (.rd (.arr .spRates 13)) (.rd (.var .mwAvg))) (.num 10328959516554888 16)) (.rd (.var .rhoInv)))),
  .set (.arr .jac 189) (.sub (.rd (.arr .jac 189)) (.mul (.rd (.arr .h 13)) (.sub (.mul (.rd (.var .workTemp)) (.rd (.arr .jac 203))) (.mul (.mul (.mul (.rd (.var .jTemp)) (.sub (.rd (.arr .cp 8)) (.rd (.arr .cp 20)))) (.rd (.arr .spRates 13))) (.num 2901834 5))))),
  .set (.arr .jac 224) (.add (.rd (.arr .jac 224)) (.mul (.mul (.mul (.rd (.arr .spRates 13)) (.rd (.var .mwAvg))) (.num 89420506303843839 17)) (.rd (.var .rhoInv)))),
  .set (.arr .jac 210) (.sub (.rd (.arr .jac 210)) (.mul (.rd (.arr .h 13)) (.sub (.mul (.rd (.var .workTemp)) (.rd (.arr .jac 224))) (.mul (.mul (.mul (.rd (.var .jTemp)) (.sub (.rd (.arr .cp 9)) (.rd (.arr .cp 20)))) (.rd (.arr .spRates 13))) (.num 2901834 5))))),
  .set (.arr .jac 245) (.add (.rd (.arr .jac 245)) (.mul (.mul (.mul (.rd (.arr .spRates 13)) (.rd (.var .mwAvg))) (.num 77294161138019923 17)) (.rd (.var .rhoInv)))),
  .set (.arr .jac 231) (.sub (.rd (.arr .jac 231)) (.mul (.rd (.arr .h 13)) (.sub (.mul (.rd (.var .workTemp)) (.rd (.arr .jac 245))) (.mul (.mul (.mul (.rd (.var .jTemp)) (.sub (.rd (.arr .cp 10)) (.rd (.arr .cp 20)))) (.rd (.arr .spRates 13))) (.num 2901834 5))))),
  .set (.arr .jac 266) (.add (.rd (.arr .jac 266)) (.mul (.mul (.mul (.rd (.arr .spRates 13)) (.rd (.var .mwAvg))) (.num 11390345768345193 20)) (.rd (.var .rhoInv)))),
  .set (.arr .jac 252) (.sub (.rd (.arr .jac 252)) (.mul (.rd (.arr .h 13)) (.sub (.mul (.rd (.var .workTemp)) (.rd (.arr .jac 266))) (.mul (.mul (.mul (.rd (.var .jTemp)) (.sub (.rd (.arr .cp 11)) (.rd (.arr .cp 20)))) (.rd (.arr .spRates 13))) (.num 2901834 5))))),
  .set (.arr .jac 287) (.add (.rd (.arr .jac 287)) (.mul (.mul (.mul (.rd (.arr .spRates 13)) (.rd (.var .mwAvg))) (.neg (.num 37650971839241898 17))) (.rd (.var .rhoInv)))),
  .set (.arr .jac 273) (.sub (.rd (.arr .jac 273)) (.mul (.rd (.arr .h 13)) (.sub (.mul (.rd (.var .workTemp)) (.rd (.arr .jac 287))) (.mul (.mul (.mul (.rd (.var .jTemp)) (.sub (.rd (.arr .cp 12)) (.rd (.arr .cp 20)))) (.rd (.arr .spRates 13))) (.num 2901834 5))))),
  .set (.arr .jac 308) (.add (.rd (.arr .jac 308)) (.mul (.mul (.mul (.rd (.arr .spRates 13)) (.rd (.var .mwAvg))) (.neg (.num 35870588016911675 18))) (.rd (.var .rhoInv)))),
  .set (.arr .jac 294) (.sub (.rd (.arr .jac 294)) (.mul (.rd (.arr .h 13)) (.sub (.mul (.rd (.var .workTemp)) (.rd (.arr .jac 308))) (.mul (.mul (.mul (.rd (.var .jTemp)) (.sub (.rd (.arr .cp 13)) (.rd (.arr .cp 20)))) (.rd (.arr .spRates 13))) (.num 2901834 5))))),
  .set (.arr .jac 329) (.add (.rd (.arr .jac 329)) (.mul (.mul (.mul (.rd (.arr .spRates 13)) (.rd (.var .mwAvg))) (.neg (.num 69439181928645191 18))) (.rd (.var .rhoInv)))),
  .set (.arr .jac 315) (.sub (.rd (.arr .jac 315)) (.mul (.rd (.arr .h 13)) (.sub (.mul (.rd (.var .workTemp)) (.rd (.arr .jac 329))) (.mul (.mul (.mul (.rd (.var .jTemp)) (.sub (.rd (.arr .cp 14)) (.rd (.arr .cp 20)))) (.rd (.arr .spRates 13))) (.num 2901834 5))))),
  .set (.arr .jac 350) (.add (.rd (.arr .jac 350)) (.mul (.mul (.mul (.rd (.arr .spRates 13)) (.rd (.var .mwAvg))) (.neg (.num 10082727131683024 17))) (.rd (.var .rhoInv)))),
  .set (.arr .jac 336) (.sub (.rd (.arr .jac 336)) (.mul (.rd (.arr .h 13)) (.sub (.mul (.rd (.var .workTemp)) (.rd (.arr .jac 350))) (.mul (.mul (.mul (.rd (.var .jTemp)) (.sub (.rd (.arr .cp 15)) (.rd (.arr .cp 20)))) (.rd (.arr .spRates 13))) (.num 2901834 5))))),
  .set (.arr .jac 371) (.add (.rd (.arr .jac 371)) (.mul (.mul (.mul (.rd (.arr .spRates 13)) (.rd (.var .mwAvg))) (.neg (.num 14873181807115918 19))) (.rd (.var .rhoInv)))),
  .set (.arr .jac 357) (.sub (.rd (.arr .jac 357)) (.mul (.rd (.arr .h 13)) (.sub (.mul (.rd (.var .workTemp)) (.rd (.arr .jac 371))) (.mul (.mul (.mul (.rd (.var .jTemp)) (.sub (.rd (.arr .cp 16)) (.rd (.arr .cp 20)))) (.rd (.arr .spRates 13))) (.num 2901834 5))))),
  .set (.arr .jac 392) (.add (.rd (.arr .jac 392)) (.mul (.mul (.mul (.rd (.arr .spRates 13)) (.rd (.var .mwAvg))) (.neg (.num 37362586076213192 18))) (.rd (.var .rhoInv)))),
  .set (.arr .jac 378) (.sub (.rd (.arr .jac 378)) (.mul (.rd (.arr .h 13)) (.sub (.mul (.rd (.var .workTemp)) (.rd (.arr .jac 392))) (.mul (.mul (.mul (.rd (.var .jTemp)) (.sub (.rd (.arr .cp 17)) (.rd (.arr .cp 20)))) (.rd (.arr .spRates 13))) (.num 2901834 5))))),
  .set (.arr .jac 413) (.add (.rd (.arr .jac 413)) (.mul (.mul (.mul (.rd (.arr .spRates 13)) (.rd (.var .mwAvg))) (.neg (.num 70832762489236659 18))) (.rd (.var .rhoInv)))),
  .set (.arr .jac 399) (.sub (.rd (.arr .jac 399)) (.mul (.rd (.arr .h 13)) (.sub (.mul (.rd (.var .workTemp)) (.rd (.arr .jac 413))) (.mul (.mul (.mul (.rd (.var .jTemp)) (.sub (.rd (.arr .cp 18)) (.rd (.arr .cp 20)))) (.rd (.arr .spRates 13))) (.num 2901834 5))))),
  .set (.arr .jac 434) (.add (.rd (.arr .jac 434)) (.mul (.mul (.mul (.rd (.arr .spRates 13)) (.rd (.var .mwAvg))) (.neg (.num 30946776434613976 17))) (.rd (.var .rhoInv)))),
  .set (.arr .jac 420) (.sub (.rd (.arr .jac 420)) (.mul (.rd (.arr .h 13)) (.sub (.mul (.rd (.var .workTemp)) (.rd (.arr .jac 434))) (.mul (.mul (.mul (.rd (.var .jTemp)) (.sub (.rd (.arr .cp 19)) (.rd (.arr .cp 20)))) (.rd (.arr .spRates 13))) (.num 2901834 5)))))]

/-- utilities/mechanisms/drm19/lib/src/jacobs/jacob_3.c:567-606 -/
def jacobEnd14 : List CStmt := [
  .set (.arr .jac 36) (.add (.rd (.arr .jac 36)) (.mul (.mul (.mul (.rd (.arr .spRates 14)) (.rd (.var .mwAvg))) (.num 13823023571820153 15)) (.rd (.var .rhoInv)))),
  .set (.arr .jac 21) (.sub (.rd (.arr .jac 21)) (.mul (.rd (.arr .h 14)) (.sub (.mul (.rd (.var .workTemp)) (.rd (.arr .jac 36))) (.mul (.mul (.mul (.rd (.var .jTemp)) (.sub (.rd (.arr .cp 0)) (.rd (.arr .cp 20)))) (.rd (.arr .spRates 14))) (.num 3002628 5))))),
  .set (.arr .jac 57) (.add (.rd (.arr .jac 57)) (.mul (.mul (.mul (.rd (.arr .spRates 14)) (.rd (.var .mwAvg))) (.num 2871789826674247 14)) (.rd (.var .rhoInv)))),
  .set (.arr .jac 42) (.sub (.rd (.arr .jac 42)) (.mul (.rd (.arr .h 14)) (.sub (.mul (.rd (.var .workTemp)) (.rd (.arr .jac 57))) (.mul (.mul (.mul (.rd (.var .jTemp)) (.sub (.rd (.arr .cp 1)) (.rd (.arr .cp 20)))) (.rd (.arr .spRates 14))) (.num 3002628 5))))),
  .set (.arr .jac 78) (.add (.rd (.arr .jac 78)) (.mul (.mul (.mul (.rd (.arr .spRates 14)) (.rd (.var .mwAvg))) (.num 80486175363071399 17)) (.rd (.var .rhoInv)))),
  .set (.arr .jac 63) (.sub (.rd (.arr .jac 63)) (.mul (.rd (.arr .h 14)) (.sub (.mul (.rd (.var .workTemp)) (.rd (.arr .jac 78))) (.mul (.mul (.mul (.rd (.var .jTemp)) (.sub (.rd (.arr .cp 2)) (.rd (.arr .cp 20)))) (.rd (.arr .spRates 14))) (.num 3002628 5))))),
  .set (.arr .jac 99) (.add (.rd (.arr .jac 99)) (.mul (.mul (.mul (.rd (.arr .spRates 14)) (.rd (.var .mwAvg))) (.neg (.num 13349468473572479 17))) (.rd (.var .rhoInv)))),
  .set (.arr .jac 84) (.sub (.rd (.arr .jac 84)) (.mul (.rd (.arr .h 14)) (.sub (.mul (.rd (.var .workTemp)) (.rd (.arr .jac 99))) (.mul (.mul (.mul (.rd (.var .jTemp)) (.sub (.rd (.arr .cp 3)) (.rd (.arr .cp 20)))) (.rd (.arr .spRates 14))) (.num 3002628 5))))),
  .set (.arr .jac 120) (.add (.rd (.arr .jac 120)) (.mul (.mul (.mul (.rd (.arr .spRates 14)) (.rd (.var .mwAvg))) (.num 6936383655539109 16)) (.rd (.var .rhoInv)))),
  .set (.arr .jac 105) (.sub (.rd (.arr .jac 105)) (.mul (.rd (.arr .h 14)) (.sub (.mul (.rd (.var .workTemp)) (.rd (.arr .jac 120))) (.mul (.mul (.mul (.rd (.var .jTemp)) (.sub (.rd (.arr .cp 4)) (.rd (.arr .cp 20)))) (.rd (.arr .spRates 14))) (.num 3002628 5))))),
  .set (.arr .jac 141) (.add (.rd (.arr .jac 141)) (.mul (.mul (.mul (.rd (.arr .spRates 14)) (.rd (.var .mwAvg))) (.num 59486069042501988 17)) (.rd (.var .rhoInv)))),
  .set (.arr .jac 126) (.sub (.rd (.arr .jac 126)) (.mul (.rd (.arr .h 14)) (.sub (.mul (.rd (.var .workTemp)) (.rd (.arr .jac 141))) (.mul (.mul (.mul (.rd (.var .jTemp)) (.sub (.rd (.arr .cp 5)) (.rd (.arr .cp 20)))) (.rd (.arr .spRates 14))) (.num 3002628 5))))),
  .set (.arr .jac 162) (.add (.rd (.arr .jac 162)) (.mul (.mul (.mul (.rd (.arr .spRates 14)) (.rd (.var .mwAvg))) (.neg (.num 16214965000909243 17))) (.rd (.var .rhoInv)))),
  .set (.arr .jac 147) (.sub (.rd (.arr .jac 147)) (.mul (.rd (.arr .h 14)) (.sub (.mul (.rd (.var .workTemp)) (.rd (.arr .jac 162))) (.mul (.mul (.mul (.rd (.var .jTemp)) (.sub (.rd (.arr .cp 6)) (.rd (.arr .cp 20)))) (.rd (.arr .spRates 14))) (.num 3002628 5))))),
  .set (.arr .jac 183) (.add (.rd (.arr .jac 183)) (.mul (.mul (.mul (.rd (.arr .spRates 14)) (.rd (.var .mwAvg))) (.num 10687731639809228 16)) (.rd (.var .rhoInv)))),
  .set (.arr .jac 168) (.sub (.rd (.arr .jac 168)) (.mul (.rd (.arr .h 14)) (.sub (.mul (.rd (.var .workTemp)) (.rd (.arr .jac 183))) (.mul (.mul (.mul (.rd (.var .jTemp)) (.sub (.rd (.arr .cp 7)) (.rd (.arr .cp 20)))) (.rd (.arr .spRates 14))) (.num 3002628 5))))),
  .set (.arr .jac 204) (.add (.rd (.arr .jac 204)) (.mul (.mul (.mul (.rd (.arr .spRates 14)) (.rd (.var .mwAvg))) (.num 10687731639809228 16)) (.rd (.var .rhoInv)))),
  .set (.arr .jac 189) (.sub (.rd (.arr .jac 189)) (.mul (.rd (.arr .h 14)) (.sub (.mul (.rd (.var .workTemp)) (.rd (.arr .jac 204))) (.mul (.mul (.mul (.rd (.var .jTemp)) (.sub (.rd (.arr .cp 8)) (.rd (.arr .cp 20)))) (.rd (.arr .spRates 14))) (.num 3002628 5))))),
  .set (.arr .jac 225) (.add (.rd (.arr .jac 225)) (.mul (.mul (.mul (.rd (.arr .spRates 14)) (.rd (.var .mwAvg))) (.num 92526490489152036 17)) (.rd (.var .rhoInv)))),
  .set (.arr .jac 210) (.sub (.rd (.arr .jac 210)) (.mul (.rd (.arr .h 14)) (.sub (.mul (.rd (.var .workTemp)) (.rd (.arr .jac 225))) (.mul (.mul (.mul (.rd (.var .jTemp)) (.sub (.rd (.arr .cp 9)) (.rd (.arr .cp 20)))) (.rd (.arr .spRates 14))) (.num 3002628 5))))),
  .set (.arr .jac 246) (.add (.rd (.arr .jac 246)) (.mul (.mul (.mul (.rd (.arr .spRates 14)) (.rd (.var .mwAvg))) (.num 79978941755293542 17)) (.rd (.var .rhoInv)))),
  .set (.arr .jac 231) (.sub (.rd (.arr .jac 231)) (.mul (.rd (.arr .h 14)) (.sub (.mul (.rd (.var .workTemp)) (.rd (.arr .jac 246))) (.mul (.mul (.mul (.rd (.var .jTemp)) (.sub (.rd (.arr .cp 10)) (.rd (.arr .cp 20)))) (.rd (.arr .spRates 14))) (.num 3002628 5))))),
  .set (.arr .jac 267) (.add (.rd (.arr .jac 267)) (.mul (.mul (.mul (.rd (.arr .spRates 14)) (.rd (.var .mwAvg))) (.num 11785984702679335 20)) (.rd (.var .rhoInv)))),
  .set (.arr .jac 252) (.sub (.rd (.arr .jac 252)) (.mul (.rd (.arr .h 14)) (.sub (.mul (.rd (.var .workTemp)) (.rd (.arr .jac 267))) (.mul (.mul (.mul (.rd (.var .jTemp)) (.sub (.rd (.arr .cp 11)) (.rd (.arr .cp 20)))) (.rd (.arr .spRates 14))) (.num 3002628 5))))),
  .set (.arr .jac 288) (.add (.rd (.arr .jac 288)) (.mul (.mul (.mul (.rd (.arr .spRates 14)) (.rd (.var .mwAvg))) (.neg (.num 38958762724442275 17))) (.rd (.var .rhoInv)))),
  .set (.arr .jac 273) (.sub (.rd (.arr .jac 273)) (.mul (.rd (.arr .h 14)) (.sub (.mul (.rd (.var .workTemp)) (.rd (.arr .jac 288))) (.mul (.mul (.mul (.rd (.var .jTemp)) (.sub (.rd (.arr .cp 12)) (.rd (.arr .cp 20)))) (.rd (.arr .spRates 14))) (.num 3002628 5))))),
  .set (.arr .jac 309) (.add (.rd (.arr .jac 309)) (.mul (.mul (.mul (.rd (.arr .spRates 14)) (.rd (.var .mwAvg))) (.neg (.num 37116538008736356 18))) (.rd (.var .rhoInv)))),
  .set (.arr .jac 294) (.sub (.rd (.arr .jac 294)) (.mul (.rd (.arr .h 14)) (.sub (.mul (.rd (.var .workTemp)) (.rd (.arr .jac 309))) (.mul (.mul (.mul (.rd (.var .jTemp)) (.sub (.rd (.arr .cp 13)) (.rd (.arr .cp 20)))) (.rd (.arr .spRates 14))) (.num 3002628 5))))),
  .set (.arr .jac 330) (.add (.rd (.arr .jac 330)) (.mul (.mul (.mul (.rd (.arr .spRates 14)) (.rd (.var .mwAvg))) (.neg (.num 71851123102163683 18))) (.rd (.var .rhoInv)))),
  .set (.arr .jac 315) (.sub (.rd (.arr .jac 315)) (.mul (.rd (.arr .h 14)) (.sub (.mul (.rd (.var .workTemp)) (.rd (.arr .jac 330))) (.mul (.mul (.mul (.rd (.var .jTemp)) (.sub (.rd (.arr .cp 14)) (.rd (.arr .cp 20)))) (.rd (.arr .spRates 14))) (.num 3002628 5))))),
  .set (.arr .jac 351) (.add (.rd (.arr .jac 351)) (.mul (.mul (.mul (.rd (.arr .spRates 14)) (.rd (.var .mwAvg))) (.neg (.num 10432946475212275 17))) (.rd (.var .rhoInv)))),
  .set (.arr .jac 336) (.sub (.rd (.arr .jac 336)) (.mul (.rd (.arr .h 14)) (.sub (.mul (.rd (.var .workTemp)) (.rd (.arr .jac 351))) (.mul (.mul (.mul (.rd (.var .jTemp)) (.sub (.rd (.arr .cp 15)) (.rd (.arr .cp 20)))) (.rd (.arr .spRates 14))) (.num 3002628 5))))),
  .set (.arr .jac 372) (.add (.rd (.arr .jac 372)) (.mul (.mul (.mul (.rd (.arr .spRates 14)) (.rd (.var .mwAvg))) (.neg (.num 15389795606205201 19))) (.rd (.var .rhoInv)))),
  .set (.arr .jac 357) (.sub (.rd (.arr .jac 357)) (.mul (.rd (.arr .h 14)) (.sub (.mul (.rd (.var .workTemp)) (.rd (.arr .jac 372))) (.mul (.mul (.mul (.rd (.var .jTemp)) (.sub (.rd (.arr .cp 16)) (.rd (.arr .cp 20)))) (.rd (.arr .spRates 14))) (.num 3002628 5))))),
  .set (.arr .jac 393) (.add (.rd (.arr .jac 393)) (.mul (.mul (.mul (.rd (.arr .spRates 14)) (.rd (.var .mwAvg))) (.neg (.num 38660360001587915 18))) (.rd (.var .rhoInv)))),
  .set (.arr .jac 378) (.sub (.rd (.arr .jac 378)) (.mul (.rd (.arr .h 14)) (.sub (.mul (.rd (.var .workTemp)) (.rd (.arr .jac 393))) (.mul (.mul (.mul (.rd (.var .jTemp)) (.sub (.rd (.arr .cp 17)) (.rd (.arr .cp 20)))) (.rd (.arr .spRates 14))) (.num 3002628 5))))),
  .set (.arr .jac 414) (.add (.rd (.arr .jac 414)) (.mul (.mul (.mul (.rd (.arr .spRates 14)) (.rd (.var .mwAvg))) (.neg (.num 73293109105321566 18))) (.rd (.var .rhoInv)))),
  .set (.arr .jac 399) (.sub (.rd (.arr .jac 399)) (.mul (.rd (.arr .h 14)) (.sub (.mul (.rd (.var .workTemp)) (.rd (.arr .jac 414))) (.mul (.mul (.mul (.rd (.var .jTemp)) (.sub (.rd (.arr .cp 18)) (.rd (.arr .cp 20)))) (.rd (.arr .spRates 14))) (.num 3002628 5))))),
  .set (.arr .jac 435) (.add (.rd (.arr .jac 435)) (.mul (.mul (.mul (.rd (.arr .spRates 14)) (.rd (.var .mwAvg))) (.neg (.num 32021699874049342 17))) (.rd (.var .rhoInv)))),
  .set (.arr .jac 420) (.sub (.rd (.arr .jac 420)) (.mul (.rd (.arr .h 14)) (.sub (.mul (.rd (.var .workTemp)) (.rd (.arr .jac 435))) (.mul (.mul (.mul (.rd (.var .jTemp)) (.sub (.rd (.arr .cp 19)) (.rd (.arr .cp 20)))) (.rd (.arr .spRates 14))) (.num 3002628 5)))))]

/-- utilities/mechanisms/drm19/lib/src/jacobs/jacob_3.c:607-646 -/
def jacobEnd15 : List CStmt := [
  .set (.arr .jac 37) (.add (.rd (.arr .jac 37)) (.mul (.mul (.mul (.rd (.arr .spRates 15)) (.rd (.var .mwAvg))) (.num 142870430367349 13)) (.rd (.var .rhoInv)))),
  .set (.arr .jac 21) (.sub (.rd (.arr .jac 21)) (.mul (.rd (.arr .h 15)) (.sub (.mul (.rd (.var .workTemp)) (.rd (.arr .jac 37))) (.mul (.mul (.mul (.rd (.var .jTemp)) (.sub (.rd (.arr .cp 0)) (.rd (.arr .cp 20)))) (.rd (.arr .spRates 15))) (.num 3103422 5))))),
  .set (.arr .jac 58) (.add (.rd (.arr .jac 58)) (.mul (.mul (.mul (.rd (.arr .spRates 15)) (.rd (.var .mwAvg))) (.num 29681917731657215 15)) (.rd (.var .rhoInv)))),
  .set (.arr .jac 42) (.sub (.rd (.arr .jac 42)) (.mul (.rd (.arr .h 15)) (.sub (.mul (.rd (.var .workTemp)) (.rd (.arr .jac 58))) (.mul (.mul (.mul (.rd (.var .jTemp)) (.sub (.rd (.arr .cp 1)) (.rd (.arr .cp 20)))) (.rd (.arr .spRates 15))) (.num 3103422 5))))),
  .set (.arr .jac 79) (.add (.rd (.arr .jac 79)) (.mul (.mul (.mul (.rd (.arr .spRates 15)) (.rd (.var .mwAvg))) (.num 83187983099342888 17)) (.rd (.var .rhoInv)))),
  .set (.arr .jac 63) (.sub (.rd (.arr .jac 63)) (.mul (.rd (.arr .h 15)) (.sub (.mul (.rd (.var .workTemp)) (.rd (.arr .jac 79))) (.mul (.mul (.mul (.rd (.var .jTemp)) (.sub (.rd (.arr .cp 2)) (.rd (.arr .cp 20)))) (.rd (.arr .spRates 15))) (.num 3103422 5))))),
  .set (.arr .jac 100) (.add (.rd (.arr .jac 100)) (.mul (.mul (.mul (.rd (.arr .spRates 15)) (.rd (.var .mwAvg))) (.neg (.num 13797591359699321 17))) (.rd (.var .rhoInv)))),
  .set (.arr .jac 84) (.sub (.rd (.arr .jac 84)) (.mul (.rd (.arr .h 15)) (.sub (.mul (.rd (.var .workTemp)) (.rd (.arr .jac 100))) (.mul (.mul (.mul (.rd (.var .jTemp)) (.sub (.rd (.arr .cp 3)) (.rd (.arr .cp 20)))) (.rd (.arr .spRates 15))) (.num 3103422 5))))),
  .set (.arr .jac 121) (.add (.rd (.arr .jac 121)) (.mul (.mul (.mul (.rd (.arr .spRates 15)) (.rd (.var .mwAvg))) (.num 71692283016878855 17)) (.rd (.var .rhoInv)))),
  .set (.arr .jac 105) (.sub (.rd (.arr .jac 105)) (.mul (.rd (.arr .h 15)) (.sub (.mul (.rd (.var .workTemp)) (.rd (.arr .jac 121))) (.mul (.mul (.mul (.rd (.var .jTemp)) (.sub (.rd (.arr .cp 4)) (.rd (.arr .cp 20)))) (.rd (.arr .spRates 15))) (.num 3103422 5))))),
  .set (.arr .jac 142) (.add (.rd (.arr .jac 142)) (.mul (.mul (.mul (.rd (.arr .spRates 15)) (.rd (.var .mwAvg))) (.num 61482932737595075 17)) (.rd (.var .rhoInv)))),
  .set (.arr .jac 126) (.sub (.rd (.arr .jac 126)) (.mul (.rd (.arr .h 15)) (.sub (.mul (.rd (.var .workTemp)) (.rd (.arr .jac 142))) (.mul (.mul (.mul (.rd (.var .jTemp)) (.sub (.rd (.arr .cp 5)) (.rd (.arr .cp 20)))) (.rd (.arr .spRates 15))) (.num 3103422 5))))),
  .set (.arr .jac 163) (.add (.rd (.arr .jac 163)) (.mul (.mul (.mul (.rd (.arr .spRates 15)) (.rd (.var .mwAvg))) (.neg (.num 16759278576317732 17))) (.rd (.var .rhoInv)))),
  .set (.arr .jac 147) (.sub (.rd (.arr .jac 147)) (.mul (.rd (.arr .h 15)) (.sub (.mul (.rd (.var .workTemp)) (.rd (.arr .jac 163))) (.mul (.mul (.mul (.rd (.var .jTemp)) (.sub (.rd (.arr .cp 6)) (.rd (.arr .cp 20)))) (.rd (.arr .spRates 15))) (.num 3103422 5))))),
  .set (.arr .jac 184) (.add (.rd (.arr .jac 184)) (.mul (.mul (.mul (.rd (.arr .spRates 15)) (.rd (.var .mwAvg))) (.num 11046503763063564 16)) (.rd (.var .rhoInv)))),
  .set (.arr .jac 168) (.sub (.rd (.arr .jac 168)) (.mul (.rd (.arr .h 15)) (.sub (.mul (.rd (.var .workTemp)) (.rd (.arr .jac 184))) (.mul (.mul (.mul (.rd (.var .jTemp)) (.sub (.rd (.arr .cp 7)) (.rd (.arr .cp 20)))) (.rd (.arr .spRates 15))) (.num 3103422 5))))),
  .set (.arr .jac 205) (.add (.rd (.arr .jac 205)) (.mul (.mul (.mul (.rd (.arr .spRates 15)) (.rd (.var .mwAvg))) (.num 11046503763063564 16)) (.rd (.var .rhoInv)))),
  .set (.arr .jac 189) (.sub (.rd (.arr .jac 189)) (.mul (.rd (.arr .h 15)) (.sub (.mul (.rd (.var .workTemp)) (.rd (.arr .jac 205))) (.mul (.mul (.mul (.rd (.var .jTemp)) (.sub (.rd (.arr .cp 8)) (.rd (.arr .cp 20)))) (.rd (.arr .spRates 15))) (.num 3103422 5))))),
  .set (.arr .jac 226) (.add (.rd (.arr .jac 226)) (.mul (.mul (.mul (.rd (.arr .spRates 15)) (.rd (.var .mwAvg))) (.num 95632474674460244 17)) (.rd (.var .rhoInv)))),
  .set (.arr .jac 210) (.sub (.rd (.arr .jac 210)) (.mul (.rd (.arr .h 15)) (.sub (.mul (.rd (.var .workTemp)) (.rd (.arr .jac 226))) (.mul (.mul (.mul (.rd (.var .jTemp)) (.sub (.rd (.arr .cp 9)) (.rd (.arr .cp 20)))) (.rd (.arr .spRates 15))) (.num 3103422 5))))),
  .set (.arr .jac 247) (.add (.rd (.arr .jac 247)) (.mul (.mul (.mul (.rd (.arr .spRates 15)) (.rd (.var .mwAvg))) (.num 82663722372567161 17)) (.rd (.var .rhoInv)))),
  .set (.arr .jac 231) (.sub (.rd (.arr .jac 231)) (.mul (.rd (.arr .h 15)) (.sub (.mul (.rd (.var .workTemp)) (.rd (.arr .jac 247))) (.mul (.mul (.mul (.rd (.var .jTemp)) (.sub (.rd (.arr .cp 10)) (.rd (.arr .cp 20)))) (.rd (.arr .spRates 15))) (.num 3103422 5))))),
  .set (.arr .jac 268) (.add (.rd (.arr .jac 268)) (.mul (.mul (.mul (.rd (.arr .spRates 15)) (.rd (.var .mwAvg))) (.num 1218162363701348 19)) (.rd (.var .rhoInv)))),
  .set (.arr .jac 252) (.sub (.rd (.arr .jac 252)) (.mul (.rd (.arr .h 15)) (.sub (.mul (.rd (.var .workTemp)) (.rd (.arr .jac 268))) (.mul (.mul (.mul (.rd (.var .jTemp)) (.sub (.rd (.arr .cp 11)) (.rd (.arr .cp 20)))) (.rd (.arr .spRates 15))) (.num 3103422 5))))),
  .set (.arr .jac 289) (.add (.rd (.arr .jac 289)) (.mul (.mul (.mul (.rd (.arr .spRates 15)) (.rd (.var .mwAvg))) (.neg (.num 40266553609642652 17))) (.rd (.var .rhoInv)))),
  .set (.arr .jac 273) (.sub (.rd (.arr .jac 273)) (.mul (.rd (.arr .h 15)) (.sub (.mul (.rd (.var .workTemp)) (.rd (.arr .jac 289))) (.mul (.mul (.mul (.rd (.var .jTemp)) (.sub (.rd (.arr .cp 12)) (.rd (.arr .cp 20)))) (.rd (.arr .spRates 15))) (.num 3103422 5))))),
  .set (.arr .jac 310) (.add (.rd (.arr .jac 310)) (.mul (.mul (.mul (.rd (.arr .spRates 15)) (.rd (.var .mwAvg))) (.neg (.num 38362488000561044 18))) (.rd (.var .rhoInv)))),
  .set (.arr .jac 294) (.sub (.rd (.arr .jac 294)) (.mul (.rd (.arr .h 15)) (.sub (.mul (.rd (.var .workTemp)) (.rd (.arr .jac 310))) (.mul (.mul (.mul (.rd (.var .jTemp)) (.sub (.rd (.arr .cp 13)) (.rd (.arr .cp 20)))) (.rd (.arr .spRates 15))) (.num 3103422 5))))),
  .set (.arr .jac 331) (.add (.rd (.arr .jac 331)) (.mul (.mul (.mul (.rd (.arr .spRates 15)) (.rd (.var .mwAvg))) (.neg (.num 74263064275682161 18))) (.rd (.var .rhoInv)))),
  .set (.arr .jac 315) (.sub (.rd (.arr .jac 315)) (.mul (.rd (.arr .h 15)) (.sub (.mul (.rd (.var .workTemp)) (.rd (.arr .jac 331))) (.mul (.mul (.mul (.rd (.var .jTemp)) (.sub (.rd (.arr .cp 14)) (.rd (.arr .cp 20)))) (.rd (.arr .spRates 15))) (.num 3103422 5))))),
  .set (.arr .jac 352) (.add (.rd (.arr .jac 352)) (.mul (.mul (.mul (.rd (.arr .spRates 15)) (.rd (.var .mwAvg))) (.neg (.num 10783165818741525 17))) (.rd (.var .rhoInv)))),
  .set (.arr .jac 336) (.sub (.rd (.arr .jac 336)) (.mul (.rd (.arr .h 15)) (.sub (.mul (.rd (.var .workTemp)) (.rd (.arr .jac 352))) (.mul (.mul (.mul (.rd (.var .jTemp)) (.sub (.rd (.arr .cp 15)) (.rd (.arr .cp 20)))) (.rd (.arr .spRates 15))) (.num 3103422 5))))),
  .set (.arr .jac 373) (.add (.rd (.arr .jac 373)) (.mul (.mul (.mul (.rd (.arr .spRates 15)) (.rd (.var .mwAvg))) (.neg (.num 15906409405294477 19))) (.rd (.var .rhoInv)))),
  .set (.arr .jac 357) (.sub (.rd (.arr .jac 357)) (.mul (.rd (.arr .h 15)) (.sub (.mul (.rd (.var .workTemp)) (.rd (.arr .jac 373))) (.mul (.mul (.mul (.rd (.var .jTemp)) (.sub (.rd (.arr .cp 16)) (.rd (.arr .cp 20)))) (.rd (.arr .spRates 15))) (.num 3103422 5))))),
  .set (.arr .jac 394) (.add (.rd (.arr .jac 394)) (.mul (.mul (.mul (.rd (.arr .spRates 15)) (.rd (.var .mwAvg))) (.neg (.num 39958133926962631 18))) (.rd (.var .rhoInv)))),
  .set (.arr .jac 378) (.sub (.rd (.arr .jac 378)) (.mul (.rd (.arr .h 15)) (.sub (.mul (.rd (.var .workTemp)) (.rd (.arr .jac 394))) (.mul (.mul (.mul (.rd (.var .jTemp)) (.sub (.rd (.arr .cp 17)) (.rd (.arr .cp 20)))) (.rd (.arr .spRates 15))) (.num 3103422 5))))),
  .set (.arr .jac 415) (.add (.rd (.arr .jac 415)) (.mul (.mul (.mul (.rd (.arr .spRates 15)) (.rd (.var .mwAvg))) (.neg (.num 7575345572140646 17))) (.rd (.var .rhoInv)))),
  .set (.arr .jac 399) (.sub (.rd (.arr .jac 399)) (.mul (.rd (.arr .h 15)) (.sub (.mul (.rd (.var .workTemp)) (.rd (.arr .jac 415))) (.mul (.mul (.mul (.rd (.var .jTemp)) (.sub (.rd (.arr .cp 18)) (.rd (.arr .cp 20)))) (.rd (.arr .spRates 15))) (.num 3103422 5))))),
  .set (.arr .jac 436) (.add (.rd (.arr .jac 436)) (.mul (.mul (.mul (.rd (.arr .spRates 15)) (.rd (.var .mwAvg))) (.neg (.num 33096623313484702 17))) (.rd (.var .rhoInv)))),
  .set (.arr .jac 420) (.sub (.rd (.arr .jac 420)) (.mul (.rd (.arr .h 15)) (.sub (.mul (.rd (.var .workTemp)) (.rd (.arr .jac 436))) (.mul (.mul (.mul (.rd (.var .jTemp)) (.sub (.rd (.arr .cp 19)) (.rd (.arr .cp 20)))) (.rd (.arr .spRates 15))) (.num 3103422 5)))))]

/-- utilities/mechanisms/drm19/lib/src/jacobs/jacob_3.c:647-686 -/
def jacobEnd16 : List CStmt := [
  .set (.arr .jac 38) (.add (.rd (.arr .jac 38)) (.mul (.mul (.mul (.rd (.arr .spRates 16)) (.rd (.var .mwAvg))) (.num 12914946032548331 15)) (.rd (.var .rhoInv)))),
  .set (.arr .jac 21) (.sub (.rd (.arr .jac 21)) (.mul (.rd (.arr .h 16)) (.sub (.mul (.rd (.var .workTemp)) (.rd (.arr .jac 38))) (.mul (.mul (.mul (.rd (.var .jTemp)) (.sub (.rd (.arr .cp 0)) (.rd (.arr .cp 20)))) (.rd (.arr .spRates 16))) (.num 2805376 5))))),
  .set (.arr .jac 59) (.add (.rd (.arr .jac 59)) (.mul (.mul (.mul (.rd (.arr .spRates 16)) (.rd (.var .mwAvg))) (.num 26831329944289106 15)) (.rd (.var .rhoInv)))),
  .set (.arr .jac 42) (.sub (.rd (.arr .jac 42)) (.mul (.rd (.arr .h 16)) (.sub (.mul (.rd (.var .workTemp)) (.rd (.arr .jac 59))) (.mul (.mul (.mul (.rd (.var .jTemp)) (.sub (.rd (.arr .cp 1)) (.rd (.arr .cp 20)))) (.rd (.arr .spRates 16))) (.num 2805376 5))))),
  .set (.arr .jac 80) (.add (.rd (.arr .jac 80)) (.mul (.mul (.mul (.rd (.arr .spRates 16)) (.rd (.var .mwAvg))) (.num 75198787427330915 17)) (.rd (.var .rhoInv)))),
  .set (.arr .jac 63) (.sub (.rd (.arr .jac 63)) (.mul (.rd (.arr .h 16)) (.sub (.mul (.rd (.var .workTemp)) (.rd (.arr .jac 80))) (.mul (.mul (.mul (.rd (.var .jTemp)) (.sub (.rd (.arr .cp 2)) (.rd (.arr .cp 20)))) (.rd (.arr .spRates 16))) (.num 2805376 5))))),
  .set (.arr .jac 101) (.add (.rd (.arr .jac 101)) (.mul (.mul (.mul (.rd (.arr .spRates 16)) (.rd (.var .mwAvg))) (.neg (.num 1247250024595683 16))) (.rd (.var .rhoInv)))),
  .set (.arr .jac 84) (.sub (.rd (.arr .jac 84)) (.mul (.rd (.arr .h 16)) (.sub (.mul (.rd (.var .workTemp)) (.rd (.arr .jac 101))) (.mul (.mul (.mul (.rd (.var .jTemp)) (.sub (.rd (.arr .cp 3)) (.rd (.arr .cp 20)))) (.rd (.arr .spRates 16))) (.num 2805376 5))))),
  .set (.arr .jac 122) (.add (.rd (.arr .jac 122)) (.mul (.mul (.mul (.rd (.arr .spRates 16)) (.rd (.var .mwAvg))) (.num 64807109751996195 17)) (.rd (.var .rhoInv)))),
  .set (.arr .jac 105) (.sub (.rd (.arr .jac 105)) (.mul (.rd (.arr .h 16)) (.sub (.mul (.rd (.var .workTemp)) (.rd (.arr .jac 122))) (.mul (.mul (.mul (.rd (.var .jTemp)) (.sub (.rd (.arr .cp 4)) (.rd (.arr .cp 20)))) (.rd (.arr .spRates 16))) (.num 2805376 5))))),
  .set (.arr .jac 143) (.add (.rd (.arr .jac 143)) (.mul (.mul (.mul (.rd (.arr .spRates 16)) (.rd (.var .mwAvg))) (.num 55578243600665167 17)) (.rd (.var .rhoInv)))),
  .set (.arr .jac 126) (.sub (.rd (.arr .jac 126)) (.mul (.rd (.arr .h 16)) (.sub (.mul (.rd (.var .workTemp)) (.rd (.arr .jac 143))) (.mul (.mul (.mul (.rd (.var .jTemp)) (.sub (.rd (.arr .cp 5)) (.rd (.arr .cp 20)))) (.rd (.arr .spRates 16))) (.num 2805376 5))))),
  .set (.arr .jac 164) (.add (.rd (.arr .jac 164)) (.mul (.mul (.mul (.rd (.arr .spRates 16)) (.rd (.var .mwAvg))) (.neg (.num 15149753367513644 17))) (.rd (.var .rhoInv)))),
  .set (.arr .jac 147) (.sub (.rd (.arr .jac 147)) (.mul (.rd (.arr .h 16)) (.sub (.mul (.rd (.var .workTemp)) (.rd (.arr .jac 164))) (.mul (.mul (.mul (.rd (.var .jTemp)) (.sub (.rd (.arr .cp 6)) (.rd (.arr .cp 20)))) (.rd (.arr .spRates 16))) (.num 2805376 5))))),
  .set (.arr .jac 185) (.add (.rd (.arr .jac 185)) (.mul (.mul (.mul (.rd (.arr .spRates 16)) (.rd (.var .mwAvg))) (.num 99856212080755413 17)) (.rd (.var .rhoInv)))),
  .set (.arr .jac 168) (.sub (.rd (.arr .jac 168)) (.mul (.rd (.arr .h 16)) (.sub (.mul (.rd (.var .workTemp)) (.rd (.arr .jac 185))) (.mul (.mul (.mul (.rd (.var .jTemp)) (.sub (.rd (.arr .cp 7)) (.rd (.arr .cp 20)))) (.rd (.arr .spRates 16))) (.num 2805376 5))))),
  .set (.arr .jac 206) (.add (.rd (.arr .jac 206)) (.mul (.mul (.mul (.rd (.arr .spRates 16)) (.rd (.var .mwAvg))) (.num 99856212080755413 17)) (.rd (.var .rhoInv)))),
  .set (.arr .jac 189) (.sub (.rd (.arr .jac 189)) (.mul (.rd (.arr .h 16)) (.sub (.mul (.rd (.var .workTemp)) (.rd (.arr .jac 206))) (.mul (.mul (.mul (.rd (.var .jTemp)) (.sub (.rd (.arr .cp 8)) (.rd (.arr .cp 20)))) (.rd (.arr .spRates 16))) (.num 2805376 5))))),
  .set (.arr .jac 227) (.add (.rd (.arr .jac 227)) (.mul (.mul (.mul (.rd (.arr .spRates 16)) (.rd (.var .mwAvg))) (.num 86448136693088651 17)) (.rd (.var .rhoInv)))),
  .set (.arr .jac 210) (.sub (.rd (.arr .jac 210)) (.mul (.rd (.arr .h 16)) (.sub (.mul (.rd (.var .workTemp)) (.rd (.arr .jac 227))) (.mul (.mul (.mul (.rd (.var .jTemp)) (.sub (.rd (.arr .cp 9)) (.rd (.arr .cp 20)))) (.rd (.arr .spRates 16))) (.num 2805376 5))))),
  .set (.arr .jac 248) (.add (.rd (.arr .jac 248)) (.mul (.mul (.mul (.rd (.arr .spRates 16)) (.rd (.var .mwAvg))) (.num 74724875577560179 17)) (.rd (.var .rhoInv)))),
  .set (.arr .jac 231) (.sub (.rd (.arr .jac 231)) (.mul (.rd (.arr .h 16)) (.sub (.mul (.rd (.var .workTemp)) (.rd (.arr .jac 248))) (.mul (.mul (.mul (.rd (.var .jTemp)) (.sub (.rd (.arr .cp 10)) (.rd (.arr .cp 20)))) (.rd (.arr .spRates 16))) (.num 2805376 5))))),
  .set (.arr .jac 269) (.add (.rd (.arr .jac 269)) (.mul (.mul (.mul (.rd (.arr .spRates 16)) (.rd (.var .mwAvg))) (.num 11011726601251885 20)) (.rd (.var .rhoInv)))),
  .set (.arr .jac 252) (.sub (.rd (.arr .jac 252)) (.mul (.rd (.arr .h 16)) (.sub (.mul (.rd (.var .workTemp)) (.rd (.arr .jac 269))) (.mul (.mul (.mul (.rd (.var .jTemp)) (.sub (.rd (.arr .cp 11)) (.rd (.arr .cp 20)))) (.rd (.arr .spRates 16))) (.num 2805376 5))))),
  .set (.arr .jac 290) (.add (.rd (.arr .jac 290)) (.mul (.mul (.mul (.rd (.arr .spRates 16)) (.rd (.var .mwAvg))) (.neg (.num 36399440069447486 17))) (.rd (.var .rhoInv)))),
  .set (.arr .jac 273) (.sub (.rd (.arr .jac 273)) (.mul (.rd (.arr .h 16)) (.sub (.mul (.rd (.var .workTemp)) (.rd (.arr .jac 290))) (.mul (.mul (.mul (.rd (.var .jTemp)) (.sub (.rd (.arr .cp 12)) (.rd (.arr .cp 20)))) (.rd (.arr .spRates 16))) (.num 2805376 5))))),
  .set (.arr .jac 311) (.add (.rd (.arr .jac 311)) (.mul (.mul (.mul (.rd (.arr .spRates 16)) (.rd (.var .mwAvg))) (.neg (.num 34678236842125218 18))) (.rd (.var .rhoInv)))),
  .set (.arr .jac 294) (.sub (.rd (.arr .jac 294)) (.mul (.rd (.arr .h 16)) (.sub (.mul (.rd (.var .workTemp)) (.rd (.arr .jac 311))) (.mul (.mul (.mul (.rd (.var .jTemp)) (.sub (.rd (.arr .cp 13)) (.rd (.arr .cp 20)))) (.rd (.arr .spRates 16))) (.num 2805376 5))))),
  .set (.arr .jac 332) (.add (.rd (.arr .jac 332)) (.mul (.mul (.mul (.rd (.arr .spRates 16)) (.rd (.var .mwAvg))) (.neg (.num 6713099868643585 17))) (.rd (.var .rhoInv)))),
  .set (.arr .jac 315) (.sub (.rd (.arr .jac 315)) (.mul (.rd (.arr .h 16)) (.sub (.mul (.rd (.var .workTemp)) (.rd (.arr .jac 332))) (.mul (.mul (.mul (.rd (.var .jTemp)) (.sub (.rd (.arr .cp 14)) (.rd (.arr .cp 20)))) (.rd (.arr .spRates 16))) (.num 2805376 5))))),
  .set (.arr .jac 353) (.add (.rd (.arr .jac 353)) (.mul (.mul (.mul (.rd (.arr .spRates 16)) (.rd (.var .mwAvg))) (.neg (.num 97475736757417525 18))) (.rd (.var .rhoInv)))),
  .set (.arr .jac 336) (.sub (.rd (.arr .jac 336)) (.mul (.rd (.arr .h 16)) (.sub (.mul (.rd (.var .workTemp)) (.rd (.arr .jac 353))) (.mul (.mul (.mul (.rd (.var .jTemp)) (.sub (.rd (.arr .cp 15)) (.rd (.arr .cp 20)))) (.rd (.arr .spRates 16))) (.num 2805376 5))))),
  .set (.arr .jac 374) (.add (.rd (.arr .jac 374)) (.mul (.mul (.mul (.rd (.arr .spRates 16)) (.rd (.var .mwAvg))) (.neg (.num 14378791924458678 19))) (.rd (.var .rhoInv)))),
  .set (.arr .jac 357) (.sub (.rd (.arr .jac 357)) (.mul (.rd (.arr .h 16)) (.sub (.mul (.rd (.var .workTemp)) (.rd (.arr .jac 374))) (.mul (.mul (.mul (.rd (.var .jTemp)) (.sub (.rd (.arr .cp 16)) (.rd (.arr .cp 20)))) (.rd (.arr .spRates 16))) (.num 2805376 5))))),
  .set (.arr .jac 395) (.add (.rd (.arr .jac 395)) (.mul (.mul (.mul (.rd (.arr .spRates 16)) (.rd (.var .mwAvg))) (.neg (.num 3612064035232293 17))) (.rd (.var .rhoInv)))),
  .set (.arr .jac 378) (.sub (.rd (.arr .jac 378)) (.mul (.rd (.arr .h 16)) (.sub (.mul (.rd (.var .workTemp)) (.rd (.arr .jac 395))) (.mul (.mul (.mul (.rd (.var .jTemp)) (.sub (.rd (.arr .cp 17)) (.rd (.arr .cp 20)))) (.rd (.arr .spRates 16))) (.num 2805376 5))))),
  .set (.arr .jac 416) (.add (.rd (.arr .jac 416)) (.mul (.mul (.mul (.rd (.arr .spRates 16)) (.rd (.var .mwAvg))) (.neg (.num 68478256130779624 18))) (.rd (.var .rhoInv)))),
  .set (.arr .jac 399) (.sub (.rd (.arr .jac 399)) (.mul (.rd (.arr .h 16)) (.sub (.mul (.rd (.var .workTemp)) (.rd (.arr .jac 416))) (.mul (.mul (.mul (.rd (.var .jTemp)) (.sub (.rd (.arr .cp 18)) (.rd (.arr .cp 20)))) (.rd (.arr .spRates 16))) (.num 2805376 5))))),
  .set (.arr .jac 437) (.add (.rd (.arr .jac 437)) (.mul (.mul (.mul (.rd (.arr .spRates 16)) (.rd (.var .mwAvg))) (.neg (.num 29918094517822735 17))) (.rd (.var .rhoInv)))),
  .set (.arr .jac 420) (.sub (.rd (.arr .jac 420)) (.mul (.rd (.arr .h 16)) (.sub (.mul (.rd (.var .workTemp)) (.rd (.arr .jac 437))) (.mul (.mul (.mul (.rd (.var .jTemp)) (.sub (.rd (.arr .cp 19)) (.rd (.arr .cp 20)))) (.rd (.arr .spRates 16))) (.num 2805376 5)))))]

/-- utilities/mechanisms/drm19/lib/src/jacobs/jacob_3.c:687-726 -/
def jacobEnd17 : List CStmt := [
  .set (.arr .jac 39) (.add (.rd (.arr .jac 39)) (.mul (.mul (.mul (.rd (.arr .spRates 17)) (.rd (.var .mwAvg))) (.num 1337896549746308 14)) (.rd (.var .rhoInv)))),
  .set (.arr .jac 21) (.sub (.rd (.arr .jac 21)) (.mul (.rd (.arr .h 17)) (.sub (.mul (.rd (.var .workTemp)) (.rd (.arr .jac 39))) (.mul (.mul (.mul (.rd (.var .jTemp)) (.sub (.rd (.arr .cp 0)) (.rd (.arr .cp 20)))) (.rd (.arr .spRates 17))) (.num 290617 4))))),
  .set (.arr .jac 60) (.add (.rd (.arr .jac 60)) (.mul (.mul (.mul (.rd (.arr .spRates 17)) (.rd (.var .mwAvg))) (.num 27795349409203858 15)) (.rd (.var .rhoInv)))),
  .set (.arr .jac 42) (.sub (.rd (.arr .jac 42)) (.mul (.rd (.arr .h 17)) (.sub (.mul (.rd (.var .workTemp)) (.rd (.arr .jac 60))) (.mul (.mul (.mul (.rd (.var .jTemp)) (.sub (.rd (.arr .cp 1)) (.rd (.arr .cp 20)))) (.rd (.arr .spRates 17))) (.num 290617 4))))),
  .set (.arr .jac 81) (.add (.rd (.arr .jac 81)) (.mul (.mul (.mul (.rd (.arr .spRates 17)) (.rd (.var .mwAvg))) (.num 77900595163602415 17)) (.rd (.var .rhoInv)))),
  .set (.arr .jac 63) (.sub (.rd (.arr .jac 63)) (.mul (.rd (.arr .h 17)) (.sub (.mul (.rd (.var .workTemp)) (.rd (.arr .jac 81))) (.mul (.mul (.mul (.rd (.var .jTemp)) (.sub (.rd (.arr .cp 2)) (.rd (.arr .cp 20)))) (.rd (.arr .spRates 17))) (.num 290617 4))))),
  .set (.arr .jac 102) (.add (.rd (.arr .jac 102)) (.mul (.mul (.mul (.rd (.arr .spRates 17)) (.rd (.var .mwAvg))) (.neg (.num 12920623132083672 17))) (.rd (.var .rhoInv)))),
  .set (.arr .jac 84) (.sub (.rd (.arr .jac 84)) (.mul (.rd (.arr .h 17)) (.sub (.mul (.rd (.var .workTemp)) (.rd (.arr .jac 102))) (.mul (.mul (.mul (.rd (.var .jTemp)) (.sub (.rd (.arr .cp 3)) (.rd (.arr .cp 20)))) (.rd (.arr .spRates 17))) (.num 290617 4))))),
  .set (.arr .jac 123) (.add (.rd (.arr .jac 123)) (.mul (.mul (.mul (.rd (.arr .spRates 17)) (.rd (.var .mwAvg))) (.num 6713555621348396 16)) (.rd (.var .rhoInv)))),
  .set (.arr .jac 105) (.sub (.rd (.arr .jac 105)) (.mul (.rd (.arr .h 17)) (.sub (.mul (.rd (.var .workTemp)) (.rd (.arr .jac 123))) (.mul (.mul (.mul (.rd (.var .jTemp)) (.sub (.rd (.arr .cp 4)) (.rd (.arr .cp 20)))) (.rd (.arr .spRates 17))) (.num 290617 4))))),
  .set (.arr .jac 144) (.add (.rd (.arr .jac 144)) (.mul (.mul (.mul (.rd (.arr .spRates 17)) (.rd (.var .mwAvg))) (.num 57575107295758254 17)) (.rd (.var .rhoInv)))),
  .set (.arr .jac 126) (.sub (.rd (.arr .jac 126)) (.mul (.rd (.arr .h 17)) (.sub (.mul (.rd (.var .workTemp)) (.rd (.arr .jac 144))) (.mul (.mul (.mul (.rd (.var .jTemp)) (.sub (.rd (.arr .cp 5)) (.rd (.arr .cp 20)))) (.rd (.arr .spRates 17))) (.num 290617 4))))),
  .set (.arr .jac 165) (.add (.rd (.arr .jac 165)) (.mul (.mul (.mul (.rd (.arr .spRates 17)) (.rd (.var .mwAvg))) (.neg (.num 15694066942922136 17))) (.rd (.var .rhoInv)))),
  .set (.arr .jac 147) (.sub (.rd (.arr .jac 147)) (.mul (.rd (.arr .h 17)) (.sub (.mul (.rd (.var .workTemp)) (.rd (.arr .jac 165))) (.mul (.mul (.mul (.rd (.var .jTemp)) (.sub (.rd (.arr .cp 6)) (.rd (.arr .cp 20)))) (.rd (.arr .spRates 17))) (.num 290617 4))))),
  .set (.arr .jac 186) (.add (.rd (.arr .jac 186)) (.mul (.mul (.mul (.rd (.arr .spRates 17)) (.rd (.var .mwAvg))) (.num 10344393331329882 16)) (.rd (.var .rhoInv)))),
  .set (.arr .jac 168) (.sub (.rd (.arr .jac 168)) (.mul (.rd (.arr .h 17)) (.sub (.mul (.rd (.var .workTemp)) (.rd (.arr .jac 186))) (.mul (.mul (.mul (.rd (.var .jTemp)) (.sub (.rd (.arr .cp 7)) (.rd (.arr .cp 20)))) (.rd (.arr .spRates 17))) (.num 290617 4))))),
  .set (.arr .jac 207) (.add (.rd (.arr .jac 207)) (.mul (.mul (.mul (.rd (.arr .spRates 17)) (.rd (.var .mwAvg))) (.num 10344393331329882 16)) (.rd (.var .rhoInv)))),
  .set (.arr .jac 189) (.sub (.rd (.arr .jac 189)) (.mul (.rd (.arr .h 17)) (.sub (.mul (.rd (.var .workTemp)) (.rd (.arr .jac 207))) (.mul (.mul (.mul (.rd (.var .jTemp)) (.sub (.rd (.arr .cp 8)) (.rd (.arr .cp 20)))) (.rd (.arr .spRates 17))) (.num 290617 4))))),
  .set (.arr .jac 228) (.add (.rd (.arr .jac 228)) (.mul (.mul (.mul (.rd (.arr .spRates 17)) (.rd (.var .mwAvg))) (.num 89554120878396848 17)) (.rd (.var .rhoInv)))),
  .set (.arr .jac 210) (.sub (.rd (.arr .jac 210)) (.mul (.rd (.arr .h 17)) (.sub (.mul (.rd (.var .workTemp)) (.rd (.arr .jac 228))) (.mul (.mul (.mul (.rd (.var .jTemp)) (.sub (.rd (.arr .cp 9)) (.rd (.arr .cp 20)))) (.rd (.arr .spRates 17))) (.num 290617 4))))),
  .set (.arr .jac 249) (.add (.rd (.arr .jac 249)) (.mul (.mul (.mul (.rd (.arr .spRates 17)) (.rd (.var .mwAvg))) (.num 77409656194833798 17)) (.rd (.var .rhoInv)))),
  .set (.arr .jac 231) (.sub (.rd (.arr .jac 231)) (.mul (.rd (.arr .h 17)) (.sub (.mul (.rd (.var .workTemp)) (.rd (.arr .jac 249))) (.mul (.mul (.mul (.rd (.var .jTemp)) (.sub (.rd (.arr .cp 10)) (.rd (.arr .cp 20)))) (.rd (.arr .spRates 17))) (.num 290617 4))))),
  .set (.arr .jac 270) (.add (.rd (.arr .jac 270)) (.mul (.mul (.mul (.rd (.arr .spRates 17)) (.rd (.var .mwAvg))) (.num 11407365535586027 20)) (.rd (.var .rhoInv)))),
  .set (.arr .jac 252) (.sub (.rd (.arr .jac 252)) (.mul (.rd (.arr .h 17)) (.sub (.mul (.rd (.var .workTemp)) (.rd (.arr .jac 270))) (.mul (.mul (.mul (.rd (.var .jTemp)) (.sub (.rd (.arr .cp 11)) (.rd (.arr .cp 20)))) (.rd (.arr .spRates 17))) (.num 290617 4))))),
  .set (.arr .jac 291) (.add (.rd (.arr .jac 291)) (.mul (.mul (.mul (.rd (.arr .spRates 17)) (.rd (.var .mwAvg))) (.neg (.num 37707230954647858 17))) (.rd (.var .rhoInv)))),
  .set (.arr .jac 273) (.sub (.rd (.arr .jac 273)) (.mul (.rd (.arr .h 17)) (.sub (.mul (.rd (.var .workTemp)) (.rd (.arr .jac 291))) (.mul (.mul (.mul (.rd (.var .jTemp)) (.sub (.rd (.arr .cp 12)) (.rd (.arr .cp 20)))) (.rd (.arr .spRates 17))) (.num 290617 4))))),
  .set (.arr .jac 312) (.add (.rd (.arr .jac 312)) (.mul (.mul (.mul (.rd (.arr .spRates 17)) (.rd (.var .mwAvg))) (.neg (.num 35924186833949913 18))) (.rd (.var .rhoInv)))),
  .set (.arr .jac 294) (.sub (.rd (.arr .jac 294)) (.mul (.rd (.arr .h 17)) (.sub (.mul (.rd (.var .workTemp)) (.rd (.arr .jac 312))) (.mul (.mul (.mul (.rd (.var .jTemp)) (.sub (.rd (.arr .cp 13)) (.rd (.arr .cp 20)))) (.rd (.arr .spRates 17))) (.num 290617 4))))),
  .set (.arr .jac 333) (.add (.rd (.arr .jac 333)) (.mul (.mul (.mul (.rd (.arr .spRates 17)) (.rd (.var .mwAvg))) (.neg (.num 69542939859954356 18))) (.rd (.var .rhoInv)))),
  .set (.arr .jac 315) (.sub (.rd (.arr .jac 315)) (.mul (.rd (.arr .h 17)) (.sub (.mul (.rd (.var .workTemp)) (.rd (.arr .jac 333))) (.mul (.mul (.mul (.rd (.var .jTemp)) (.sub (.rd (.arr .cp 14)) (.rd (.arr .cp 20)))) (.rd (.arr .spRates 17))) (.num 290617 4))))),
  .set (.arr .jac 354) (.add (.rd (.arr .jac 354)) (.mul (.mul (.mul (.rd (.arr .spRates 17)) (.rd (.var .mwAvg))) (.neg (.num 10097793019271004 17))) (.rd (.var .rhoInv)))),
  .set (.arr .jac 336) (.sub (.rd (.arr .jac 336)) (.mul (.rd (.arr .h 17)) (.sub (.mul (.rd (.var .workTemp)) (.rd (.arr .jac 354))) (.mul (.mul (.mul (.rd (.var .jTemp)) (.sub (.rd (.arr .cp 15)) (.rd (.arr .cp 20)))) (.rd (.arr .spRates 17))) (.num 290617 4))))),
  .set (.arr .jac 375) (.add (.rd (.arr .jac 375)) (.mul (.mul (.mul (.rd (.arr .spRates 17)) (.rd (.var .mwAvg))) (.neg (.num 14895405723547959 19))) (.rd (.var .rhoInv)))),
  .set (.arr .jac 357) (.sub (.rd (.arr .jac 357)) (.mul (.rd (.arr .h 17)) (.sub (.mul (.rd (.var .workTemp)) (.rd (.arr .jac 375))) (.mul (.mul (.mul (.rd (.var .jTemp)) (.sub (.rd (.arr .cp 16)) (.rd (.arr .cp 20)))) (.rd (.arr .spRates 17))) (.num 290617 4))))),
  .set (.arr .jac 396) (.add (.rd (.arr .jac 396)) (.mul (.mul (.mul (.rd (.arr .spRates 17)) (.rd (.var .mwAvg))) (.neg (.num 37418414277697654 18))) (.rd (.var .rhoInv)))),
  .set (.arr .jac 378) (.sub (.rd (.arr .jac 378)) (.mul (.rd (.arr .h 17)) (.sub (.mul (.rd (.var .workTemp)) (.rd (.arr .jac 396))) (.mul (.mul (.mul (.rd (.var .jTemp)) (.sub (.rd (.arr .cp 17)) (.rd (.arr .cp 20)))) (.rd (.arr .spRates 17))) (.num 290617 4))))),
  .set (.arr .jac 417) (.add (.rd (.arr .jac 417)) (.mul (.mul (.mul (.rd (.arr .spRates 17)) (.rd (.var .mwAvg))) (.neg (.num 70938602746864532 18))) (.rd (.var .rhoInv)))),
  .set (.arr .jac 399) (.sub (.rd (.arr .jac 399)) (.mul (.rd (.arr .h 17)) (.sub (.mul (.rd (.var .workTemp)) (.rd (.arr .jac 417))) (.mul (.mul (.mul (.rd (.var .jTemp)) (.sub (.rd (.arr .cp 18)) (.rd (.arr .cp 20)))) (.rd (.arr .spRates 17))) (.num 290617 4))))),
  .set (.arr .jac 438) (.add (.rd (.arr .jac 438)) (.mul (.mul (.mul (.rd (.arr .spRates 17)) (.rd (.var .mwAvg))) (.neg (.num 30993017957258095 17))) (.rd (.var .rhoInv)))),
  .set (.arr .jac 420) (.sub (.rd (.arr .jac 420)) (.mul (.rd (.arr .h 17)) (.sub (.mul (.rd (.var .workTemp)) (.rd (.arr .jac 438))) (.mul (.mul (.mul (.rd (.var .jTemp)) (.sub (.rd (.arr .cp 19)) (.rd (.arr .cp 20)))) (.rd (.arr .spRates 17))) (.num 290617 4)))))]

/-- utilities/mechanisms/drm19/lib/src/jacobs/jacob_3.c:727-766 -/
def jacobEnd18 : List CStmt := [
  .set (.arr .jac 40) (.add (.rd (.arr .jac 40)) (.mul (.mul (.mul (.rd (.arr .spRates 18)) (.rd (.var .mwAvg))) (.num 13842984962377828 15)) (.rd (.var .rhoInv)))),
  .set (.arr .jac 21) (.sub (.rd (.arr .jac 21)) (.mul (.rd (.arr .h 18)) (.sub (.mul (.rd (.var .workTemp)) (.rd (.arr .jac 40))) (.mul (.mul (.mul (.rd (.var .jTemp)) (.sub (.rd (.arr .cp 0)) (.rd (.arr .cp 20)))) (.rd (.arr .spRates 18))) (.num 3006964 5))))),
  .set (.arr .jac 61) (.add (.rd (.arr .jac 61)) (.mul (.mul (.mul (.rd (.arr .spRates 18)) (.rd (.var .mwAvg))) (.num 28759368874118604 15)) (.rd (.var .rhoInv)))),
  .set (.arr .jac 42) (.sub (.rd (.arr .jac 42)) (.mul (.rd (.arr .h 18)) (.sub (.mul (.rd (.var .workTemp)) (.rd (.arr .jac 61))) (.mul (.mul (.mul (.rd (.var .jTemp)) (.sub (.rd (.arr .cp 1)) (.rd (.arr .cp 20)))) (.rd (.arr .spRates 18))) (.num 3006964 5))))),
  .set (.arr .jac 82) (.add (.rd (.arr .jac 82)) (.mul (.mul (.mul (.rd (.arr .spRates 18)) (.rd (.var .mwAvg))) (.num 80602402899873915 17)) (.rd (.var .rhoInv)))),
  .set (.arr .jac 63) (.sub (.rd (.arr .jac 63)) (.mul (.rd (.arr .h 18)) (.sub (.mul (.rd (.var .workTemp)) (.rd (.arr .jac 82))) (.mul (.mul (.mul (.rd (.var .jTemp)) (.sub (.rd (.arr .cp 2)) (.rd (.arr .cp 20)))) (.rd (.arr .spRates 18))) (.num 3006964 5))))),
  .set (.arr .jac 103) (.add (.rd (.arr .jac 103)) (.mul (.mul (.mul (.rd (.arr .spRates 18)) (.rd (.var .mwAvg))) (.neg (.num 13368746018210512 17))) (.rd (.var .rhoInv)))),
  .set (.arr .jac 84) (.sub (.rd (.arr .jac 84)) (.mul (.rd (.arr .h 18)) (.sub (.mul (.rd (.var .workTemp)) (.rd (.arr .jac 103))) (.mul (.mul (.mul (.rd (.var .jTemp)) (.sub (.rd (.arr .cp 3)) (.rd (.arr .cp 20)))) (.rd (.arr .spRates 18))) (.num 3006964 5))))),
  .set (.arr .jac 124) (.add (.rd (.arr .jac 124)) (.mul (.mul (.mul (.rd (.arr .spRates 18)) (.rd (.var .mwAvg))) (.num 69464002674971725 17)) (.rd (.var .rhoInv)))),
  .set (.arr .jac 105) (.sub (.rd (.arr .jac 105)) (.mul (.rd (.arr .h 18)) (.sub (.mul (.rd (.var .workTemp)) (.rd (.arr .jac 124))) (.mul (.mul (.mul (.rd (.var .jTemp)) (.sub (.rd (.arr .cp 4)) (.rd (.arr .cp 20)))) (.rd (.arr .spRates 18))) (.num 3006964 5))))),
  .set (.arr .jac 145) (.add (.rd (.arr .jac 145)) (.mul (.mul (.mul (.rd (.arr .spRates 18)) (.rd (.var .mwAvg))) (.num 59571970990851331 17)) (.rd (.var .rhoInv)))),
  .set (.arr .jac 126) (.sub (.rd (.arr .jac 126)) (.mul (.rd (.arr .h 18)) (.sub (.mul (.rd (.var .workTemp)) (.rd (.arr .jac 145))) (.mul (.mul (.mul (.rd (.var .jTemp)) (.sub (.rd (.arr .cp 5)) (.rd (.arr .cp 20)))) (.rd (.arr .spRates 18))) (.num 3006964 5))))),
  .set (.arr .jac 166) (.add (.rd (.arr .jac 166)) (.mul (.mul (.mul (.rd (.arr .spRates 18)) (.rd (.var .mwAvg))) (.neg (.num 16238380518330628 17))) (.rd (.var .rhoInv)))),
  .set (.arr .jac 147) (.sub (.rd (.arr .jac 147)) (.mul (.rd (.arr .h 18)) (.sub (.mul (.rd (.var .workTemp)) (.rd (.arr .jac 166))) (.mul (.mul (.mul (.rd (.var .jTemp)) (.sub (.rd (.arr .cp 6)) (.rd (.arr .cp 20)))) (.rd (.arr .spRates 18))) (.num 3006964 5))))),
  .set (.arr .jac 187) (.add (.rd (.arr .jac 187)) (.mul (.mul (.mul (.rd (.arr .spRates 18)) (.rd (.var .mwAvg))) (.num 1070316545458422 15)) (.rd (.var .rhoInv)))),
  .set (.arr .jac 168) (.sub (.rd (.arr .jac 168)) (.mul (.rd (.arr .h 18)) (.sub (.mul (.rd (.var .workTemp)) (.rd (.arr .jac 187))) (.mul (.mul (.mul (.rd (.var .jTemp)) (.sub (.rd (.arr .cp 7)) (.rd (.arr .cp 20)))) (.rd (.arr .spRates 18))) (.num 3006964 5))))),
  .set (.arr .jac 208) (.add (.rd (.arr .jac 208)) (.mul (.mul (.mul (.rd (.arr .spRates 18)) (.rd (.var .mwAvg))) (.num 1070316545458422 15)) (.rd (.var .rhoInv)))),
  .set (.arr .jac 189) (.sub (.rd (.arr .jac 189)) (.mul (.rd (.arr .h 18)) (.sub (.mul (.rd (.var .workTemp)) (.rd (.arr .jac 208))) (.mul (.mul (.mul (.rd (.var .jTemp)) (.sub (.rd (.arr .cp 8)) (.rd (.arr .cp 20)))) (.rd (.arr .spRates 18))) (.num 3006964 5))))),
  .set (.arr .jac 229) (.add (.rd (.arr .jac 229)) (.mul (.mul (.mul (.rd (.arr .spRates 18)) (.rd (.var .mwAvg))) (.num 92660105063705056 17)) (.rd (.var .rhoInv)))),
  .set (.arr .jac 210) (.sub (.rd (.arr .jac 210)) (.mul (.rd (.arr .h 18)) (.sub (.mul (.rd (.var .workTemp)) (.rd (.arr .jac 229))) (.mul (.mul (.mul (.rd (.var .jTemp)) (.sub (.rd (.arr .cp 9)) (.rd (.arr .cp 20)))) (.rd (.arr .spRates 18))) (.num 3006964 5))))),
  .set (.arr .jac 250) (.add (.rd (.arr .jac 250)) (.mul (.mul (.mul (.rd (.arr .spRates 18)) (.rd (.var .mwAvg))) (.num 80094436812107428 17)) (.rd (.var .rhoInv)))),
  .set (.arr .jac 231) (.sub (.rd (.arr .jac 231)) (.mul (.rd (.arr .h 18)) (.sub (.mul (.rd (.var .workTemp)) (.rd (.arr .jac 250))) (.mul (.mul (.mul (.rd (.var .jTemp)) (.sub (.rd (.arr .cp 10)) (.rd (.arr .cp 20)))) (.rd (.arr .spRates 18))) (.num 3006964 5))))),
  .set (.arr .jac 271) (.add (.rd (.arr .jac 271)) (.mul (.mul (.mul (.rd (.arr .spRates 18)) (.rd (.var .mwAvg))) (.num 11803004469920172 20)) (.rd (.var .rhoInv)))),
  .set (.arr .jac 252) (.sub (.rd (.arr .jac 252)) (.mul (.rd (.arr .h 18)) (.sub (.mul (.rd (.var .workTemp)) (.rd (.arr .jac 271))) (.mul (.mul (.mul (.rd (.var .jTemp)) (.sub (.rd (.arr .cp 11)) (.rd (.arr .cp 20)))) (.rd (.arr .spRates 18))) (.num 3006964 5))))),
  .set (.arr .jac 292) (.add (.rd (.arr .jac 292)) (.mul (.mul (.mul (.rd (.arr .spRates 18)) (.rd (.var .mwAvg))) (.neg (.num 39015021839848241 17))) (.rd (.var .rhoInv)))),
  .set (.arr .jac 273) (.sub (.rd (.arr .jac 273)) (.mul (.rd (.arr .h 18)) (.sub (.mul (.rd (.var .workTemp)) (.rd (.arr .jac 292))) (.mul (.mul (.mul (.rd (.var .jTemp)) (.sub (.rd (.arr .cp 12)) (.rd (.arr .cp 20)))) (.rd (.arr .spRates 18))) (.num 3006964 5))))),
  .set (.arr .jac 313) (.add (.rd (.arr .jac 313)) (.mul (.mul (.mul (.rd (.arr .spRates 18)) (.rd (.var .mwAvg))) (.neg (.num 37170136825774594 18))) (.rd (.var .rhoInv)))),
  .set (.arr .jac 294) (.sub (.rd (.arr .jac 294)) (.mul (.rd (.arr .h 18)) (.sub (.mul (.rd (.var .workTemp)) (.rd (.arr .jac 313))) (.mul (.mul (.mul (.rd (.var .jTemp)) (.sub (.rd (.arr .cp 13)) (.rd (.arr .cp 20)))) (.rd (.arr .spRates 18))) (.num 3006964 5))))),
  .set (.arr .jac 334) (.add (.rd (.arr .jac 334)) (.mul (.mul (.mul (.rd (.arr .spRates 18)) (.rd (.var .mwAvg))) (.neg (.num 71954881033472848 18))) (.rd (.var .rhoInv)))),
  .set (.arr .jac 315) (.sub (.rd (.arr .jac 315)) (.mul (.rd (.arr .h 18)) (.sub (.mul (.rd (.var .workTemp)) (.rd (.arr .jac 334))) (.mul (.mul (.mul (.rd (.var .jTemp)) (.sub (.rd (.arr .cp 14)) (.rd (.arr .cp 20)))) (.rd (.arr .spRates 18))) (.num 3006964 5))))),
  .set (.arr .jac 355) (.add (.rd (.arr .jac 355)) (.mul (.mul (.mul (.rd (.arr .spRates 18)) (.rd (.var .mwAvg))) (.neg (.num 10448012362800255 17))) (.rd (.var .rhoInv)))),
  .set (.arr .jac 336) (.sub (.rd (.arr .jac 336)) (.mul (.rd (.arr .h 18)) (.sub (.mul (.rd (.var .workTemp)) (.rd (.arr .jac 355))) (.mul (.mul (.mul (.rd (.var .jTemp)) (.sub (.rd (.arr .cp 15)) (.rd (.arr .cp 20)))) (.rd (.arr .spRates 18))) (.num 3006964 5))))),
  .set (.arr .jac 376) (.add (.rd (.arr .jac 376)) (.mul (.mul (.mul (.rd (.arr .spRates 18)) (.rd (.var .mwAvg))) (.neg (.num 15412019522637239 19))) (.rd (.var .rhoInv)))),
  .set (.arr .jac 357) (.sub (.rd (.arr .jac 357)) (.mul (.rd (.arr .h 18)) (.sub (.mul (.rd (.var .workTemp)) (.rd (.arr .jac 376))) (.mul (.mul (.mul (.rd (.var .jTemp)) (.sub (.rd (.arr .cp 16)) (.rd (.arr .cp 20)))) (.rd (.arr .spRates 18))) (.num 3006964 5))))),
  .set (.arr .jac 397) (.add (.rd (.arr .jac 397)) (.mul (.mul (.mul (.rd (.arr .spRates 18)) (.rd (.var .mwAvg))) (.neg (.num 38716188203072384 18))) (.rd (.var .rhoInv)))),
  .set (.arr .jac 378) (.sub (.rd (.arr .jac 378)) (.mul (.rd (.arr .h 18)) (.sub (.mul (.rd (.var .workTemp)) (.rd (.arr .jac 397))) (.mul (.mul (.mul (.rd (.var .jTemp)) (.sub (.rd (.arr .cp 17)) (.rd (.arr .cp 20)))) (.rd (.arr .spRates 18))) (.num 3006964 5))))),
  .set (.arr .jac 418) (.add (.rd (.arr .jac 418)) (.mul (.mul (.mul (.rd (.arr .spRates 18)) (.rd (.var .mwAvg))) (.neg (.num 73398949362949439 18))) (.rd (.var .rhoInv)))),
  .set (.arr .jac 399) (.sub (.rd (.arr .jac 399)) (.mul (.rd (.arr .h 18)) (.sub (.mul (.rd (.var .workTemp)) (.rd (.arr .jac 418))) (.mul (.mul (.mul (.rd (.var .jTemp)) (.sub (.rd (.arr .cp 18)) (.rd (.arr .cp 20)))) (.rd (.arr .spRates 18))) (.num 3006964 5))))),
  .set (.arr .jac 439) (.add (.rd (.arr .jac 439)) (.mul (.mul (.mul (.rd (.arr .spRates 18)) (.rd (.var .mwAvg))) (.neg (.num 32067941396693461 17))) (.rd (.var .rhoInv)))),
  .set (.arr .jac 420) (.sub (.rd (.arr .jac 420)) (.mul (.rd (.arr .h 18)) (.sub (.mul (.rd (.var .workTemp)) (.rd (.arr .jac 439))) (.mul (.mul (.mul (.rd (.var .jTemp)) (.sub (.rd (.arr .cp 19)) (.rd (.arr .cp 20)))) (.rd (.arr .spRates 18))) (.num 3006964 5)))))]

/-- The rows of `eval_jacob_3` by species, utilities/mechanisms/drm19/lib/src/jacobs/jacob_3.c:7-766 -/
def jacobEnd : List (List CStmt) := [jacobEnd0, jacobEnd1, jacobEnd2, jacobEnd3, jacobEnd4, jacobEnd5, jacobEnd6, jacobEnd7, jacobEnd8, jacobEnd9, jacobEnd10, jacobEnd11, jacobEnd12, jacobEnd13, jacobEnd14, jacobEnd15, jacobEnd16, jacobEnd17, jacobEnd18]

end DLB.Mech.Drm19
