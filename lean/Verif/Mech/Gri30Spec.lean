/- Generated by tools/gen_mechanisms.py from utilities/mechanisms/gri30/lib/src/spec_rates.c. Do not edit. -/
import Verif.Model.CLang
set_option autoImplicit false

namespace DLB.Mech.Gri30
open DLB

/-- utilities/mechanisms/gri30/lib/src/spec_rates.c:5-4 (declarations without initialiser only) -/
def specStart : List CStmt := []

/-- utilities/mechanisms/gri30/lib/src/spec_rates.c:5-10 -/
def spec0 : List CStmt := [
  .set (.arr .spRates 2) (.mul (.mul (.neg (.num 2 0)) (.sub (.rd (.arr .fwd 0)) (.rd (.arr .rev 0)))) (.rd (.arr .presMod 0))),
  .set (.arr .spRates 3) (.mul (.sub (.rd (.arr .fwd 0)) (.rd (.arr .rev 0))) (.rd (.arr .presMod 0)))]

/-- utilities/mechanisms/gri30/lib/src/spec_rates.c:11-18 -/
def spec1 : List CStmt := [
  .set (.arr .spRates 1) (.mul (.neg (.sub (.rd (.arr .fwd 1)) (.rd (.arr .rev 1)))) (.rd (.arr .presMod 1))),
  .set (.arr .spRates 2) (.sub (.rd (.arr .spRates 2)) (.mul (.sub (.rd (.arr .fwd 1)) (.rd (.arr .rev 1))) (.rd (.arr .presMod 1)))),
  .set (.arr .spRates 4) (.mul (.sub (.rd (.arr .fwd 1)) (.rd (.arr .rev 1))) (.rd (.arr .presMod 1)))]

/-- utilities/mechanisms/gri30/lib/src/spec_rates.c:19-28 -/
def spec2 : List CStmt := [
  .set (.arr .spRates 0) (.neg (.sub (.rd (.arr .fwd 2)) (.rd (.arr .rev 2)))),
  .set (.arr .spRates 1) (.add (.rd (.arr .spRates 1)) (.sub (.rd (.arr .fwd 2)) (.rd (.arr .rev 2)))),
  .set (.arr .spRates 2) (.sub (.rd (.arr .spRates 2)) (.sub (.rd (.arr .fwd 2)) (.rd (.arr .rev 2)))),
  .set (.arr .spRates 4) (.add (.rd (.arr .spRates 4)) (.sub (.rd (.arr .fwd 2)) (.rd (.arr .rev 2))))]

/-- utilities/mechanisms/gri30/lib/src/spec_rates.c:29-38 -/
def spec3 : List CStmt := [
  .set (.arr .spRates 2) (.sub (.rd (.arr .spRates 2)) (.sub (.rd (.arr .fwd 3)) (.rd (.arr .rev 3)))),
  .set (.arr .spRates 3) (.add (.rd (.arr .spRates 3)) (.sub (.rd (.arr .fwd 3)) (.rd (.arr .rev 3)))),
  .set (.arr .spRates 4) (.add (.rd (.arr .spRates 4)) (.sub (.rd (.arr .fwd 3)) (.rd (.arr .rev 3)))),
  .set (.arr .spRates 6) (.neg (.sub (.rd (.arr .fwd 3)) (.rd (.arr .rev 3))))]

/-- utilities/mechanisms/gri30/lib/src/spec_rates.c:39-48 -/
def spec4 : List CStmt := [
  .set (.arr .spRates 2) (.sub (.rd (.arr .spRates 2)) (.sub (.rd (.arr .fwd 4)) (.rd (.arr .rev 4)))),
  .set (.arr .spRates 4) (.add (.rd (.arr .spRates 4)) (.sub (.rd (.arr .fwd 4)) (.rd (.arr .rev 4)))),
  .set (.arr .spRates 6) (.add (.rd (.arr .spRates 6)) (.sub (.rd (.arr .fwd 4)) (.rd (.arr .rev 4)))),
  .set (.arr .spRates 7) (.neg (.sub (.rd (.arr .fwd 4)) (.rd (.arr .rev 4))))]

/-- utilities/mechanisms/gri30/lib/src/spec_rates.c:49-58 -/
def spec5 : List CStmt := [
  .set (.arr .spRates 9) (.neg (.sub (.rd (.arr .fwd 5)) (.rd (.arr .rev 5)))),
  .set (.arr .spRates 2) (.sub (.rd (.arr .spRates 2)) (.sub (.rd (.arr .fwd 5)) (.rd (.arr .rev 5)))),
  .set (.arr .spRates 14) (.sub (.rd (.arr .fwd 5)) (.rd (.arr .rev 5))),
  .set (.arr .spRates 1) (.add (.rd (.arr .spRates 1)) (.sub (.rd (.arr .fwd 5)) (.rd (.arr .rev 5))))]

/-- utilities/mechanisms/gri30/lib/src/spec_rates.c:59-68 -/
def spec6 : List CStmt := [
  .set (.arr .spRates 16) (.sub (.rd (.arr .fwd 6)) (.rd (.arr .rev 6))),
  .set (.arr .spRates 1) (.add (.rd (.arr .spRates 1)) (.sub (.rd (.arr .fwd 6)) (.rd (.arr .rev 6)))),
  .set (.arr .spRates 10) (.neg (.sub (.rd (.arr .fwd 6)) (.rd (.arr .rev 6)))),
  .set (.arr .spRates 2) (.sub (.rd (.arr .spRates 2)) (.sub (.rd (.arr .fwd 6)) (.rd (.arr .rev 6))))]

/-- utilities/mechanisms/gri30/lib/src/spec_rates.c:69-78 -/
def spec7 : List CStmt := [
  .set (.arr .spRates 0) (.add (.rd (.arr .spRates 0)) (.sub (.rd (.arr .fwd 7)) (.rd (.arr .rev 7)))),
  .set (.arr .spRates 2) (.sub (.rd (.arr .spRates 2)) (.sub (.rd (.arr .fwd 7)) (.rd (.arr .rev 7)))),
  .set (.arr .spRates 11) (.neg (.sub (.rd (.arr .fwd 7)) (.rd (.arr .rev 7)))),
  .set (.arr .spRates 14) (.add (.rd (.arr .spRates 14)) (.sub (.rd (.arr .fwd 7)) (.rd (.arr .rev 7))))]

/-- utilities/mechanisms/gri30/lib/src/spec_rates.c:79-88 -/
def spec8 : List CStmt := [
  .set (.arr .spRates 16) (.add (.rd (.arr .spRates 16)) (.sub (.rd (.arr .fwd 8)) (.rd (.arr .rev 8)))),
  .set (.arr .spRates 1) (.add (.rd (.arr .spRates 1)) (.sub (.rd (.arr .fwd 8)) (.rd (.arr .rev 8)))),
  .set (.arr .spRates 2) (.sub (.rd (.arr .spRates 2)) (.sub (.rd (.arr .fwd 8)) (.rd (.arr .rev 8)))),
  .set (.arr .spRates 11) (.sub (.rd (.arr .spRates 11)) (.sub (.rd (.arr .fwd 8)) (.rd (.arr .rev 8))))]

/-- utilities/mechanisms/gri30/lib/src/spec_rates.c:89-98 -/
def spec9 : List CStmt := [
  .set (.arr .spRates 17) (.sub (.rd (.arr .fwd 9)) (.rd (.arr .rev 9))),
  .set (.arr .spRates 2) (.sub (.rd (.arr .spRates 2)) (.sub (.rd (.arr .fwd 9)) (.rd (.arr .rev 9)))),
  .set (.arr .spRates 12) (.neg (.sub (.rd (.arr .fwd 9)) (.rd (.arr .rev 9)))),
  .set (.arr .spRates 1) (.add (.rd (.arr .spRates 1)) (.sub (.rd (.arr .fwd 9)) (.rd (.arr .rev 9))))]

/-- utilities/mechanisms/gri30/lib/src/spec_rates.c:99-108 -/
def spec10 : List CStmt := [
  .set (.arr .spRates 4) (.add (.rd (.arr .spRates 4)) (.sub (.rd (.arr .fwd 10)) (.rd (.arr .rev 10)))),
  .set (.arr .spRates 2) (.sub (.rd (.arr .spRates 2)) (.sub (.rd (.arr .fwd 10)) (.rd (.arr .rev 10)))),
  .set (.arr .spRates 12) (.add (.rd (.arr .spRates 12)) (.sub (.rd (.arr .fwd 10)) (.rd (.arr .rev 10)))),
  .set (.arr .spRates 13) (.neg (.sub (.rd (.arr .fwd 10)) (.rd (.arr .rev 10))))]

/-- utilities/mechanisms/gri30/lib/src/spec_rates.c:109-116 -/
def spec11 : List CStmt := [
  .set (.arr .spRates 2) (.sub (.rd (.arr .spRates 2)) (.mul (.sub (.rd (.arr .fwd 11)) (.rd (.arr .rev 11))) (.rd (.arr .presMod 2)))),
  .set (.arr .spRates 14) (.sub (.rd (.arr .spRates 14)) (.mul (.sub (.rd (.arr .fwd 11)) (.rd (.arr .rev 11))) (.rd (.arr .presMod 2)))),
  .set (.arr .spRates 15) (.mul (.sub (.rd (.arr .fwd 11)) (.rd (.arr .rev 11))) (.rd (.arr .presMod 2)))]

/-- utilities/mechanisms/gri30/lib/src/spec_rates.c:117-126 -/
def spec12 : List CStmt := [
  .set (.arr .spRates 16) (.sub (.rd (.arr .spRates 16)) (.sub (.rd (.arr .fwd 12)) (.rd (.arr .rev 12)))),
  .set (.arr .spRates 2) (.sub (.rd (.arr .spRates 2)) (.sub (.rd (.arr .fwd 12)) (.rd (.arr .rev 12)))),
  .set (.arr .spRates 4) (.add (.rd (.arr .spRates 4)) (.sub (.rd (.arr .fwd 12)) (.rd (.arr .rev 12)))),
  .set (.arr .spRates 14) (.add (.rd (.arr .spRates 14)) (.sub (.rd (.arr .fwd 12)) (.rd (.arr .rev 12))))]

/-- utilities/mechanisms/gri30/lib/src/spec_rates.c:127-136 -/
def spec13 : List CStmt := [
  .set (.arr .spRates 16) (.sub (.rd (.arr .spRates 16)) (.sub (.rd (.arr .fwd 13)) (.rd (.arr .rev 13)))),
  .set (.arr .spRates 1) (.add (.rd (.arr .spRates 1)) (.sub (.rd (.arr .fwd 13)) (.rd (.arr .rev 13)))),
  .set (.arr .spRates 2) (.sub (.rd (.arr .spRates 2)) (.sub (.rd (.arr .fwd 13)) (.rd (.arr .rev 13)))),
  .set (.arr .spRates 15) (.add (.rd (.arr .spRates 15)) (.sub (.rd (.arr .fwd 13)) (.rd (.arr .rev 13))))]

/-- utilities/mechanisms/gri30/lib/src/spec_rates.c:137-146 -/
def spec14 : List CStmt := [
  .set (.arr .spRates 16) (.add (.rd (.arr .spRates 16)) (.sub (.rd (.arr .fwd 14)) (.rd (.arr .rev 14)))),
  .set (.arr .spRates 17) (.sub (.rd (.arr .spRates 17)) (.sub (.rd (.arr .fwd 14)) (.rd (.arr .rev 14)))),
  .set (.arr .spRates 2) (.sub (.rd (.arr .spRates 2)) (.sub (.rd (.arr .fwd 14)) (.rd (.arr .rev 14)))),
  .set (.arr .spRates 4) (.add (.rd (.arr .spRates 4)) (.sub (.rd (.arr .fwd 14)) (.rd (.arr .rev 14))))]

/-- utilities/mechanisms/gri30/lib/src/spec_rates.c:147-156 -/
def spec15 : List CStmt := [
  .set (.arr .spRates 17) (.add (.rd (.arr .spRates 17)) (.sub (.rd (.arr .fwd 15)) (.rd (.arr .rev 15)))),
  .set (.arr .spRates 18) (.neg (.sub (.rd (.arr .fwd 15)) (.rd (.arr .rev 15)))),
  .set (.arr .spRates 4) (.add (.rd (.arr .spRates 4)) (.sub (.rd (.arr .fwd 15)) (.rd (.arr .rev 15)))),
  .set (.arr .spRates 2) (.sub (.rd (.arr .spRates 2)) (.sub (.rd (.arr .fwd 15)) (.rd (.arr .rev 15))))]

/-- utilities/mechanisms/gri30/lib/src/spec_rates.c:157-166 -/
def spec16 : List CStmt := [
  .set (.arr .spRates 17) (.add (.rd (.arr .spRates 17)) (.sub (.rd (.arr .fwd 16)) (.rd (.arr .rev 16)))),
  .set (.arr .spRates 2) (.sub (.rd (.arr .spRates 2)) (.sub (.rd (.arr .fwd 16)) (.rd (.arr .rev 16)))),
  .set (.arr .spRates 19) (.neg (.sub (.rd (.arr .fwd 16)) (.rd (.arr .rev 16)))),
  .set (.arr .spRates 4) (.add (.rd (.arr .spRates 4)) (.sub (.rd (.arr .fwd 16)) (.rd (.arr .rev 16))))]

/-- utilities/mechanisms/gri30/lib/src/spec_rates.c:167-176 -/
def spec17 : List CStmt := [
  .set (.arr .spRates 4) (.add (.rd (.arr .spRates 4)) (.sub (.rd (.arr .fwd 17)) (.rd (.arr .rev 17)))),
  .set (.arr .spRates 2) (.sub (.rd (.arr .spRates 2)) (.sub (.rd (.arr .fwd 17)) (.rd (.arr .rev 17)))),
  .set (.arr .spRates 20) (.neg (.sub (.rd (.arr .fwd 17)) (.rd (.arr .rev 17)))),
  .set (.arr .spRates 18) (.add (.rd (.arr .spRates 18)) (.sub (.rd (.arr .fwd 17)) (.rd (.arr .rev 17))))]

/-- utilities/mechanisms/gri30/lib/src/spec_rates.c:177-186 -/
def spec18 : List CStmt := [
  .set (.arr .spRates 4) (.add (.rd (.arr .spRates 4)) (.sub (.rd (.arr .fwd 18)) (.rd (.arr .rev 18)))),
  .set (.arr .spRates 2) (.sub (.rd (.arr .spRates 2)) (.sub (.rd (.arr .fwd 18)) (.rd (.arr .rev 18)))),
  .set (.arr .spRates 19) (.add (.rd (.arr .spRates 19)) (.sub (.rd (.arr .fwd 18)) (.rd (.arr .rev 18)))),
  .set (.arr .spRates 20) (.sub (.rd (.arr .spRates 20)) (.sub (.rd (.arr .fwd 18)) (.rd (.arr .rev 18))))]

/-- utilities/mechanisms/gri30/lib/src/spec_rates.c:187-196 -/
def spec19 : List CStmt := [
  .set (.arr .spRates 9) (.add (.rd (.arr .spRates 9)) (.sub (.rd (.arr .fwd 19)) (.rd (.arr .rev 19)))),
  .set (.arr .spRates 2) (.sub (.rd (.arr .spRates 2)) (.sub (.rd (.arr .fwd 19)) (.rd (.arr .rev 19)))),
  .set (.arr .spRates 21) (.neg (.sub (.rd (.arr .fwd 19)) (.rd (.arr .rev 19)))),
  .set (.arr .spRates 14) (.add (.rd (.arr .spRates 14)) (.sub (.rd (.arr .fwd 19)) (.rd (.arr .rev 19))))]

/-- utilities/mechanisms/gri30/lib/src/spec_rates.c:197-206 -/
def spec20 : List CStmt := [
  .set (.arr .spRates 1) (.add (.rd (.arr .spRates 1)) (.sub (.rd (.arr .fwd 20)) (.rd (.arr .rev 20)))),
  .set (.arr .spRates 2) (.sub (.rd (.arr .spRates 2)) (.sub (.rd (.arr .fwd 20)) (.rd (.arr .rev 20)))),
  .set (.arr .spRates 27) (.sub (.rd (.arr .fwd 20)) (.rd (.arr .rev 20))),
  .set (.arr .spRates 22) (.neg (.sub (.rd (.arr .fwd 20)) (.rd (.arr .rev 20))))]

/-- utilities/mechanisms/gri30/lib/src/spec_rates.c:207-216 -/
def spec21 : List CStmt := [
  .set (.arr .spRates 2) (.sub (.rd (.arr .spRates 2)) (.sub (.rd (.arr .fwd 21)) (.rd (.arr .rev 21)))),
  .set (.arr .spRates 4) (.add (.rd (.arr .spRates 4)) (.sub (.rd (.arr .fwd 21)) (.rd (.arr .rev 21)))),
  .set (.arr .spRates 21) (.add (.rd (.arr .spRates 21)) (.sub (.rd (.arr .fwd 21)) (.rd (.arr .rev 21)))),
  .set (.arr .spRates 22) (.sub (.rd (.arr .spRates 22)) (.sub (.rd (.arr .fwd 21)) (.rd (.arr .rev 21))))]

/-- utilities/mechanisms/gri30/lib/src/spec_rates.c:217-226 -/
def spec22 : List CStmt := [
  .set (.arr .spRates 2) (.sub (.rd (.arr .spRates 2)) (.sub (.rd (.arr .fwd 22)) (.rd (.arr .rev 22)))),
  .set (.arr .spRates 14) (.add (.rd (.arr .spRates 14)) (.sub (.rd (.arr .fwd 22)) (.rd (.arr .rev 22)))),
  .set (.arr .spRates 10) (.add (.rd (.arr .spRates 10)) (.sub (.rd (.arr .fwd 22)) (.rd (.arr .rev 22)))),
  .set (.arr .spRates 22) (.sub (.rd (.arr .spRates 22)) (.sub (.rd (.arr .fwd 22)) (.rd (.arr .rev 22))))]

/-- utilities/mechanisms/gri30/lib/src/spec_rates.c:227-236 -/
def spec23 : List CStmt := [
  .set (.arr .spRates 1) (.add (.rd (.arr .spRates 1)) (.sub (.rd (.arr .fwd 23)) (.rd (.arr .rev 23)))),
  .set (.arr .spRates 2) (.sub (.rd (.arr .spRates 2)) (.sub (.rd (.arr .fwd 23)) (.rd (.arr .rev 23)))),
  .set (.arr .spRates 28) (.sub (.rd (.arr .fwd 23)) (.rd (.arr .rev 23))),
  .set (.arr .spRates 23) (.neg (.sub (.rd (.arr .fwd 23)) (.rd (.arr .rev 23))))]

/-- utilities/mechanisms/gri30/lib/src/spec_rates.c:237-246 -/
def spec24 : List CStmt := [
  .set (.arr .spRates 24) (.neg (.sub (.rd (.arr .fwd 24)) (.rd (.arr .rev 24)))),
  .set (.arr .spRates 16) (.add (.rd (.arr .spRates 16)) (.sub (.rd (.arr .fwd 24)) (.rd (.arr .rev 24)))),
  .set (.arr .spRates 2) (.sub (.rd (.arr .spRates 2)) (.sub (.rd (.arr .fwd 24)) (.rd (.arr .rev 24)))),
  .set (.arr .spRates 12) (.add (.rd (.arr .spRates 12)) (.sub (.rd (.arr .fwd 24)) (.rd (.arr .rev 24))))]

/-- utilities/mechanisms/gri30/lib/src/spec_rates.c:247-256 -/
def spec25 : List CStmt := [
  .set (.arr .spRates 25) (.neg (.sub (.rd (.arr .fwd 25)) (.rd (.arr .rev 25)))),
  .set (.arr .spRates 2) (.sub (.rd (.arr .spRates 2)) (.sub (.rd (.arr .fwd 25)) (.rd (.arr .rev 25)))),
  .set (.arr .spRates 12) (.add (.rd (.arr .spRates 12)) (.sub (.rd (.arr .fwd 25)) (.rd (.arr .rev 25)))),
  .set (.arr .spRates 17) (.add (.rd (.arr .spRates 17)) (.sub (.rd (.arr .fwd 25)) (.rd (.arr .rev 25))))]

/-- utilities/mechanisms/gri30/lib/src/spec_rates.c:257-266 -/
def spec26 : List CStmt := [
  .set (.arr .spRates 25) (.add (.rd (.arr .spRates 25)) (.sub (.rd (.arr .fwd 26)) (.rd (.arr .rev 26)))),
  .set (.arr .spRates 26) (.neg (.sub (.rd (.arr .fwd 26)) (.rd (.arr .rev 26)))),
  .set (.arr .spRates 4) (.add (.rd (.arr .spRates 4)) (.sub (.rd (.arr .fwd 26)) (.rd (.arr .rev 26)))),
  .set (.arr .spRates 2) (.sub (.rd (.arr .spRates 2)) (.sub (.rd (.arr .fwd 26)) (.rd (.arr .rev 26))))]

/-- utilities/mechanisms/gri30/lib/src/spec_rates.c:267-276 -/
def spec27 : List CStmt := [
  .set (.arr .spRates 1) (.add (.rd (.arr .spRates 1)) (.sub (.rd (.arr .fwd 27)) (.rd (.arr .rev 27)))),
  .set (.arr .spRates 2) (.sub (.rd (.arr .spRates 2)) (.sub (.rd (.arr .fwd 27)) (.rd (.arr .rev 27)))),
  .set (.arr .spRates 27) (.sub (.rd (.arr .spRates 27)) (.sub (.rd (.arr .fwd 27)) (.rd (.arr .rev 27)))),
  .set (.arr .spRates 14) (.add (.rd (.arr .spRates 14)) (.mul (.num 2 0) (.sub (.rd (.arr .fwd 27)) (.rd (.arr .rev 27)))))]

/-- utilities/mechanisms/gri30/lib/src/spec_rates.c:277-286 -/
def spec28 : List CStmt := [
  .set (.arr .spRates 4) (.add (.rd (.arr .spRates 4)) (.sub (.rd (.arr .fwd 28)) (.rd (.arr .rev 28)))),
  .set (.arr .spRates 2) (.sub (.rd (.arr .spRates 2)) (.sub (.rd (.arr .fwd 28)) (.rd (.arr .rev 28)))),
  .set (.arr .spRates 27) (.add (.rd (.arr .spRates 27)) (.sub (.rd (.arr .fwd 28)) (.rd (.arr .rev 28)))),
  .set (.arr .spRates 28) (.sub (.rd (.arr .spRates 28)) (.sub (.rd (.arr .fwd 28)) (.rd (.arr .rev 28))))]

/-- utilities/mechanisms/gri30/lib/src/spec_rates.c:287-296 -/
def spec29 : List CStmt := [
  .set (.arr .spRates 2) (.sub (.rd (.arr .spRates 2)) (.sub (.rd (.arr .fwd 29)) (.rd (.arr .rev 29)))),
  .set (.arr .spRates 28) (.sub (.rd (.arr .spRates 28)) (.sub (.rd (.arr .fwd 29)) (.rd (.arr .rev 29)))),
  .set (.arr .spRates 10) (.add (.rd (.arr .spRates 10)) (.sub (.rd (.arr .fwd 29)) (.rd (.arr .rev 29)))),
  .set (.arr .spRates 15) (.add (.rd (.arr .spRates 15)) (.sub (.rd (.arr .fwd 29)) (.rd (.arr .rev 29))))]

/-- utilities/mechanisms/gri30/lib/src/spec_rates.c:297-306 -/
def spec30 : List CStmt := [
  .set (.arr .spRates 2) (.add (.rd (.arr .spRates 2)) (.sub (.rd (.arr .fwd 30)) (.rd (.arr .rev 30)))),
  .set (.arr .spRates 3) (.sub (.rd (.arr .spRates 3)) (.sub (.rd (.arr .fwd 30)) (.rd (.arr .rev 30)))),
  .set (.arr .spRates 14) (.sub (.rd (.arr .spRates 14)) (.sub (.rd (.arr .fwd 30)) (.rd (.arr .rev 30)))),
  .set (.arr .spRates 15) (.add (.rd (.arr .spRates 15)) (.sub (.rd (.arr .fwd 30)) (.rd (.arr .rev 30))))]

/-- utilities/mechanisms/gri30/lib/src/spec_rates.c:307-316 -/
def spec31 : List CStmt := [
  .set (.arr .spRates 16) (.add (.rd (.arr .spRates 16)) (.sub (.rd (.arr .fwd 31)) (.rd (.arr .rev 31)))),
  .set (.arr .spRates 17) (.sub (.rd (.arr .spRates 17)) (.sub (.rd (.arr .fwd 31)) (.rd (.arr .rev 31)))),
  .set (.arr .spRates 3) (.sub (.rd (.arr .spRates 3)) (.sub (.rd (.arr .fwd 31)) (.rd (.arr .rev 31)))),
  .set (.arr .spRates 6) (.add (.rd (.arr .spRates 6)) (.sub (.rd (.arr .fwd 31)) (.rd (.arr .rev 31))))]

/-- utilities/mechanisms/gri30/lib/src/spec_rates.c:317-324 -/
def spec32 : List CStmt := [
  .set (.arr .spRates 1) (.sub (.rd (.arr .spRates 1)) (.mul (.sub (.rd (.arr .fwd 32)) (.rd (.arr .rev 32))) (.rd (.arr .presMod 3)))),
  .set (.arr .spRates 3) (.sub (.rd (.arr .spRates 3)) (.mul (.sub (.rd (.arr .fwd 32)) (.rd (.arr .rev 32))) (.rd (.arr .presMod 3)))),
  .set (.arr .spRates 6) (.add (.rd (.arr .spRates 6)) (.mul (.sub (.rd (.arr .fwd 32)) (.rd (.arr .rev 32))) (.rd (.arr .presMod 3))))]

/-- utilities/mechanisms/gri30/lib/src/spec_rates.c:325-332 -/
def spec33 : List CStmt := [
  .set (.arr .spRates 1) (.sub (.rd (.arr .spRates 1)) (.sub (.rd (.arr .fwd 33)) (.rd (.arr .rev 33)))),
  .set (.arr .spRates 3) (.sub (.rd (.arr .spRates 3)) (.sub (.rd (.arr .fwd 33)) (.rd (.arr .rev 33)))),
  .set (.arr .spRates 6) (.add (.rd (.arr .spRates 6)) (.sub (.rd (.arr .fwd 33)) (.rd (.arr .rev 33))))]

/-- utilities/mechanisms/gri30/lib/src/spec_rates.c:333-340 -/
def spec34 : List CStmt := [
  .set (.arr .spRates 1) (.sub (.rd (.arr .spRates 1)) (.sub (.rd (.arr .fwd 34)) (.rd (.arr .rev 34)))),
  .set (.arr .spRates 3) (.sub (.rd (.arr .spRates 3)) (.sub (.rd (.arr .fwd 34)) (.rd (.arr .rev 34)))),
  .set (.arr .spRates 6) (.add (.rd (.arr .spRates 6)) (.sub (.rd (.arr .fwd 34)) (.rd (.arr .rev 34))))]

/-- utilities/mechanisms/gri30/lib/src/spec_rates.c:341-348 -/
def spec35 : List CStmt := [
  .set (.arr .spRates 1) (.sub (.rd (.arr .spRates 1)) (.sub (.rd (.arr .fwd 35)) (.rd (.arr .rev 35)))),
  .set (.arr .spRates 3) (.sub (.rd (.arr .spRates 3)) (.sub (.rd (.arr .fwd 35)) (.rd (.arr .rev 35)))),
  .set (.arr .spRates 6) (.add (.rd (.arr .spRates 6)) (.sub (.rd (.arr .fwd 35)) (.rd (.arr .rev 35))))]

/-- utilities/mechanisms/gri30/lib/src/spec_rates.c:349-356 -/
def spec36 : List CStmt := [
  .set (.arr .spRates 1) (.sub (.rd (.arr .spRates 1)) (.sub (.rd (.arr .fwd 36)) (.rd (.arr .rev 36)))),
  .set (.arr .spRates 3) (.sub (.rd (.arr .spRates 3)) (.sub (.rd (.arr .fwd 36)) (.rd (.arr .rev 36)))),
  .set (.arr .spRates 6) (.add (.rd (.arr .spRates 6)) (.sub (.rd (.arr .fwd 36)) (.rd (.arr .rev 36))))]

/-- utilities/mechanisms/gri30/lib/src/spec_rates.c:357-366 -/
def spec37 : List CStmt := [
  .set (.arr .spRates 1) (.sub (.rd (.arr .spRates 1)) (.sub (.rd (.arr .fwd 37)) (.rd (.arr .rev 37)))),
  .set (.arr .spRates 2) (.add (.rd (.arr .spRates 2)) (.sub (.rd (.arr .fwd 37)) (.rd (.arr .rev 37)))),
  .set (.arr .spRates 3) (.sub (.rd (.arr .spRates 3)) (.sub (.rd (.arr .fwd 37)) (.rd (.arr .rev 37)))),
  .set (.arr .spRates 4) (.add (.rd (.arr .spRates 4)) (.sub (.rd (.arr .fwd 37)) (.rd (.arr .rev 37))))]

/-- utilities/mechanisms/gri30/lib/src/spec_rates.c:367-372 -/
def spec38 : List CStmt := [
  .set (.arr .spRates 0) (.add (.rd (.arr .spRates 0)) (.mul (.sub (.rd (.arr .fwd 38)) (.rd (.arr .rev 38))) (.rd (.arr .presMod 4)))),
  .set (.arr .spRates 1) (.sub (.rd (.arr .spRates 1)) (.mul (.mul (.num 2 0) (.sub (.rd (.arr .fwd 38)) (.rd (.arr .rev 38)))) (.rd (.arr .presMod 4))))]

/-- utilities/mechanisms/gri30/lib/src/spec_rates.c:373-378 -/
def spec39 : List CStmt := [
  .set (.arr .spRates 0) (.add (.rd (.arr .spRates 0)) (.sub (.rd (.arr .fwd 39)) (.rd (.arr .rev 39)))),
  .set (.arr .spRates 1) (.sub (.rd (.arr .spRates 1)) (.mul (.num 2 0) (.sub (.rd (.arr .fwd 39)) (.rd (.arr .rev 39)))))]

/-- utilities/mechanisms/gri30/lib/src/spec_rates.c:379-384 -/
def spec40 : List CStmt := [
  .set (.arr .spRates 0) (.add (.rd (.arr .spRates 0)) (.sub (.rd (.arr .fwd 40)) (.rd (.arr .rev 40)))),
  .set (.arr .spRates 1) (.sub (.rd (.arr .spRates 1)) (.mul (.num 2 0) (.sub (.rd (.arr .fwd 40)) (.rd (.arr .rev 40)))))]

/-- utilities/mechanisms/gri30/lib/src/spec_rates.c:385-390 -/
def spec41 : List CStmt := [
  .set (.arr .spRates 0) (.add (.rd (.arr .spRates 0)) (.sub (.rd (.arr .fwd 41)) (.rd (.arr .rev 41)))),
  .set (.arr .spRates 1) (.sub (.rd (.arr .spRates 1)) (.mul (.num 2 0) (.sub (.rd (.arr .fwd 41)) (.rd (.arr .rev 41)))))]

/-- utilities/mechanisms/gri30/lib/src/spec_rates.c:391-398 -/
def spec42 : List CStmt := [
  .set (.arr .spRates 1) (.sub (.rd (.arr .spRates 1)) (.mul (.sub (.rd (.arr .fwd 42)) (.rd (.arr .rev 42))) (.rd (.arr .presMod 5)))),
  .set (.arr .spRates 4) (.sub (.rd (.arr .spRates 4)) (.mul (.sub (.rd (.arr .fwd 42)) (.rd (.arr .rev 42))) (.rd (.arr .presMod 5)))),
  .set (.arr .spRates 5) (.mul (.sub (.rd (.arr .fwd 42)) (.rd (.arr .rev 42))) (.rd (.arr .presMod 5)))]

/-- utilities/mechanisms/gri30/lib/src/spec_rates.c:399-408 -/
def spec43 : List CStmt := [
  .set (.arr .spRates 1) (.sub (.rd (.arr .spRates 1)) (.sub (.rd (.arr .fwd 43)) (.rd (.arr .rev 43)))),
  .set (.arr .spRates 2) (.add (.rd (.arr .spRates 2)) (.sub (.rd (.arr .fwd 43)) (.rd (.arr .rev 43)))),
  .set (.arr .spRates 5) (.add (.rd (.arr .spRates 5)) (.sub (.rd (.arr .fwd 43)) (.rd (.arr .rev 43)))),
  .set (.arr .spRates 6) (.sub (.rd (.arr .spRates 6)) (.sub (.rd (.arr .fwd 43)) (.rd (.arr .rev 43))))]

/-- utilities/mechanisms/gri30/lib/src/spec_rates.c:409-418 -/
def spec44 : List CStmt := [
  .set (.arr .spRates 0) (.add (.rd (.arr .spRates 0)) (.sub (.rd (.arr .fwd 44)) (.rd (.arr .rev 44)))),
  .set (.arr .spRates 1) (.sub (.rd (.arr .spRates 1)) (.sub (.rd (.arr .fwd 44)) (.rd (.arr .rev 44)))),
  .set (.arr .spRates 3) (.add (.rd (.arr .spRates 3)) (.sub (.rd (.arr .fwd 44)) (.rd (.arr .rev 44)))),
  .set (.arr .spRates 6) (.sub (.rd (.arr .spRates 6)) (.sub (.rd (.arr .fwd 44)) (.rd (.arr .rev 44))))]

/-- utilities/mechanisms/gri30/lib/src/spec_rates.c:419-426 -/
def spec45 : List CStmt := [
  .set (.arr .spRates 1) (.sub (.rd (.arr .spRates 1)) (.sub (.rd (.arr .fwd 45)) (.rd (.arr .rev 45)))),
  .set (.arr .spRates 4) (.add (.rd (.arr .spRates 4)) (.mul (.num 2 0) (.sub (.rd (.arr .fwd 45)) (.rd (.arr .rev 45))))),
  .set (.arr .spRates 6) (.sub (.rd (.arr .spRates 6)) (.sub (.rd (.arr .fwd 45)) (.rd (.arr .rev 45))))]

/-- utilities/mechanisms/gri30/lib/src/spec_rates.c:427-436 -/
def spec46 : List CStmt := [
  .set (.arr .spRates 0) (.add (.rd (.arr .spRates 0)) (.sub (.rd (.arr .fwd 46)) (.rd (.arr .rev 46)))),
  .set (.arr .spRates 1) (.sub (.rd (.arr .spRates 1)) (.sub (.rd (.arr .fwd 46)) (.rd (.arr .rev 46)))),
  .set (.arr .spRates 6) (.add (.rd (.arr .spRates 6)) (.sub (.rd (.arr .fwd 46)) (.rd (.arr .rev 46)))),
  .set (.arr .spRates 7) (.sub (.rd (.arr .spRates 7)) (.sub (.rd (.arr .fwd 46)) (.rd (.arr .rev 46))))]

/-- utilities/mechanisms/gri30/lib/src/spec_rates.c:437-446 -/
def spec47 : List CStmt := [
  .set (.arr .spRates 1) (.sub (.rd (.arr .spRates 1)) (.sub (.rd (.arr .fwd 47)) (.rd (.arr .rev 47)))),
  .set (.arr .spRates 4) (.add (.rd (.arr .spRates 4)) (.sub (.rd (.arr .fwd 47)) (.rd (.arr .rev 47)))),
  .set (.arr .spRates 5) (.add (.rd (.arr .spRates 5)) (.sub (.rd (.arr .fwd 47)) (.rd (.arr .rev 47)))),
  .set (.arr .spRates 7) (.sub (.rd (.arr .spRates 7)) (.sub (.rd (.arr .fwd 47)) (.rd (.arr .rev 47))))]

/-- utilities/mechanisms/gri30/lib/src/spec_rates.c:447-456 -/
def spec48 : List CStmt := [
  .set (.arr .spRates 0) (.add (.rd (.arr .spRates 0)) (.sub (.rd (.arr .fwd 48)) (.rd (.arr .rev 48)))),
  .set (.arr .spRates 1) (.sub (.rd (.arr .spRates 1)) (.sub (.rd (.arr .fwd 48)) (.rd (.arr .rev 48)))),
  .set (.arr .spRates 8) (.sub (.rd (.arr .fwd 48)) (.rd (.arr .rev 48))),
  .set (.arr .spRates 9) (.sub (.rd (.arr .spRates 9)) (.sub (.rd (.arr .fwd 48)) (.rd (.arr .rev 48))))]

/-- utilities/mechanisms/gri30/lib/src/spec_rates.c:457-464 -/
def spec49 : List CStmt := [
  .set (.arr .spRates 1) (.sub (.rd (.arr .spRates 1)) (.mul (.sub (.rd (.arr .fwd 49)) (.rd (.arr .rev 49))) (.rd (.arr .presMod 6)))),
  .set (.arr .spRates 10) (.sub (.rd (.arr .spRates 10)) (.mul (.sub (.rd (.arr .fwd 49)) (.rd (.arr .rev 49))) (.rd (.arr .presMod 6)))),
  .set (.arr .spRates 12) (.add (.rd (.arr .spRates 12)) (.mul (.sub (.rd (.arr .fwd 49)) (.rd (.arr .rev 49))) (.rd (.arr .presMod 6))))]

/-- utilities/mechanisms/gri30/lib/src/spec_rates.c:465-474 -/
def spec50 : List CStmt := [
  .set (.arr .spRates 0) (.add (.rd (.arr .spRates 0)) (.sub (.rd (.arr .fwd 50)) (.rd (.arr .rev 50)))),
  .set (.arr .spRates 1) (.sub (.rd (.arr .spRates 1)) (.sub (.rd (.arr .fwd 50)) (.rd (.arr .rev 50)))),
  .set (.arr .spRates 11) (.sub (.rd (.arr .spRates 11)) (.sub (.rd (.arr .fwd 50)) (.rd (.arr .rev 50)))),
  .set (.arr .spRates 9) (.add (.rd (.arr .spRates 9)) (.sub (.rd (.arr .fwd 50)) (.rd (.arr .rev 50))))]

/-- utilities/mechanisms/gri30/lib/src/spec_rates.c:475-482 -/
def spec51 : List CStmt := [
  .set (.arr .spRates 1) (.sub (.rd (.arr .spRates 1)) (.mul (.sub (.rd (.arr .fwd 51)) (.rd (.arr .rev 51))) (.rd (.arr .presMod 7)))),
  .set (.arr .spRates 12) (.sub (.rd (.arr .spRates 12)) (.mul (.sub (.rd (.arr .fwd 51)) (.rd (.arr .rev 51))) (.rd (.arr .presMod 7)))),
  .set (.arr .spRates 13) (.add (.rd (.arr .spRates 13)) (.mul (.sub (.rd (.arr .fwd 51)) (.rd (.arr .rev 51))) (.rd (.arr .presMod 7))))]

/-- utilities/mechanisms/gri30/lib/src/spec_rates.c:483-492 -/
def spec52 : List CStmt := [
  .set (.arr .spRates 0) (.add (.rd (.arr .spRates 0)) (.sub (.rd (.arr .fwd 52)) (.rd (.arr .rev 52)))),
  .set (.arr .spRates 1) (.sub (.rd (.arr .spRates 1)) (.sub (.rd (.arr .fwd 52)) (.rd (.arr .rev 52)))),
  .set (.arr .spRates 12) (.add (.rd (.arr .spRates 12)) (.sub (.rd (.arr .fwd 52)) (.rd (.arr .rev 52)))),
  .set (.arr .spRates 13) (.sub (.rd (.arr .spRates 13)) (.sub (.rd (.arr .fwd 52)) (.rd (.arr .rev 52))))]

/-- utilities/mechanisms/gri30/lib/src/spec_rates.c:493-500 -/
def spec53 : List CStmt := [
  .set (.arr .spRates 16) (.sub (.rd (.arr .spRates 16)) (.mul (.sub (.rd (.arr .fwd 53)) (.rd (.arr .rev 53))) (.rd (.arr .presMod 8)))),
  .set (.arr .spRates 1) (.sub (.rd (.arr .spRates 1)) (.mul (.sub (.rd (.arr .fwd 53)) (.rd (.arr .rev 53))) (.rd (.arr .presMod 8)))),
  .set (.arr .spRates 17) (.add (.rd (.arr .spRates 17)) (.mul (.sub (.rd (.arr .fwd 53)) (.rd (.arr .rev 53))) (.rd (.arr .presMod 8))))]

/-- utilities/mechanisms/gri30/lib/src/spec_rates.c:501-510 -/
def spec54 : List CStmt := [
  .set (.arr .spRates 16) (.sub (.rd (.arr .spRates 16)) (.sub (.rd (.arr .fwd 54)) (.rd (.arr .rev 54)))),
  .set (.arr .spRates 1) (.sub (.rd (.arr .spRates 1)) (.sub (.rd (.arr .fwd 54)) (.rd (.arr .rev 54)))),
  .set (.arr .spRates 14) (.add (.rd (.arr .spRates 14)) (.sub (.rd (.arr .fwd 54)) (.rd (.arr .rev 54)))),
  .set (.arr .spRates 0) (.add (.rd (.arr .spRates 0)) (.sub (.rd (.arr .fwd 54)) (.rd (.arr .rev 54))))]

/-- utilities/mechanisms/gri30/lib/src/spec_rates.c:511-518 -/
def spec55 : List CStmt := [
  .set (.arr .spRates 17) (.sub (.rd (.arr .spRates 17)) (.mul (.sub (.rd (.arr .fwd 55)) (.rd (.arr .rev 55))) (.rd (.arr .presMod 9)))),
  .set (.arr .spRates 18) (.add (.rd (.arr .spRates 18)) (.mul (.sub (.rd (.arr .fwd 55)) (.rd (.arr .rev 55))) (.rd (.arr .presMod 9)))),
  .set (.arr .spRates 1) (.sub (.rd (.arr .spRates 1)) (.mul (.sub (.rd (.arr .fwd 55)) (.rd (.arr .rev 55))) (.rd (.arr .presMod 9))))]

/-- utilities/mechanisms/gri30/lib/src/spec_rates.c:519-526 -/
def spec56 : List CStmt := [
  .set (.arr .spRates 17) (.sub (.rd (.arr .spRates 17)) (.mul (.sub (.rd (.arr .fwd 56)) (.rd (.arr .rev 56))) (.rd (.arr .presMod 10)))),
  .set (.arr .spRates 19) (.add (.rd (.arr .spRates 19)) (.mul (.sub (.rd (.arr .fwd 56)) (.rd (.arr .rev 56))) (.rd (.arr .presMod 10)))),
  .set (.arr .spRates 1) (.sub (.rd (.arr .spRates 1)) (.mul (.sub (.rd (.arr .fwd 56)) (.rd (.arr .rev 56))) (.rd (.arr .presMod 10))))]

/-- utilities/mechanisms/gri30/lib/src/spec_rates.c:527-536 -/
def spec57 : List CStmt := [
  .set (.arr .spRates 0) (.add (.rd (.arr .spRates 0)) (.sub (.rd (.arr .fwd 57)) (.rd (.arr .rev 57)))),
  .set (.arr .spRates 17) (.sub (.rd (.arr .spRates 17)) (.sub (.rd (.arr .fwd 57)) (.rd (.arr .rev 57)))),
  .set (.arr .spRates 16) (.add (.rd (.arr .spRates 16)) (.sub (.rd (.arr .fwd 57)) (.rd (.arr .rev 57)))),
  .set (.arr .spRates 1) (.sub (.rd (.arr .spRates 1)) (.sub (.rd (.arr .fwd 57)) (.rd (.arr .rev 57))))]

/-- utilities/mechanisms/gri30/lib/src/spec_rates.c:537-544 -/
def spec58 : List CStmt := [
  .set (.arr .spRates 1) (.sub (.rd (.arr .spRates 1)) (.mul (.sub (.rd (.arr .fwd 58)) (.rd (.arr .rev 58))) (.rd (.arr .presMod 11)))),
  .set (.arr .spRates 18) (.sub (.rd (.arr .spRates 18)) (.mul (.sub (.rd (.arr .fwd 58)) (.rd (.arr .rev 58))) (.rd (.arr .presMod 11)))),
  .set (.arr .spRates 20) (.add (.rd (.arr .spRates 20)) (.mul (.sub (.rd (.arr .fwd 58)) (.rd (.arr .rev 58))) (.rd (.arr .presMod 11))))]

/-- utilities/mechanisms/gri30/lib/src/spec_rates.c:545-554 -/
def spec59 : List CStmt := [
  .set (.arr .spRates 0) (.add (.rd (.arr .spRates 0)) (.sub (.rd (.arr .fwd 59)) (.rd (.arr .rev 59)))),
  .set (.arr .spRates 1) (.sub (.rd (.arr .spRates 1)) (.sub (.rd (.arr .fwd 59)) (.rd (.arr .rev 59)))),
  .set (.arr .spRates 18) (.sub (.rd (.arr .spRates 18)) (.sub (.rd (.arr .fwd 59)) (.rd (.arr .rev 59)))),
  .set (.arr .spRates 17) (.add (.rd (.arr .spRates 17)) (.sub (.rd (.arr .fwd 59)) (.rd (.arr .rev 59))))]

/-- utilities/mechanisms/gri30/lib/src/spec_rates.c:555-564 -/
def spec60 : List CStmt := [
  .set (.arr .spRates 1) (.sub (.rd (.arr .spRates 1)) (.sub (.rd (.arr .fwd 60)) (.rd (.arr .rev 60)))),
  .set (.arr .spRates 18) (.sub (.rd (.arr .spRates 18)) (.sub (.rd (.arr .fwd 60)) (.rd (.arr .rev 60)))),
  .set (.arr .spRates 12) (.add (.rd (.arr .spRates 12)) (.sub (.rd (.arr .fwd 60)) (.rd (.arr .rev 60)))),
  .set (.arr .spRates 4) (.add (.rd (.arr .spRates 4)) (.sub (.rd (.arr .fwd 60)) (.rd (.arr .rev 60))))]

/-- utilities/mechanisms/gri30/lib/src/spec_rates.c:565-574 -/
def spec61 : List CStmt := [
  .set (.arr .spRates 1) (.sub (.rd (.arr .spRates 1)) (.sub (.rd (.arr .fwd 61)) (.rd (.arr .rev 61)))),
  .set (.arr .spRates 18) (.sub (.rd (.arr .spRates 18)) (.sub (.rd (.arr .fwd 61)) (.rd (.arr .rev 61)))),
  .set (.arr .spRates 11) (.add (.rd (.arr .spRates 11)) (.sub (.rd (.arr .fwd 61)) (.rd (.arr .rev 61)))),
  .set (.arr .spRates 5) (.add (.rd (.arr .spRates 5)) (.sub (.rd (.arr .fwd 61)) (.rd (.arr .rev 61))))]

/-- utilities/mechanisms/gri30/lib/src/spec_rates.c:575-582 -/
def spec62 : List CStmt := [
  .set (.arr .spRates 1) (.sub (.rd (.arr .spRates 1)) (.mul (.sub (.rd (.arr .fwd 62)) (.rd (.arr .rev 62))) (.rd (.arr .presMod 12)))),
  .set (.arr .spRates 19) (.sub (.rd (.arr .spRates 19)) (.mul (.sub (.rd (.arr .fwd 62)) (.rd (.arr .rev 62))) (.rd (.arr .presMod 12)))),
  .set (.arr .spRates 20) (.add (.rd (.arr .spRates 20)) (.mul (.sub (.rd (.arr .fwd 62)) (.rd (.arr .rev 62))) (.rd (.arr .presMod 12))))]

/-- utilities/mechanisms/gri30/lib/src/spec_rates.c:583-588 -/
def spec63 : List CStmt := [
  .set (.arr .spRates 18) (.add (.rd (.arr .spRates 18)) (.sub (.rd (.arr .fwd 63)) (.rd (.arr .rev 63)))),
  .set (.arr .spRates 19) (.sub (.rd (.arr .spRates 19)) (.sub (.rd (.arr .fwd 63)) (.rd (.arr .rev 63))))]

/-- utilities/mechanisms/gri30/lib/src/spec_rates.c:589-598 -/
def spec64 : List CStmt := [
  .set (.arr .spRates 0) (.add (.rd (.arr .spRates 0)) (.sub (.rd (.arr .fwd 64)) (.rd (.arr .rev 64)))),
  .set (.arr .spRates 1) (.sub (.rd (.arr .spRates 1)) (.sub (.rd (.arr .fwd 64)) (.rd (.arr .rev 64)))),
  .set (.arr .spRates 19) (.sub (.rd (.arr .spRates 19)) (.sub (.rd (.arr .fwd 64)) (.rd (.arr .rev 64)))),
  .set (.arr .spRates 17) (.add (.rd (.arr .spRates 17)) (.sub (.rd (.arr .fwd 64)) (.rd (.arr .rev 64))))]

/-- utilities/mechanisms/gri30/lib/src/spec_rates.c:599-608 -/
def spec65 : List CStmt := [
  .set (.arr .spRates 1) (.sub (.rd (.arr .spRates 1)) (.sub (.rd (.arr .fwd 65)) (.rd (.arr .rev 65)))),
  .set (.arr .spRates 19) (.sub (.rd (.arr .spRates 19)) (.sub (.rd (.arr .fwd 65)) (.rd (.arr .rev 65)))),
  .set (.arr .spRates 12) (.add (.rd (.arr .spRates 12)) (.sub (.rd (.arr .fwd 65)) (.rd (.arr .rev 65)))),
  .set (.arr .spRates 4) (.add (.rd (.arr .spRates 4)) (.sub (.rd (.arr .fwd 65)) (.rd (.arr .rev 65))))]

/-- utilities/mechanisms/gri30/lib/src/spec_rates.c:609-618 -/
def spec66 : List CStmt := [
  .set (.arr .spRates 11) (.add (.rd (.arr .spRates 11)) (.sub (.rd (.arr .fwd 66)) (.rd (.arr .rev 66)))),
  .set (.arr .spRates 1) (.sub (.rd (.arr .spRates 1)) (.sub (.rd (.arr .fwd 66)) (.rd (.arr .rev 66)))),
  .set (.arr .spRates 19) (.sub (.rd (.arr .spRates 19)) (.sub (.rd (.arr .fwd 66)) (.rd (.arr .rev 66)))),
  .set (.arr .spRates 5) (.add (.rd (.arr .spRates 5)) (.sub (.rd (.arr .fwd 66)) (.rd (.arr .rev 66))))]

/-- utilities/mechanisms/gri30/lib/src/spec_rates.c:619-628 -/
def spec67 : List CStmt := [
  .set (.arr .spRates 0) (.add (.rd (.arr .spRates 0)) (.sub (.rd (.arr .fwd 67)) (.rd (.arr .rev 67)))),
  .set (.arr .spRates 1) (.sub (.rd (.arr .spRates 1)) (.sub (.rd (.arr .fwd 67)) (.rd (.arr .rev 67)))),
  .set (.arr .spRates 18) (.add (.rd (.arr .spRates 18)) (.sub (.rd (.arr .fwd 67)) (.rd (.arr .rev 67)))),
  .set (.arr .spRates 20) (.sub (.rd (.arr .spRates 20)) (.sub (.rd (.arr .fwd 67)) (.rd (.arr .rev 67))))]

/-- utilities/mechanisms/gri30/lib/src/spec_rates.c:629-638 -/
def spec68 : List CStmt := [
  .set (.arr .spRates 0) (.add (.rd (.arr .spRates 0)) (.sub (.rd (.arr .fwd 68)) (.rd (.arr .rev 68)))),
  .set (.arr .spRates 1) (.sub (.rd (.arr .spRates 1)) (.sub (.rd (.arr .fwd 68)) (.rd (.arr .rev 68)))),
  .set (.arr .spRates 19) (.add (.rd (.arr .spRates 19)) (.sub (.rd (.arr .fwd 68)) (.rd (.arr .rev 68)))),
  .set (.arr .spRates 20) (.sub (.rd (.arr .spRates 20)) (.sub (.rd (.arr .fwd 68)) (.rd (.arr .rev 68))))]

/-- utilities/mechanisms/gri30/lib/src/spec_rates.c:639-646 -/
def spec69 : List CStmt := [
  .set (.arr .spRates 1) (.sub (.rd (.arr .spRates 1)) (.mul (.sub (.rd (.arr .fwd 69)) (.rd (.arr .rev 69))) (.rd (.arr .presMod 13)))),
  .set (.arr .spRates 21) (.sub (.rd (.arr .spRates 21)) (.mul (.sub (.rd (.arr .fwd 69)) (.rd (.arr .rev 69))) (.rd (.arr .presMod 13)))),
  .set (.arr .spRates 22) (.add (.rd (.arr .spRates 22)) (.mul (.sub (.rd (.arr .fwd 69)) (.rd (.arr .rev 69))) (.rd (.arr .presMod 13))))]

/-- utilities/mechanisms/gri30/lib/src/spec_rates.c:647-654 -/
def spec70 : List CStmt := [
  .set (.arr .spRates 1) (.sub (.rd (.arr .spRates 1)) (.mul (.sub (.rd (.arr .fwd 70)) (.rd (.arr .rev 70))) (.rd (.arr .presMod 14)))),
  .set (.arr .spRates 22) (.sub (.rd (.arr .spRates 22)) (.mul (.sub (.rd (.arr .fwd 70)) (.rd (.arr .rev 70))) (.rd (.arr .presMod 14)))),
  .set (.arr .spRates 23) (.add (.rd (.arr .spRates 23)) (.mul (.sub (.rd (.arr .fwd 70)) (.rd (.arr .rev 70))) (.rd (.arr .presMod 14))))]

/-- utilities/mechanisms/gri30/lib/src/spec_rates.c:655-662 -/
def spec71 : List CStmt := [
  .set (.arr .spRates 24) (.add (.rd (.arr .spRates 24)) (.mul (.sub (.rd (.arr .fwd 71)) (.rd (.arr .rev 71))) (.rd (.arr .presMod 15)))),
  .set (.arr .spRates 1) (.sub (.rd (.arr .spRates 1)) (.mul (.sub (.rd (.arr .fwd 71)) (.rd (.arr .rev 71))) (.rd (.arr .presMod 15)))),
  .set (.arr .spRates 23) (.sub (.rd (.arr .spRates 23)) (.mul (.sub (.rd (.arr .fwd 71)) (.rd (.arr .rev 71))) (.rd (.arr .presMod 15))))]

/-- utilities/mechanisms/gri30/lib/src/spec_rates.c:663-672 -/
def spec72 : List CStmt := [
  .set (.arr .spRates 0) (.add (.rd (.arr .spRates 0)) (.sub (.rd (.arr .fwd 72)) (.rd (.arr .rev 72)))),
  .set (.arr .spRates 1) (.sub (.rd (.arr .spRates 1)) (.sub (.rd (.arr .fwd 72)) (.rd (.arr .rev 72)))),
  .set (.arr .spRates 22) (.add (.rd (.arr .spRates 22)) (.sub (.rd (.arr .fwd 72)) (.rd (.arr .rev 72)))),
  .set (.arr .spRates 23) (.sub (.rd (.arr .spRates 23)) (.sub (.rd (.arr .fwd 72)) (.rd (.arr .rev 72))))]

/-- utilities/mechanisms/gri30/lib/src/spec_rates.c:673-680 -/
def spec73 : List CStmt := [
  .set (.arr .spRates 24) (.sub (.rd (.arr .spRates 24)) (.mul (.sub (.rd (.arr .fwd 73)) (.rd (.arr .rev 73))) (.rd (.arr .presMod 16)))),
  .set (.arr .spRates 1) (.sub (.rd (.arr .spRates 1)) (.mul (.sub (.rd (.arr .fwd 73)) (.rd (.arr .rev 73))) (.rd (.arr .presMod 16)))),
  .set (.arr .spRates 25) (.add (.rd (.arr .spRates 25)) (.mul (.sub (.rd (.arr .fwd 73)) (.rd (.arr .rev 73))) (.rd (.arr .presMod 16))))]

/-- utilities/mechanisms/gri30/lib/src/spec_rates.c:681-690 -/
def spec74 : List CStmt := [
  .set (.arr .spRates 24) (.sub (.rd (.arr .spRates 24)) (.sub (.rd (.arr .fwd 74)) (.rd (.arr .rev 74)))),
  .set (.arr .spRates 1) (.sub (.rd (.arr .spRates 1)) (.sub (.rd (.arr .fwd 74)) (.rd (.arr .rev 74)))),
  .set (.arr .spRates 0) (.add (.rd (.arr .spRates 0)) (.sub (.rd (.arr .fwd 74)) (.rd (.arr .rev 74)))),
  .set (.arr .spRates 23) (.add (.rd (.arr .spRates 23)) (.sub (.rd (.arr .fwd 74)) (.rd (.arr .rev 74))))]

/-- utilities/mechanisms/gri30/lib/src/spec_rates.c:691-698 -/
def spec75 : List CStmt := [
  .set (.arr .spRates 1) (.sub (.rd (.arr .spRates 1)) (.mul (.sub (.rd (.arr .fwd 75)) (.rd (.arr .rev 75))) (.rd (.arr .presMod 17)))),
  .set (.arr .spRates 26) (.add (.rd (.arr .spRates 26)) (.mul (.sub (.rd (.arr .fwd 75)) (.rd (.arr .rev 75))) (.rd (.arr .presMod 17)))),
  .set (.arr .spRates 25) (.sub (.rd (.arr .spRates 25)) (.mul (.sub (.rd (.arr .fwd 75)) (.rd (.arr .rev 75))) (.rd (.arr .presMod 17))))]

/-- utilities/mechanisms/gri30/lib/src/spec_rates.c:699-708 -/
def spec76 : List CStmt := [
  .set (.arr .spRates 0) (.add (.rd (.arr .spRates 0)) (.sub (.rd (.arr .fwd 76)) (.rd (.arr .rev 76)))),
  .set (.arr .spRates 1) (.sub (.rd (.arr .spRates 1)) (.sub (.rd (.arr .fwd 76)) (.rd (.arr .rev 76)))),
  .set (.arr .spRates 24) (.add (.rd (.arr .spRates 24)) (.sub (.rd (.arr .fwd 76)) (.rd (.arr .rev 76)))),
  .set (.arr .spRates 25) (.sub (.rd (.arr .spRates 25)) (.sub (.rd (.arr .fwd 76)) (.rd (.arr .rev 76))))]

/-- utilities/mechanisms/gri30/lib/src/spec_rates.c:709-718 -/
def spec77 : List CStmt := [
  .set (.arr .spRates 0) (.add (.rd (.arr .spRates 0)) (.sub (.rd (.arr .fwd 77)) (.rd (.arr .rev 77)))),
  .set (.arr .spRates 1) (.sub (.rd (.arr .spRates 1)) (.sub (.rd (.arr .fwd 77)) (.rd (.arr .rev 77)))),
  .set (.arr .spRates 26) (.sub (.rd (.arr .spRates 26)) (.sub (.rd (.arr .fwd 77)) (.rd (.arr .rev 77)))),
  .set (.arr .spRates 25) (.add (.rd (.arr .spRates 25)) (.sub (.rd (.arr .fwd 77)) (.rd (.arr .rev 77))))]

/-- utilities/mechanisms/gri30/lib/src/spec_rates.c:719-728 -/
def spec78 : List CStmt := [
  .set (.arr .spRates 11) (.add (.rd (.arr .spRates 11)) (.sub (.rd (.arr .fwd 78)) (.rd (.arr .rev 78)))),
  .set (.arr .spRates 1) (.sub (.rd (.arr .spRates 1)) (.sub (.rd (.arr .fwd 78)) (.rd (.arr .rev 78)))),
  .set (.arr .spRates 27) (.sub (.rd (.arr .spRates 27)) (.sub (.rd (.arr .fwd 78)) (.rd (.arr .rev 78)))),
  .set (.arr .spRates 14) (.add (.rd (.arr .spRates 14)) (.sub (.rd (.arr .fwd 78)) (.rd (.arr .rev 78))))]

/-- utilities/mechanisms/gri30/lib/src/spec_rates.c:729-738 -/
def spec79 : List CStmt := [
  .set (.arr .spRates 0) (.add (.rd (.arr .spRates 0)) (.sub (.rd (.arr .fwd 79)) (.rd (.arr .rev 79)))),
  .set (.arr .spRates 1) (.sub (.rd (.arr .spRates 1)) (.sub (.rd (.arr .fwd 79)) (.rd (.arr .rev 79)))),
  .set (.arr .spRates 27) (.add (.rd (.arr .spRates 27)) (.sub (.rd (.arr .fwd 79)) (.rd (.arr .rev 79)))),
  .set (.arr .spRates 28) (.sub (.rd (.arr .spRates 28)) (.sub (.rd (.arr .fwd 79)) (.rd (.arr .rev 79))))]

/-- utilities/mechanisms/gri30/lib/src/spec_rates.c:739-748 -/
def spec80 : List CStmt := [
  .set (.arr .spRates 1) (.sub (.rd (.arr .spRates 1)) (.sub (.rd (.arr .fwd 80)) (.rd (.arr .rev 80)))),
  .set (.arr .spRates 28) (.sub (.rd (.arr .spRates 28)) (.sub (.rd (.arr .fwd 80)) (.rd (.arr .rev 80)))),
  .set (.arr .spRates 14) (.add (.rd (.arr .spRates 14)) (.sub (.rd (.arr .fwd 80)) (.rd (.arr .rev 80)))),
  .set (.arr .spRates 12) (.add (.rd (.arr .spRates 12)) (.sub (.rd (.arr .fwd 80)) (.rd (.arr .rev 80))))]

/-- utilities/mechanisms/gri30/lib/src/spec_rates.c:749-754 -/
def spec81 : List CStmt := [
  .set (.arr .spRates 28) (.add (.rd (.arr .spRates 28)) (.sub (.rd (.arr .fwd 81)) (.rd (.arr .rev 81)))),
  .set (.arr .spRates 29) (.neg (.sub (.rd (.arr .fwd 81)) (.rd (.arr .rev 81))))]

/-- utilities/mechanisms/gri30/lib/src/spec_rates.c:755-762 -/
def spec82 : List CStmt := [
  .set (.arr .spRates 0) (.sub (.rd (.arr .spRates 0)) (.mul (.sub (.rd (.arr .fwd 82)) (.rd (.arr .rev 82))) (.rd (.arr .presMod 18)))),
  .set (.arr .spRates 17) (.add (.rd (.arr .spRates 17)) (.mul (.sub (.rd (.arr .fwd 82)) (.rd (.arr .rev 82))) (.rd (.arr .presMod 18)))),
  .set (.arr .spRates 14) (.sub (.rd (.arr .spRates 14)) (.mul (.sub (.rd (.arr .fwd 82)) (.rd (.arr .rev 82))) (.rd (.arr .presMod 18))))]

/-- utilities/mechanisms/gri30/lib/src/spec_rates.c:763-772 -/
def spec83 : List CStmt := [
  .set (.arr .spRates 0) (.sub (.rd (.arr .spRates 0)) (.sub (.rd (.arr .fwd 83)) (.rd (.arr .rev 83)))),
  .set (.arr .spRates 1) (.add (.rd (.arr .spRates 1)) (.sub (.rd (.arr .fwd 83)) (.rd (.arr .rev 83)))),
  .set (.arr .spRates 4) (.sub (.rd (.arr .spRates 4)) (.sub (.rd (.arr .fwd 83)) (.rd (.arr .rev 83)))),
  .set (.arr .spRates 5) (.add (.rd (.arr .spRates 5)) (.sub (.rd (.arr .fwd 83)) (.rd (.arr .rev 83))))]

/-- utilities/mechanisms/gri30/lib/src/spec_rates.c:773-778 -/
def spec84 : List CStmt := [
  .set (.arr .spRates 4) (.sub (.rd (.arr .spRates 4)) (.mul (.mul (.num 2 0) (.sub (.rd (.arr .fwd 84)) (.rd (.arr .rev 84)))) (.rd (.arr .presMod 19)))),
  .set (.arr .spRates 7) (.add (.rd (.arr .spRates 7)) (.mul (.sub (.rd (.arr .fwd 84)) (.rd (.arr .rev 84))) (.rd (.arr .presMod 19))))]

/-- utilities/mechanisms/gri30/lib/src/spec_rates.c:779-786 -/
def spec85 : List CStmt := [
  .set (.arr .spRates 2) (.add (.rd (.arr .spRates 2)) (.sub (.rd (.arr .fwd 85)) (.rd (.arr .rev 85)))),
  .set (.arr .spRates 4) (.sub (.rd (.arr .spRates 4)) (.mul (.num 2 0) (.sub (.rd (.arr .fwd 85)) (.rd (.arr .rev 85))))),
  .set (.arr .spRates 5) (.add (.rd (.arr .spRates 5)) (.sub (.rd (.arr .fwd 85)) (.rd (.arr .rev 85))))]

/-- utilities/mechanisms/gri30/lib/src/spec_rates.c:787-796 -/
def spec86 : List CStmt := [
  .set (.arr .spRates 3) (.add (.rd (.arr .spRates 3)) (.sub (.rd (.arr .fwd 86)) (.rd (.arr .rev 86)))),
  .set (.arr .spRates 4) (.sub (.rd (.arr .spRates 4)) (.sub (.rd (.arr .fwd 86)) (.rd (.arr .rev 86)))),
  .set (.arr .spRates 5) (.add (.rd (.arr .spRates 5)) (.sub (.rd (.arr .fwd 86)) (.rd (.arr .rev 86)))),
  .set (.arr .spRates 6) (.sub (.rd (.arr .spRates 6)) (.sub (.rd (.arr .fwd 86)) (.rd (.arr .rev 86))))]

/-- utilities/mechanisms/gri30/lib/src/spec_rates.c:797-806 -/
def spec87 : List CStmt := [
  .set (.arr .spRates 4) (.sub (.rd (.arr .spRates 4)) (.sub (.rd (.arr .fwd 87)) (.rd (.arr .rev 87)))),
  .set (.arr .spRates 5) (.add (.rd (.arr .spRates 5)) (.sub (.rd (.arr .fwd 87)) (.rd (.arr .rev 87)))),
  .set (.arr .spRates 6) (.add (.rd (.arr .spRates 6)) (.sub (.rd (.arr .fwd 87)) (.rd (.arr .rev 87)))),
  .set (.arr .spRates 7) (.sub (.rd (.arr .spRates 7)) (.sub (.rd (.arr .fwd 87)) (.rd (.arr .rev 87))))]

/-- utilities/mechanisms/gri30/lib/src/spec_rates.c:807-816 -/
def spec88 : List CStmt := [
  .set (.arr .spRates 4) (.sub (.rd (.arr .spRates 4)) (.sub (.rd (.arr .fwd 88)) (.rd (.arr .rev 88)))),
  .set (.arr .spRates 5) (.add (.rd (.arr .spRates 5)) (.sub (.rd (.arr .fwd 88)) (.rd (.arr .rev 88)))),
  .set (.arr .spRates 6) (.add (.rd (.arr .spRates 6)) (.sub (.rd (.arr .fwd 88)) (.rd (.arr .rev 88)))),
  .set (.arr .spRates 7) (.sub (.rd (.arr .spRates 7)) (.sub (.rd (.arr .fwd 88)) (.rd (.arr .rev 88))))]

/-- utilities/mechanisms/gri30/lib/src/spec_rates.c:817-826 -/
def spec89 : List CStmt := [
  .set (.arr .spRates 8) (.sub (.rd (.arr .spRates 8)) (.sub (.rd (.arr .fwd 89)) (.rd (.arr .rev 89)))),
  .set (.arr .spRates 1) (.add (.rd (.arr .spRates 1)) (.sub (.rd (.arr .fwd 89)) (.rd (.arr .rev 89)))),
  .set (.arr .spRates 4) (.sub (.rd (.arr .spRates 4)) (.sub (.rd (.arr .fwd 89)) (.rd (.arr .rev 89)))),
  .set (.arr .spRates 14) (.add (.rd (.arr .spRates 14)) (.sub (.rd (.arr .fwd 89)) (.rd (.arr .rev 89))))]

/-- utilities/mechanisms/gri30/lib/src/spec_rates.c:827-836 -/
def spec90 : List CStmt := [
  .set (.arr .spRates 16) (.add (.rd (.arr .spRates 16)) (.sub (.rd (.arr .fwd 90)) (.rd (.arr .rev 90)))),
  .set (.arr .spRates 9) (.sub (.rd (.arr .spRates 9)) (.sub (.rd (.arr .fwd 90)) (.rd (.arr .rev 90)))),
  .set (.arr .spRates 4) (.sub (.rd (.arr .spRates 4)) (.sub (.rd (.arr .fwd 90)) (.rd (.arr .rev 90)))),
  .set (.arr .spRates 1) (.add (.rd (.arr .spRates 1)) (.sub (.rd (.arr .fwd 90)) (.rd (.arr .rev 90))))]

/-- utilities/mechanisms/gri30/lib/src/spec_rates.c:837-846 -/
def spec91 : List CStmt := [
  .set (.arr .spRates 17) (.add (.rd (.arr .spRates 17)) (.sub (.rd (.arr .fwd 91)) (.rd (.arr .rev 91)))),
  .set (.arr .spRates 10) (.sub (.rd (.arr .spRates 10)) (.sub (.rd (.arr .fwd 91)) (.rd (.arr .rev 91)))),
  .set (.arr .spRates 4) (.sub (.rd (.arr .spRates 4)) (.sub (.rd (.arr .fwd 91)) (.rd (.arr .rev 91)))),
  .set (.arr .spRates 1) (.add (.rd (.arr .spRates 1)) (.sub (.rd (.arr .fwd 91)) (.rd (.arr .rev 91))))]

/-- utilities/mechanisms/gri30/lib/src/spec_rates.c:847-856 -/
def spec92 : List CStmt := [
  .set (.arr .spRates 9) (.add (.rd (.arr .spRates 9)) (.sub (.rd (.arr .fwd 92)) (.rd (.arr .rev 92)))),
  .set (.arr .spRates 10) (.sub (.rd (.arr .spRates 10)) (.sub (.rd (.arr .fwd 92)) (.rd (.arr .rev 92)))),
  .set (.arr .spRates 4) (.sub (.rd (.arr .spRates 4)) (.sub (.rd (.arr .fwd 92)) (.rd (.arr .rev 92)))),
  .set (.arr .spRates 5) (.add (.rd (.arr .spRates 5)) (.sub (.rd (.arr .fwd 92)) (.rd (.arr .rev 92))))]

/-- utilities/mechanisms/gri30/lib/src/spec_rates.c:857-866 -/
def spec93 : List CStmt := [
  .set (.arr .spRates 17) (.add (.rd (.arr .spRates 17)) (.sub (.rd (.arr .fwd 93)) (.rd (.arr .rev 93)))),
  .set (.arr .spRates 11) (.sub (.rd (.arr .spRates 11)) (.sub (.rd (.arr .fwd 93)) (.rd (.arr .rev 93)))),
  .set (.arr .spRates 4) (.sub (.rd (.arr .spRates 4)) (.sub (.rd (.arr .fwd 93)) (.rd (.arr .rev 93)))),
  .set (.arr .spRates 1) (.add (.rd (.arr .spRates 1)) (.sub (.rd (.arr .fwd 93)) (.rd (.arr .rev 93))))]

/-- utilities/mechanisms/gri30/lib/src/spec_rates.c:867-874 -/
def spec94 : List CStmt := [
  .set (.arr .spRates 4) (.sub (.rd (.arr .spRates 4)) (.mul (.sub (.rd (.arr .fwd 94)) (.rd (.arr .rev 94))) (.rd (.arr .presMod 20)))),
  .set (.arr .spRates 12) (.sub (.rd (.arr .spRates 12)) (.mul (.sub (.rd (.arr .fwd 94)) (.rd (.arr .rev 94))) (.rd (.arr .presMod 20)))),
  .set (.arr .spRates 20) (.add (.rd (.arr .spRates 20)) (.mul (.sub (.rd (.arr .fwd 94)) (.rd (.arr .rev 94))) (.rd (.arr .presMod 20))))]

/-- utilities/mechanisms/gri30/lib/src/spec_rates.c:875-884 -/
def spec95 : List CStmt := [
  .set (.arr .spRates 4) (.sub (.rd (.arr .spRates 4)) (.sub (.rd (.arr .fwd 95)) (.rd (.arr .rev 95)))),
  .set (.arr .spRates 10) (.add (.rd (.arr .spRates 10)) (.sub (.rd (.arr .fwd 95)) (.rd (.arr .rev 95)))),
  .set (.arr .spRates 12) (.sub (.rd (.arr .spRates 12)) (.sub (.rd (.arr .fwd 95)) (.rd (.arr .rev 95)))),
  .set (.arr .spRates 5) (.add (.rd (.arr .spRates 5)) (.sub (.rd (.arr .fwd 95)) (.rd (.arr .rev 95))))]

/-- utilities/mechanisms/gri30/lib/src/spec_rates.c:885-894 -/
def spec96 : List CStmt := [
  .set (.arr .spRates 4) (.sub (.rd (.arr .spRates 4)) (.sub (.rd (.arr .fwd 96)) (.rd (.arr .rev 96)))),
  .set (.arr .spRates 11) (.add (.rd (.arr .spRates 11)) (.sub (.rd (.arr .fwd 96)) (.rd (.arr .rev 96)))),
  .set (.arr .spRates 12) (.sub (.rd (.arr .spRates 12)) (.sub (.rd (.arr .fwd 96)) (.rd (.arr .rev 96)))),
  .set (.arr .spRates 5) (.add (.rd (.arr .spRates 5)) (.sub (.rd (.arr .fwd 96)) (.rd (.arr .rev 96))))]

/-- utilities/mechanisms/gri30/lib/src/spec_rates.c:895-904 -/
def spec97 : List CStmt := [
  .set (.arr .spRates 12) (.add (.rd (.arr .spRates 12)) (.sub (.rd (.arr .fwd 97)) (.rd (.arr .rev 97)))),
  .set (.arr .spRates 4) (.sub (.rd (.arr .spRates 4)) (.sub (.rd (.arr .fwd 97)) (.rd (.arr .rev 97)))),
  .set (.arr .spRates 13) (.sub (.rd (.arr .spRates 13)) (.sub (.rd (.arr .fwd 97)) (.rd (.arr .rev 97)))),
  .set (.arr .spRates 5) (.add (.rd (.arr .spRates 5)) (.sub (.rd (.arr .fwd 97)) (.rd (.arr .rev 97))))]

/-- utilities/mechanisms/gri30/lib/src/spec_rates.c:905-914 -/
def spec98 : List CStmt := [
  .set (.arr .spRates 1) (.add (.rd (.arr .spRates 1)) (.sub (.rd (.arr .fwd 98)) (.rd (.arr .rev 98)))),
  .set (.arr .spRates 4) (.sub (.rd (.arr .spRates 4)) (.sub (.rd (.arr .fwd 98)) (.rd (.arr .rev 98)))),
  .set (.arr .spRates 14) (.sub (.rd (.arr .spRates 14)) (.sub (.rd (.arr .fwd 98)) (.rd (.arr .rev 98)))),
  .set (.arr .spRates 15) (.add (.rd (.arr .spRates 15)) (.sub (.rd (.arr .fwd 98)) (.rd (.arr .rev 98))))]

/-- utilities/mechanisms/gri30/lib/src/spec_rates.c:915-924 -/
def spec99 : List CStmt := [
  .set (.arr .spRates 16) (.sub (.rd (.arr .spRates 16)) (.sub (.rd (.arr .fwd 99)) (.rd (.arr .rev 99)))),
  .set (.arr .spRates 4) (.sub (.rd (.arr .spRates 4)) (.sub (.rd (.arr .fwd 99)) (.rd (.arr .rev 99)))),
  .set (.arr .spRates 5) (.add (.rd (.arr .spRates 5)) (.sub (.rd (.arr .fwd 99)) (.rd (.arr .rev 99)))),
  .set (.arr .spRates 14) (.add (.rd (.arr .spRates 14)) (.sub (.rd (.arr .fwd 99)) (.rd (.arr .rev 99))))]

/-- utilities/mechanisms/gri30/lib/src/spec_rates.c:925-934 -/
def spec100 : List CStmt := [
  .set (.arr .spRates 16) (.add (.rd (.arr .spRates 16)) (.sub (.rd (.arr .fwd 100)) (.rd (.arr .rev 100)))),
  .set (.arr .spRates 17) (.sub (.rd (.arr .spRates 17)) (.sub (.rd (.arr .fwd 100)) (.rd (.arr .rev 100)))),
  .set (.arr .spRates 4) (.sub (.rd (.arr .spRates 4)) (.sub (.rd (.arr .fwd 100)) (.rd (.arr .rev 100)))),
  .set (.arr .spRates 5) (.add (.rd (.arr .spRates 5)) (.sub (.rd (.arr .fwd 100)) (.rd (.arr .rev 100))))]

/-- utilities/mechanisms/gri30/lib/src/spec_rates.c:935-944 -/
def spec101 : List CStmt := [
  .set (.arr .spRates 17) (.add (.rd (.arr .spRates 17)) (.sub (.rd (.arr .fwd 101)) (.rd (.arr .rev 101)))),
  .set (.arr .spRates 18) (.sub (.rd (.arr .spRates 18)) (.sub (.rd (.arr .fwd 101)) (.rd (.arr .rev 101)))),
  .set (.arr .spRates 4) (.sub (.rd (.arr .spRates 4)) (.sub (.rd (.arr .fwd 101)) (.rd (.arr .rev 101)))),
  .set (.arr .spRates 5) (.add (.rd (.arr .spRates 5)) (.sub (.rd (.arr .fwd 101)) (.rd (.arr .rev 101))))]

/-- utilities/mechanisms/gri30/lib/src/spec_rates.c:945-954 -/
def spec102 : List CStmt := [
  .set (.arr .spRates 17) (.add (.rd (.arr .spRates 17)) (.sub (.rd (.arr .fwd 102)) (.rd (.arr .rev 102)))),
  .set (.arr .spRates 19) (.sub (.rd (.arr .spRates 19)) (.sub (.rd (.arr .fwd 102)) (.rd (.arr .rev 102)))),
  .set (.arr .spRates 4) (.sub (.rd (.arr .spRates 4)) (.sub (.rd (.arr .fwd 102)) (.rd (.arr .rev 102)))),
  .set (.arr .spRates 5) (.add (.rd (.arr .spRates 5)) (.sub (.rd (.arr .fwd 102)) (.rd (.arr .rev 102))))]

/-- utilities/mechanisms/gri30/lib/src/spec_rates.c:955-964 -/
def spec103 : List CStmt := [
  .set (.arr .spRates 4) (.sub (.rd (.arr .spRates 4)) (.sub (.rd (.arr .fwd 103)) (.rd (.arr .rev 103)))),
  .set (.arr .spRates 18) (.add (.rd (.arr .spRates 18)) (.sub (.rd (.arr .fwd 103)) (.rd (.arr .rev 103)))),
  .set (.arr .spRates 20) (.sub (.rd (.arr .spRates 20)) (.sub (.rd (.arr .fwd 103)) (.rd (.arr .rev 103)))),
  .set (.arr .spRates 5) (.add (.rd (.arr .spRates 5)) (.sub (.rd (.arr .fwd 103)) (.rd (.arr .rev 103))))]

/-- utilities/mechanisms/gri30/lib/src/spec_rates.c:965-974 -/
def spec104 : List CStmt := [
  .set (.arr .spRates 4) (.sub (.rd (.arr .spRates 4)) (.sub (.rd (.arr .fwd 104)) (.rd (.arr .rev 104)))),
  .set (.arr .spRates 19) (.add (.rd (.arr .spRates 19)) (.sub (.rd (.arr .fwd 104)) (.rd (.arr .rev 104)))),
  .set (.arr .spRates 20) (.sub (.rd (.arr .spRates 20)) (.sub (.rd (.arr .fwd 104)) (.rd (.arr .rev 104)))),
  .set (.arr .spRates 5) (.add (.rd (.arr .spRates 5)) (.sub (.rd (.arr .fwd 104)) (.rd (.arr .rev 104))))]

/-- utilities/mechanisms/gri30/lib/src/spec_rates.c:975-984 -/
def spec105 : List CStmt := [
  .set (.arr .spRates 1) (.add (.rd (.arr .spRates 1)) (.sub (.rd (.arr .fwd 105)) (.rd (.arr .rev 105)))),
  .set (.arr .spRates 27) (.add (.rd (.arr .spRates 27)) (.sub (.rd (.arr .fwd 105)) (.rd (.arr .rev 105)))),
  .set (.arr .spRates 4) (.sub (.rd (.arr .spRates 4)) (.sub (.rd (.arr .fwd 105)) (.rd (.arr .rev 105)))),
  .set (.arr .spRates 21) (.sub (.rd (.arr .spRates 21)) (.sub (.rd (.arr .fwd 105)) (.rd (.arr .rev 105))))]

/-- utilities/mechanisms/gri30/lib/src/spec_rates.c:985-994 -/
def spec106 : List CStmt := [
  .set (.arr .spRates 1) (.add (.rd (.arr .spRates 1)) (.sub (.rd (.arr .fwd 106)) (.rd (.arr .rev 106)))),
  .set (.arr .spRates 4) (.sub (.rd (.arr .spRates 4)) (.sub (.rd (.arr .fwd 106)) (.rd (.arr .rev 106)))),
  .set (.arr .spRates 22) (.sub (.rd (.arr .spRates 22)) (.sub (.rd (.arr .fwd 106)) (.rd (.arr .rev 106)))),
  .set (.arr .spRates 28) (.add (.rd (.arr .spRates 28)) (.sub (.rd (.arr .fwd 106)) (.rd (.arr .rev 106))))]

/-- utilities/mechanisms/gri30/lib/src/spec_rates.c:995-1004 -/
def spec107 : List CStmt := [
  .set (.arr .spRates 1) (.add (.rd (.arr .spRates 1)) (.sub (.rd (.arr .fwd 107)) (.rd (.arr .rev 107)))),
  .set (.arr .spRates 4) (.sub (.rd (.arr .spRates 4)) (.sub (.rd (.arr .fwd 107)) (.rd (.arr .rev 107)))),
  .set (.arr .spRates 29) (.add (.rd (.arr .spRates 29)) (.sub (.rd (.arr .fwd 107)) (.rd (.arr .rev 107)))),
  .set (.arr .spRates 22) (.sub (.rd (.arr .spRates 22)) (.sub (.rd (.arr .fwd 107)) (.rd (.arr .rev 107))))]

/-- utilities/mechanisms/gri30/lib/src/spec_rates.c:1005-1014 -/
def spec108 : List CStmt := [
  .set (.arr .spRates 4) (.sub (.rd (.arr .spRates 4)) (.sub (.rd (.arr .fwd 108)) (.rd (.arr .rev 108)))),
  .set (.arr .spRates 21) (.add (.rd (.arr .spRates 21)) (.sub (.rd (.arr .fwd 108)) (.rd (.arr .rev 108)))),
  .set (.arr .spRates 22) (.sub (.rd (.arr .spRates 22)) (.sub (.rd (.arr .fwd 108)) (.rd (.arr .rev 108)))),
  .set (.arr .spRates 5) (.add (.rd (.arr .spRates 5)) (.sub (.rd (.arr .fwd 108)) (.rd (.arr .rev 108))))]

/-- utilities/mechanisms/gri30/lib/src/spec_rates.c:1015-1024 -/
def spec109 : List CStmt := [
  .set (.arr .spRates 12) (.add (.rd (.arr .spRates 12)) (.sub (.rd (.arr .fwd 109)) (.rd (.arr .rev 109)))),
  .set (.arr .spRates 4) (.sub (.rd (.arr .spRates 4)) (.sub (.rd (.arr .fwd 109)) (.rd (.arr .rev 109)))),
  .set (.arr .spRates 14) (.add (.rd (.arr .spRates 14)) (.sub (.rd (.arr .fwd 109)) (.rd (.arr .rev 109)))),
  .set (.arr .spRates 22) (.sub (.rd (.arr .spRates 22)) (.sub (.rd (.arr .fwd 109)) (.rd (.arr .rev 109))))]

/-- utilities/mechanisms/gri30/lib/src/spec_rates.c:1025-1034 -/
def spec110 : List CStmt := [
  .set (.arr .spRates 4) (.sub (.rd (.arr .spRates 4)) (.sub (.rd (.arr .fwd 110)) (.rd (.arr .rev 110)))),
  .set (.arr .spRates 5) (.add (.rd (.arr .spRates 5)) (.sub (.rd (.arr .fwd 110)) (.rd (.arr .rev 110)))),
  .set (.arr .spRates 22) (.add (.rd (.arr .spRates 22)) (.sub (.rd (.arr .fwd 110)) (.rd (.arr .rev 110)))),
  .set (.arr .spRates 23) (.sub (.rd (.arr .spRates 23)) (.sub (.rd (.arr .fwd 110)) (.rd (.arr .rev 110))))]

/-- utilities/mechanisms/gri30/lib/src/spec_rates.c:1035-1044 -/
def spec111 : List CStmt := [
  .set (.arr .spRates 24) (.sub (.rd (.arr .spRates 24)) (.sub (.rd (.arr .fwd 111)) (.rd (.arr .rev 111)))),
  .set (.arr .spRates 4) (.sub (.rd (.arr .spRates 4)) (.sub (.rd (.arr .fwd 111)) (.rd (.arr .rev 111)))),
  .set (.arr .spRates 5) (.add (.rd (.arr .spRates 5)) (.sub (.rd (.arr .fwd 111)) (.rd (.arr .rev 111)))),
  .set (.arr .spRates 23) (.add (.rd (.arr .spRates 23)) (.sub (.rd (.arr .fwd 111)) (.rd (.arr .rev 111))))]

/-- utilities/mechanisms/gri30/lib/src/spec_rates.c:1045-1054 -/
def spec112 : List CStmt := [
  .set (.arr .spRates 25) (.add (.rd (.arr .spRates 25)) (.sub (.rd (.arr .fwd 112)) (.rd (.arr .rev 112)))),
  .set (.arr .spRates 26) (.sub (.rd (.arr .spRates 26)) (.sub (.rd (.arr .fwd 112)) (.rd (.arr .rev 112)))),
  .set (.arr .spRates 4) (.sub (.rd (.arr .spRates 4)) (.sub (.rd (.arr .fwd 112)) (.rd (.arr .rev 112)))),
  .set (.arr .spRates 5) (.add (.rd (.arr .spRates 5)) (.sub (.rd (.arr .fwd 112)) (.rd (.arr .rev 112))))]

/-- utilities/mechanisms/gri30/lib/src/spec_rates.c:1055-1064 -/
def spec113 : List CStmt := [
  .set (.arr .spRates 4) (.sub (.rd (.arr .spRates 4)) (.sub (.rd (.arr .fwd 113)) (.rd (.arr .rev 113)))),
  .set (.arr .spRates 27) (.add (.rd (.arr .spRates 27)) (.sub (.rd (.arr .fwd 113)) (.rd (.arr .rev 113)))),
  .set (.arr .spRates 28) (.sub (.rd (.arr .spRates 28)) (.sub (.rd (.arr .fwd 113)) (.rd (.arr .rev 113)))),
  .set (.arr .spRates 5) (.add (.rd (.arr .spRates 5)) (.sub (.rd (.arr .fwd 113)) (.rd (.arr .rev 113))))]

/-- utilities/mechanisms/gri30/lib/src/spec_rates.c:1065-1072 -/
def spec114 : List CStmt := [
  .set (.arr .spRates 3) (.add (.rd (.arr .spRates 3)) (.sub (.rd (.arr .fwd 114)) (.rd (.arr .rev 114)))),
  .set (.arr .spRates 6) (.sub (.rd (.arr .spRates 6)) (.mul (.num 2 0) (.sub (.rd (.arr .fwd 114)) (.rd (.arr .rev 114))))),
  .set (.arr .spRates 7) (.add (.rd (.arr .spRates 7)) (.sub (.rd (.arr .fwd 114)) (.rd (.arr .rev 114))))]

/-- utilities/mechanisms/gri30/lib/src/spec_rates.c:1073-1080 -/
def spec115 : List CStmt := [
  .set (.arr .spRates 3) (.add (.rd (.arr .spRates 3)) (.sub (.rd (.arr .fwd 115)) (.rd (.arr .rev 115)))),
  .set (.arr .spRates 6) (.sub (.rd (.arr .spRates 6)) (.mul (.num 2 0) (.sub (.rd (.arr .fwd 115)) (.rd (.arr .rev 115))))),
  .set (.arr .spRates 7) (.add (.rd (.arr .spRates 7)) (.sub (.rd (.arr .fwd 115)) (.rd (.arr .rev 115))))]

/-- utilities/mechanisms/gri30/lib/src/spec_rates.c:1081-1090 -/
def spec116 : List CStmt := [
  .set (.arr .spRates 17) (.add (.rd (.arr .spRates 17)) (.sub (.rd (.arr .fwd 116)) (.rd (.arr .rev 116)))),
  .set (.arr .spRates 10) (.sub (.rd (.arr .spRates 10)) (.sub (.rd (.arr .fwd 116)) (.rd (.arr .rev 116)))),
  .set (.arr .spRates 4) (.add (.rd (.arr .spRates 4)) (.sub (.rd (.arr .fwd 116)) (.rd (.arr .rev 116)))),
  .set (.arr .spRates 6) (.sub (.rd (.arr .spRates 6)) (.sub (.rd (.arr .fwd 116)) (.rd (.arr .rev 116))))]

/-- utilities/mechanisms/gri30/lib/src/spec_rates.c:1091-1100 -/
def spec117 : List CStmt := [
  .set (.arr .spRates 3) (.add (.rd (.arr .spRates 3)) (.sub (.rd (.arr .fwd 117)) (.rd (.arr .rev 117)))),
  .set (.arr .spRates 12) (.sub (.rd (.arr .spRates 12)) (.sub (.rd (.arr .fwd 117)) (.rd (.arr .rev 117)))),
  .set (.arr .spRates 13) (.add (.rd (.arr .spRates 13)) (.sub (.rd (.arr .fwd 117)) (.rd (.arr .rev 117)))),
  .set (.arr .spRates 6) (.sub (.rd (.arr .spRates 6)) (.sub (.rd (.arr .fwd 117)) (.rd (.arr .rev 117))))]

/-- utilities/mechanisms/gri30/lib/src/spec_rates.c:1101-1110 -/
def spec118 : List CStmt := [
  .set (.arr .spRates 4) (.add (.rd (.arr .spRates 4)) (.sub (.rd (.arr .fwd 118)) (.rd (.arr .rev 118)))),
  .set (.arr .spRates 19) (.add (.rd (.arr .spRates 19)) (.sub (.rd (.arr .fwd 118)) (.rd (.arr .rev 118)))),
  .set (.arr .spRates 12) (.sub (.rd (.arr .spRates 12)) (.sub (.rd (.arr .fwd 118)) (.rd (.arr .rev 118)))),
  .set (.arr .spRates 6) (.sub (.rd (.arr .spRates 6)) (.sub (.rd (.arr .fwd 118)) (.rd (.arr .rev 118))))]

/-- utilities/mechanisms/gri30/lib/src/spec_rates.c:1111-1120 -/
def spec119 : List CStmt := [
  .set (.arr .spRates 4) (.add (.rd (.arr .spRates 4)) (.sub (.rd (.arr .fwd 119)) (.rd (.arr .rev 119)))),
  .set (.arr .spRates 6) (.sub (.rd (.arr .spRates 6)) (.sub (.rd (.arr .fwd 119)) (.rd (.arr .rev 119)))),
  .set (.arr .spRates 14) (.sub (.rd (.arr .spRates 14)) (.sub (.rd (.arr .fwd 119)) (.rd (.arr .rev 119)))),
  .set (.arr .spRates 15) (.add (.rd (.arr .spRates 15)) (.sub (.rd (.arr .fwd 119)) (.rd (.arr .rev 119))))]

/-- utilities/mechanisms/gri30/lib/src/spec_rates.c:1121-1130 -/
def spec120 : List CStmt := [
  .set (.arr .spRates 16) (.add (.rd (.arr .spRates 16)) (.sub (.rd (.arr .fwd 120)) (.rd (.arr .rev 120)))),
  .set (.arr .spRates 17) (.sub (.rd (.arr .spRates 17)) (.sub (.rd (.arr .fwd 120)) (.rd (.arr .rev 120)))),
  .set (.arr .spRates 6) (.sub (.rd (.arr .spRates 6)) (.sub (.rd (.arr .fwd 120)) (.rd (.arr .rev 120)))),
  .set (.arr .spRates 7) (.add (.rd (.arr .spRates 7)) (.sub (.rd (.arr .fwd 120)) (.rd (.arr .rev 120))))]

/-- utilities/mechanisms/gri30/lib/src/spec_rates.c:1131-1140 -/
def spec121 : List CStmt := [
  .set (.arr .spRates 8) (.sub (.rd (.arr .spRates 8)) (.sub (.rd (.arr .fwd 121)) (.rd (.arr .rev 121)))),
  .set (.arr .spRates 2) (.add (.rd (.arr .spRates 2)) (.sub (.rd (.arr .fwd 121)) (.rd (.arr .rev 121)))),
  .set (.arr .spRates 3) (.sub (.rd (.arr .spRates 3)) (.sub (.rd (.arr .fwd 121)) (.rd (.arr .rev 121)))),
  .set (.arr .spRates 14) (.add (.rd (.arr .spRates 14)) (.sub (.rd (.arr .fwd 121)) (.rd (.arr .rev 121))))]

/-- utilities/mechanisms/gri30/lib/src/spec_rates.c:1141-1150 -/
def spec122 : List CStmt := [
  .set (.arr .spRates 8) (.sub (.rd (.arr .spRates 8)) (.sub (.rd (.arr .fwd 122)) (.rd (.arr .rev 122)))),
  .set (.arr .spRates 1) (.add (.rd (.arr .spRates 1)) (.sub (.rd (.arr .fwd 122)) (.rd (.arr .rev 122)))),
  .set (.arr .spRates 10) (.sub (.rd (.arr .spRates 10)) (.sub (.rd (.arr .fwd 122)) (.rd (.arr .rev 122)))),
  .set (.arr .spRates 21) (.add (.rd (.arr .spRates 21)) (.sub (.rd (.arr .fwd 122)) (.rd (.arr .rev 122))))]

/-- utilities/mechanisms/gri30/lib/src/spec_rates.c:1151-1160 -/
def spec123 : List CStmt := [
  .set (.arr .spRates 8) (.sub (.rd (.arr .spRates 8)) (.sub (.rd (.arr .fwd 123)) (.rd (.arr .rev 123)))),
  .set (.arr .spRates 1) (.add (.rd (.arr .spRates 1)) (.sub (.rd (.arr .fwd 123)) (.rd (.arr .rev 123)))),
  .set (.arr .spRates 12) (.sub (.rd (.arr .spRates 12)) (.sub (.rd (.arr .fwd 123)) (.rd (.arr .rev 123)))),
  .set (.arr .spRates 22) (.add (.rd (.arr .spRates 22)) (.sub (.rd (.arr .fwd 123)) (.rd (.arr .rev 123))))]

/-- utilities/mechanisms/gri30/lib/src/spec_rates.c:1161-1170 -/
def spec124 : List CStmt := [
  .set (.arr .spRates 16) (.add (.rd (.arr .spRates 16)) (.sub (.rd (.arr .fwd 124)) (.rd (.arr .rev 124)))),
  .set (.arr .spRates 9) (.sub (.rd (.arr .spRates 9)) (.sub (.rd (.arr .fwd 124)) (.rd (.arr .rev 124)))),
  .set (.arr .spRates 2) (.add (.rd (.arr .spRates 2)) (.sub (.rd (.arr .fwd 124)) (.rd (.arr .rev 124)))),
  .set (.arr .spRates 3) (.sub (.rd (.arr .spRates 3)) (.sub (.rd (.arr .fwd 124)) (.rd (.arr .rev 124))))]

/-- utilities/mechanisms/gri30/lib/src/spec_rates.c:1171-1180 -/
def spec125 : List CStmt := [
  .set (.arr .spRates 0) (.sub (.rd (.arr .spRates 0)) (.sub (.rd (.arr .fwd 125)) (.rd (.arr .rev 125)))),
  .set (.arr .spRates 9) (.sub (.rd (.arr .spRates 9)) (.sub (.rd (.arr .fwd 125)) (.rd (.arr .rev 125)))),
  .set (.arr .spRates 10) (.add (.rd (.arr .spRates 10)) (.sub (.rd (.arr .fwd 125)) (.rd (.arr .rev 125)))),
  .set (.arr .spRates 1) (.add (.rd (.arr .spRates 1)) (.sub (.rd (.arr .fwd 125)) (.rd (.arr .rev 125))))]

/-- utilities/mechanisms/gri30/lib/src/spec_rates.c:1181-1190 -/
def spec126 : List CStmt := [
  .set (.arr .spRates 9) (.sub (.rd (.arr .spRates 9)) (.sub (.rd (.arr .fwd 126)) (.rd (.arr .rev 126)))),
  .set (.arr .spRates 1) (.add (.rd (.arr .spRates 1)) (.sub (.rd (.arr .fwd 126)) (.rd (.arr .rev 126)))),
  .set (.arr .spRates 5) (.sub (.rd (.arr .spRates 5)) (.sub (.rd (.arr .fwd 126)) (.rd (.arr .rev 126)))),
  .set (.arr .spRates 17) (.add (.rd (.arr .spRates 17)) (.sub (.rd (.arr .fwd 126)) (.rd (.arr .rev 126))))]

/-- utilities/mechanisms/gri30/lib/src/spec_rates.c:1191-1200 -/
def spec127 : List CStmt := [
  .set (.arr .spRates 9) (.sub (.rd (.arr .spRates 9)) (.sub (.rd (.arr .fwd 127)) (.rd (.arr .rev 127)))),
  .set (.arr .spRates 10) (.sub (.rd (.arr .spRates 10)) (.sub (.rd (.arr .fwd 127)) (.rd (.arr .rev 127)))),
  .set (.arr .spRates 22) (.add (.rd (.arr .spRates 22)) (.sub (.rd (.arr .fwd 127)) (.rd (.arr .rev 127)))),
  .set (.arr .spRates 1) (.add (.rd (.arr .spRates 1)) (.sub (.rd (.arr .fwd 127)) (.rd (.arr .rev 127))))]

/-- utilities/mechanisms/gri30/lib/src/spec_rates.c:1201-1210 -/
def spec128 : List CStmt := [
  .set (.arr .spRates 9) (.sub (.rd (.arr .spRates 9)) (.sub (.rd (.arr .fwd 128)) (.rd (.arr .rev 128)))),
  .set (.arr .spRates 23) (.add (.rd (.arr .spRates 23)) (.sub (.rd (.arr .fwd 128)) (.rd (.arr .rev 128)))),
  .set (.arr .spRates 12) (.sub (.rd (.arr .spRates 12)) (.sub (.rd (.arr .fwd 128)) (.rd (.arr .rev 128)))),
  .set (.arr .spRates 1) (.add (.rd (.arr .spRates 1)) (.sub (.rd (.arr .fwd 128)) (.rd (.arr .rev 128))))]

/-- utilities/mechanisms/gri30/lib/src/spec_rates.c:1211-1220 -/
def spec129 : List CStmt := [
  .set (.arr .spRates 24) (.add (.rd (.arr .spRates 24)) (.sub (.rd (.arr .fwd 129)) (.rd (.arr .rev 129)))),
  .set (.arr .spRates 9) (.sub (.rd (.arr .spRates 9)) (.sub (.rd (.arr .fwd 129)) (.rd (.arr .rev 129)))),
  .set (.arr .spRates 13) (.sub (.rd (.arr .spRates 13)) (.sub (.rd (.arr .fwd 129)) (.rd (.arr .rev 129)))),
  .set (.arr .spRates 1) (.add (.rd (.arr .spRates 1)) (.sub (.rd (.arr .fwd 129)) (.rd (.arr .rev 129))))]

/-- utilities/mechanisms/gri30/lib/src/spec_rates.c:1221-1228 -/
def spec130 : List CStmt := [
  .set (.arr .spRates 9) (.sub (.rd (.arr .spRates 9)) (.mul (.sub (.rd (.arr .fwd 130)) (.rd (.arr .rev 130))) (.rd (.arr .presMod 21)))),
  .set (.arr .spRates 27) (.add (.rd (.arr .spRates 27)) (.mul (.sub (.rd (.arr .fwd 130)) (.rd (.arr .rev 130))) (.rd (.arr .presMod 21)))),
  .set (.arr .spRates 14) (.sub (.rd (.arr .spRates 14)) (.mul (.sub (.rd (.arr .fwd 130)) (.rd (.arr .rev 130))) (.rd (.arr .presMod 21))))]

/-- utilities/mechanisms/gri30/lib/src/spec_rates.c:1229-1238 -/
def spec131 : List CStmt := [
  .set (.arr .spRates 16) (.add (.rd (.arr .spRates 16)) (.sub (.rd (.arr .fwd 131)) (.rd (.arr .rev 131)))),
  .set (.arr .spRates 9) (.sub (.rd (.arr .spRates 9)) (.sub (.rd (.arr .fwd 131)) (.rd (.arr .rev 131)))),
  .set (.arr .spRates 14) (.add (.rd (.arr .spRates 14)) (.sub (.rd (.arr .fwd 131)) (.rd (.arr .rev 131)))),
  .set (.arr .spRates 15) (.sub (.rd (.arr .spRates 15)) (.sub (.rd (.arr .fwd 131)) (.rd (.arr .rev 131))))]

/-- utilities/mechanisms/gri30/lib/src/spec_rates.c:1239-1248 -/
def spec132 : List CStmt := [
  .set (.arr .spRates 17) (.sub (.rd (.arr .spRates 17)) (.sub (.rd (.arr .fwd 132)) (.rd (.arr .rev 132)))),
  .set (.arr .spRates 1) (.add (.rd (.arr .spRates 1)) (.sub (.rd (.arr .fwd 132)) (.rd (.arr .rev 132)))),
  .set (.arr .spRates 28) (.add (.rd (.arr .spRates 28)) (.sub (.rd (.arr .fwd 132)) (.rd (.arr .rev 132)))),
  .set (.arr .spRates 9) (.sub (.rd (.arr .spRates 9)) (.sub (.rd (.arr .fwd 132)) (.rd (.arr .rev 132))))]

/-- utilities/mechanisms/gri30/lib/src/spec_rates.c:1249-1258 -/
def spec133 : List CStmt := [
  .set (.arr .spRates 9) (.sub (.rd (.arr .spRates 9)) (.sub (.rd (.arr .fwd 133)) (.rd (.arr .rev 133)))),
  .set (.arr .spRates 27) (.sub (.rd (.arr .spRates 27)) (.sub (.rd (.arr .fwd 133)) (.rd (.arr .rev 133)))),
  .set (.arr .spRates 22) (.add (.rd (.arr .spRates 22)) (.sub (.rd (.arr .fwd 133)) (.rd (.arr .rev 133)))),
  .set (.arr .spRates 14) (.add (.rd (.arr .spRates 14)) (.sub (.rd (.arr .fwd 133)) (.rd (.arr .rev 133))))]

/-- utilities/mechanisms/gri30/lib/src/spec_rates.c:1259-1270 -/
def spec134 : List CStmt := [
  .set (.arr .spRates 1) (.add (.rd (.arr .spRates 1)) (.rd (.arr .fwd 134))),
  .set (.arr .spRates 10) (.sub (.rd (.arr .spRates 10)) (.rd (.arr .fwd 134))),
  .set (.arr .spRates 3) (.sub (.rd (.arr .spRates 3)) (.rd (.arr .fwd 134))),
  .set (.arr .spRates 4) (.add (.rd (.arr .spRates 4)) (.rd (.arr .fwd 134))),
  .set (.arr .spRates 14) (.add (.rd (.arr .spRates 14)) (.rd (.arr .fwd 134)))]

/-- utilities/mechanisms/gri30/lib/src/spec_rates.c:1271-1280 -/
def spec135 : List CStmt := [
  .set (.arr .spRates 0) (.sub (.rd (.arr .spRates 0)) (.sub (.rd (.arr .fwd 135)) (.rd (.arr .rev 134)))),
  .set (.arr .spRates 1) (.add (.rd (.arr .spRates 1)) (.sub (.rd (.arr .fwd 135)) (.rd (.arr .rev 134)))),
  .set (.arr .spRates 10) (.sub (.rd (.arr .spRates 10)) (.sub (.rd (.arr .fwd 135)) (.rd (.arr .rev 134)))),
  .set (.arr .spRates 12) (.add (.rd (.arr .spRates 12)) (.sub (.rd (.arr .fwd 135)) (.rd (.arr .rev 134))))]

/-- utilities/mechanisms/gri30/lib/src/spec_rates.c:1281-1288 -/
def spec136 : List CStmt := [
  .set (.arr .spRates 0) (.add (.rd (.arr .spRates 0)) (.sub (.rd (.arr .fwd 136)) (.rd (.arr .rev 135)))),
  .set (.arr .spRates 10) (.sub (.rd (.arr .spRates 10)) (.mul (.num 2 0) (.sub (.rd (.arr .fwd 136)) (.rd (.arr .rev 135))))),
  .set (.arr .spRates 22) (.add (.rd (.arr .spRates 22)) (.sub (.rd (.arr .fwd 136)) (.rd (.arr .rev 135))))]

/-- utilities/mechanisms/gri30/lib/src/spec_rates.c:1289-1298 -/
def spec137 : List CStmt := [
  .set (.arr .spRates 24) (.add (.rd (.arr .spRates 24)) (.sub (.rd (.arr .fwd 137)) (.rd (.arr .rev 136)))),
  .set (.arr .spRates 1) (.add (.rd (.arr .spRates 1)) (.sub (.rd (.arr .fwd 137)) (.rd (.arr .rev 136)))),
  .set (.arr .spRates 10) (.sub (.rd (.arr .spRates 10)) (.sub (.rd (.arr .fwd 137)) (.rd (.arr .rev 136)))),
  .set (.arr .spRates 12) (.sub (.rd (.arr .spRates 12)) (.sub (.rd (.arr .fwd 137)) (.rd (.arr .rev 136))))]

/-- utilities/mechanisms/gri30/lib/src/spec_rates.c:1299-1306 -/
def spec138 : List CStmt := [
  .set (.arr .spRates 10) (.sub (.rd (.arr .spRates 10)) (.sub (.rd (.arr .fwd 138)) (.rd (.arr .rev 137)))),
  .set (.arr .spRates 12) (.add (.rd (.arr .spRates 12)) (.mul (.num 2 0) (.sub (.rd (.arr .fwd 138)) (.rd (.arr .rev 137))))),
  .set (.arr .spRates 13) (.sub (.rd (.arr .spRates 13)) (.sub (.rd (.arr .fwd 138)) (.rd (.arr .rev 137))))]

/-- utilities/mechanisms/gri30/lib/src/spec_rates.c:1307-1314 -/
def spec139 : List CStmt := [
  .set (.arr .spRates 10) (.sub (.rd (.arr .spRates 10)) (.mul (.sub (.rd (.arr .fwd 139)) (.rd (.arr .rev 138))) (.rd (.arr .presMod 22)))),
  .set (.arr .spRates 28) (.add (.rd (.arr .spRates 28)) (.mul (.sub (.rd (.arr .fwd 139)) (.rd (.arr .rev 138))) (.rd (.arr .presMod 22)))),
  .set (.arr .spRates 14) (.sub (.rd (.arr .spRates 14)) (.mul (.sub (.rd (.arr .fwd 139)) (.rd (.arr .rev 138))) (.rd (.arr .presMod 22))))]

/-- utilities/mechanisms/gri30/lib/src/spec_rates.c:1315-1324 -/
def spec140 : List CStmt := [
  .set (.arr .spRates 10) (.sub (.rd (.arr .spRates 10)) (.sub (.rd (.arr .fwd 140)) (.rd (.arr .rev 139)))),
  .set (.arr .spRates 27) (.sub (.rd (.arr .spRates 27)) (.sub (.rd (.arr .fwd 140)) (.rd (.arr .rev 139)))),
  .set (.arr .spRates 14) (.add (.rd (.arr .spRates 14)) (.sub (.rd (.arr .fwd 140)) (.rd (.arr .rev 139)))),
  .set (.arr .spRates 23) (.add (.rd (.arr .spRates 23)) (.sub (.rd (.arr .fwd 140)) (.rd (.arr .rev 139))))]

/-- utilities/mechanisms/gri30/lib/src/spec_rates.c:1325-1330 -/
def spec141 : List CStmt := [
  .set (.arr .spRates 10) (.add (.rd (.arr .spRates 10)) (.sub (.rd (.arr .fwd 141)) (.rd (.arr .rev 140)))),
  .set (.arr .spRates 11) (.sub (.rd (.arr .spRates 11)) (.sub (.rd (.arr .fwd 141)) (.rd (.arr .rev 140))))]

/-- utilities/mechanisms/gri30/lib/src/spec_rates.c:1331-1336 -/
def spec142 : List CStmt := [
  .set (.arr .spRates 10) (.add (.rd (.arr .spRates 10)) (.sub (.rd (.arr .fwd 142)) (.rd (.arr .rev 141)))),
  .set (.arr .spRates 11) (.sub (.rd (.arr .spRates 11)) (.sub (.rd (.arr .fwd 142)) (.rd (.arr .rev 141))))]

/-- utilities/mechanisms/gri30/lib/src/spec_rates.c:1337-1348 -/
def spec143 : List CStmt := [
  .set (.arr .spRates 3) (.sub (.rd (.arr .spRates 3)) (.sub (.rd (.arr .fwd 143)) (.rd (.arr .rev 142)))),
  .set (.arr .spRates 1) (.add (.rd (.arr .spRates 1)) (.sub (.rd (.arr .fwd 143)) (.rd (.arr .rev 142)))),
  .set (.arr .spRates 11) (.sub (.rd (.arr .spRates 11)) (.sub (.rd (.arr .fwd 143)) (.rd (.arr .rev 142)))),
  .set (.arr .spRates 4) (.add (.rd (.arr .spRates 4)) (.sub (.rd (.arr .fwd 143)) (.rd (.arr .rev 142)))),
  .set (.arr .spRates 14) (.add (.rd (.arr .spRates 14)) (.sub (.rd (.arr .fwd 143)) (.rd (.arr .rev 142))))]

/-- utilities/mechanisms/gri30/lib/src/spec_rates.c:1349-1358 -/
def spec144 : List CStmt := [
  .set (.arr .spRates 3) (.sub (.rd (.arr .spRates 3)) (.sub (.rd (.arr .fwd 144)) (.rd (.arr .rev 143)))),
  .set (.arr .spRates 11) (.sub (.rd (.arr .spRates 11)) (.sub (.rd (.arr .fwd 144)) (.rd (.arr .rev 143)))),
  .set (.arr .spRates 5) (.add (.rd (.arr .spRates 5)) (.sub (.rd (.arr .fwd 144)) (.rd (.arr .rev 143)))),
  .set (.arr .spRates 14) (.add (.rd (.arr .spRates 14)) (.sub (.rd (.arr .fwd 144)) (.rd (.arr .rev 143))))]

/-- utilities/mechanisms/gri30/lib/src/spec_rates.c:1359-1368 -/
def spec145 : List CStmt := [
  .set (.arr .spRates 0) (.sub (.rd (.arr .spRates 0)) (.sub (.rd (.arr .fwd 145)) (.rd (.arr .rev 144)))),
  .set (.arr .spRates 1) (.add (.rd (.arr .spRates 1)) (.sub (.rd (.arr .fwd 145)) (.rd (.arr .rev 144)))),
  .set (.arr .spRates 11) (.sub (.rd (.arr .spRates 11)) (.sub (.rd (.arr .fwd 145)) (.rd (.arr .rev 144)))),
  .set (.arr .spRates 12) (.add (.rd (.arr .spRates 12)) (.sub (.rd (.arr .fwd 145)) (.rd (.arr .rev 144))))]

/-- utilities/mechanisms/gri30/lib/src/spec_rates.c:1369-1376 -/
def spec146 : List CStmt := [
  .set (.arr .spRates 11) (.sub (.rd (.arr .spRates 11)) (.mul (.sub (.rd (.arr .fwd 146)) (.rd (.arr .rev 145))) (.rd (.arr .presMod 23)))),
  .set (.arr .spRates 20) (.add (.rd (.arr .spRates 20)) (.mul (.sub (.rd (.arr .fwd 146)) (.rd (.arr .rev 145))) (.rd (.arr .presMod 23)))),
  .set (.arr .spRates 5) (.sub (.rd (.arr .spRates 5)) (.mul (.sub (.rd (.arr .fwd 146)) (.rd (.arr .rev 145))) (.rd (.arr .presMod 23))))]

/-- utilities/mechanisms/gri30/lib/src/spec_rates.c:1377-1382 -/
def spec147 : List CStmt := [
  .set (.arr .spRates 10) (.add (.rd (.arr .spRates 10)) (.sub (.rd (.arr .fwd 147)) (.rd (.arr .rev 146)))),
  .set (.arr .spRates 11) (.sub (.rd (.arr .spRates 11)) (.sub (.rd (.arr .fwd 147)) (.rd (.arr .rev 146))))]

/-- utilities/mechanisms/gri30/lib/src/spec_rates.c:1383-1392 -/
def spec148 : List CStmt := [
  .set (.arr .spRates 24) (.add (.rd (.arr .spRates 24)) (.sub (.rd (.arr .fwd 148)) (.rd (.arr .rev 147)))),
  .set (.arr .spRates 1) (.add (.rd (.arr .spRates 1)) (.sub (.rd (.arr .fwd 148)) (.rd (.arr .rev 147)))),
  .set (.arr .spRates 11) (.sub (.rd (.arr .spRates 11)) (.sub (.rd (.arr .fwd 148)) (.rd (.arr .rev 147)))),
  .set (.arr .spRates 12) (.sub (.rd (.arr .spRates 12)) (.sub (.rd (.arr .fwd 148)) (.rd (.arr .rev 147))))]

/-- utilities/mechanisms/gri30/lib/src/spec_rates.c:1393-1400 -/
def spec149 : List CStmt := [
  .set (.arr .spRates 11) (.sub (.rd (.arr .spRates 11)) (.sub (.rd (.arr .fwd 149)) (.rd (.arr .rev 148)))),
  .set (.arr .spRates 12) (.add (.rd (.arr .spRates 12)) (.mul (.num 2 0) (.sub (.rd (.arr .fwd 149)) (.rd (.arr .rev 148))))),
  .set (.arr .spRates 13) (.sub (.rd (.arr .spRates 13)) (.sub (.rd (.arr .fwd 149)) (.rd (.arr .rev 148))))]

/-- utilities/mechanisms/gri30/lib/src/spec_rates.c:1401-1406 -/
def spec150 : List CStmt := [
  .set (.arr .spRates 10) (.add (.rd (.arr .spRates 10)) (.sub (.rd (.arr .fwd 150)) (.rd (.arr .rev 149)))),
  .set (.arr .spRates 11) (.sub (.rd (.arr .spRates 11)) (.sub (.rd (.arr .fwd 150)) (.rd (.arr .rev 149))))]

/-- utilities/mechanisms/gri30/lib/src/spec_rates.c:1407-1412 -/
def spec151 : List CStmt := [
  .set (.arr .spRates 10) (.add (.rd (.arr .spRates 10)) (.sub (.rd (.arr .fwd 151)) (.rd (.arr .rev 150)))),
  .set (.arr .spRates 11) (.sub (.rd (.arr .spRates 11)) (.sub (.rd (.arr .fwd 151)) (.rd (.arr .rev 150))))]

/-- utilities/mechanisms/gri30/lib/src/spec_rates.c:1413-1422 -/
def spec152 : List CStmt := [
  .set (.arr .spRates 17) (.add (.rd (.arr .spRates 17)) (.sub (.rd (.arr .fwd 152)) (.rd (.arr .rev 151)))),
  .set (.arr .spRates 11) (.sub (.rd (.arr .spRates 11)) (.sub (.rd (.arr .fwd 152)) (.rd (.arr .rev 151)))),
  .set (.arr .spRates 14) (.add (.rd (.arr .spRates 14)) (.sub (.rd (.arr .fwd 152)) (.rd (.arr .rev 151)))),
  .set (.arr .spRates 15) (.sub (.rd (.arr .spRates 15)) (.sub (.rd (.arr .fwd 152)) (.rd (.arr .rev 151))))]

/-- utilities/mechanisms/gri30/lib/src/spec_rates.c:1423-1432 -/
def spec153 : List CStmt := [
  .set (.arr .spRates 25) (.add (.rd (.arr .spRates 25)) (.sub (.rd (.arr .fwd 153)) (.rd (.arr .rev 152)))),
  .set (.arr .spRates 26) (.sub (.rd (.arr .spRates 26)) (.sub (.rd (.arr .fwd 153)) (.rd (.arr .rev 152)))),
  .set (.arr .spRates 11) (.sub (.rd (.arr .spRates 11)) (.sub (.rd (.arr .fwd 153)) (.rd (.arr .rev 152)))),
  .set (.arr .spRates 12) (.add (.rd (.arr .spRates 12)) (.sub (.rd (.arr .fwd 153)) (.rd (.arr .rev 152))))]

/-- utilities/mechanisms/gri30/lib/src/spec_rates.c:1433-1442 -/
def spec154 : List CStmt := [
  .set (.arr .spRates 19) (.add (.rd (.arr .spRates 19)) (.sub (.rd (.arr .fwd 154)) (.rd (.arr .rev 153)))),
  .set (.arr .spRates 2) (.add (.rd (.arr .spRates 2)) (.sub (.rd (.arr .fwd 154)) (.rd (.arr .rev 153)))),
  .set (.arr .spRates 3) (.sub (.rd (.arr .spRates 3)) (.sub (.rd (.arr .fwd 154)) (.rd (.arr .rev 153)))),
  .set (.arr .spRates 12) (.sub (.rd (.arr .spRates 12)) (.sub (.rd (.arr .fwd 154)) (.rd (.arr .rev 153))))]

/-- utilities/mechanisms/gri30/lib/src/spec_rates.c:1443-1452 -/
def spec155 : List CStmt := [
  .set (.arr .spRates 17) (.add (.rd (.arr .spRates 17)) (.sub (.rd (.arr .fwd 155)) (.rd (.arr .rev 154)))),
  .set (.arr .spRates 3) (.sub (.rd (.arr .spRates 3)) (.sub (.rd (.arr .fwd 155)) (.rd (.arr .rev 154)))),
  .set (.arr .spRates 12) (.sub (.rd (.arr .spRates 12)) (.sub (.rd (.arr .fwd 155)) (.rd (.arr .rev 154)))),
  .set (.arr .spRates 4) (.add (.rd (.arr .spRates 4)) (.sub (.rd (.arr .fwd 155)) (.rd (.arr .rev 154))))]

/-- utilities/mechanisms/gri30/lib/src/spec_rates.c:1453-1462 -/
def spec156 : List CStmt := [
  .set (.arr .spRates 12) (.sub (.rd (.arr .spRates 12)) (.sub (.rd (.arr .fwd 156)) (.rd (.arr .rev 155)))),
  .set (.arr .spRates 13) (.add (.rd (.arr .spRates 13)) (.sub (.rd (.arr .fwd 156)) (.rd (.arr .rev 155)))),
  .set (.arr .spRates 6) (.add (.rd (.arr .spRates 6)) (.sub (.rd (.arr .fwd 156)) (.rd (.arr .rev 155)))),
  .set (.arr .spRates 7) (.sub (.rd (.arr .spRates 7)) (.sub (.rd (.arr .fwd 156)) (.rd (.arr .rev 155))))]

/-- utilities/mechanisms/gri30/lib/src/spec_rates.c:1463-1468 -/
def spec157 : List CStmt := [
  .set (.arr .spRates 26) (.add (.rd (.arr .spRates 26)) (.mul (.sub (.rd (.arr .fwd 157)) (.rd (.arr .rev 156))) (.rd (.arr .presMod 24)))),
  .set (.arr .spRates 12) (.sub (.rd (.arr .spRates 12)) (.mul (.mul (.num 2 0) (.sub (.rd (.arr .fwd 157)) (.rd (.arr .rev 156)))) (.rd (.arr .presMod 24))))]

/-- utilities/mechanisms/gri30/lib/src/spec_rates.c:1469-1476 -/
def spec158 : List CStmt := [
  .set (.arr .spRates 1) (.add (.rd (.arr .spRates 1)) (.sub (.rd (.arr .fwd 158)) (.rd (.arr .rev 157)))),
  .set (.arr .spRates 12) (.sub (.rd (.arr .spRates 12)) (.mul (.num 2 0) (.sub (.rd (.arr .fwd 158)) (.rd (.arr .rev 157))))),
  .set (.arr .spRates 25) (.add (.rd (.arr .spRates 25)) (.sub (.rd (.arr .fwd 158)) (.rd (.arr .rev 157))))]

/-- utilities/mechanisms/gri30/lib/src/spec_rates.c:1477-1486 -/
def spec159 : List CStmt := [
  .set (.arr .spRates 16) (.sub (.rd (.arr .spRates 16)) (.sub (.rd (.arr .fwd 159)) (.rd (.arr .rev 158)))),
  .set (.arr .spRates 12) (.sub (.rd (.arr .spRates 12)) (.sub (.rd (.arr .fwd 159)) (.rd (.arr .rev 158)))),
  .set (.arr .spRates 13) (.add (.rd (.arr .spRates 13)) (.sub (.rd (.arr .fwd 159)) (.rd (.arr .rev 158)))),
  .set (.arr .spRates 14) (.add (.rd (.arr .spRates 14)) (.sub (.rd (.arr .fwd 159)) (.rd (.arr .rev 158))))]

/-- utilities/mechanisms/gri30/lib/src/spec_rates.c:1487-1496 -/
def spec160 : List CStmt := [
  .set (.arr .spRates 16) (.add (.rd (.arr .spRates 16)) (.sub (.rd (.arr .fwd 160)) (.rd (.arr .rev 159)))),
  .set (.arr .spRates 17) (.sub (.rd (.arr .spRates 17)) (.sub (.rd (.arr .fwd 160)) (.rd (.arr .rev 159)))),
  .set (.arr .spRates 12) (.sub (.rd (.arr .spRates 12)) (.sub (.rd (.arr .fwd 160)) (.rd (.arr .rev 159)))),
  .set (.arr .spRates 13) (.add (.rd (.arr .spRates 13)) (.sub (.rd (.arr .fwd 160)) (.rd (.arr .rev 159))))]

/-- utilities/mechanisms/gri30/lib/src/spec_rates.c:1497-1506 -/
def spec161 : List CStmt := [
  .set (.arr .spRates 12) (.sub (.rd (.arr .spRates 12)) (.sub (.rd (.arr .fwd 161)) (.rd (.arr .rev 160)))),
  .set (.arr .spRates 18) (.add (.rd (.arr .spRates 18)) (.sub (.rd (.arr .fwd 161)) (.rd (.arr .rev 160)))),
  .set (.arr .spRates 20) (.sub (.rd (.arr .spRates 20)) (.sub (.rd (.arr .fwd 161)) (.rd (.arr .rev 160)))),
  .set (.arr .spRates 13) (.add (.rd (.arr .spRates 13)) (.sub (.rd (.arr .fwd 161)) (.rd (.arr .rev 160))))]

/-- utilities/mechanisms/gri30/lib/src/spec_rates.c:1507-1516 -/
def spec162 : List CStmt := [
  .set (.arr .spRates 12) (.sub (.rd (.arr .spRates 12)) (.sub (.rd (.arr .fwd 162)) (.rd (.arr .rev 161)))),
  .set (.arr .spRates 19) (.add (.rd (.arr .spRates 19)) (.sub (.rd (.arr .fwd 162)) (.rd (.arr .rev 161)))),
  .set (.arr .spRates 20) (.sub (.rd (.arr .spRates 20)) (.sub (.rd (.arr .fwd 162)) (.rd (.arr .rev 161)))),
  .set (.arr .spRates 13) (.add (.rd (.arr .spRates 13)) (.sub (.rd (.arr .fwd 162)) (.rd (.arr .rev 161))))]

/-- utilities/mechanisms/gri30/lib/src/spec_rates.c:1517-1526 -/
def spec163 : List CStmt := [
  .set (.arr .spRates 24) (.sub (.rd (.arr .spRates 24)) (.sub (.rd (.arr .fwd 163)) (.rd (.arr .rev 162)))),
  .set (.arr .spRates 12) (.sub (.rd (.arr .spRates 12)) (.sub (.rd (.arr .fwd 163)) (.rd (.arr .rev 162)))),
  .set (.arr .spRates 13) (.add (.rd (.arr .spRates 13)) (.sub (.rd (.arr .fwd 163)) (.rd (.arr .rev 162)))),
  .set (.arr .spRates 23) (.add (.rd (.arr .spRates 23)) (.sub (.rd (.arr .fwd 163)) (.rd (.arr .rev 162))))]

/-- utilities/mechanisms/gri30/lib/src/spec_rates.c:1527-1536 -/
def spec164 : List CStmt := [
  .set (.arr .spRates 25) (.add (.rd (.arr .spRates 25)) (.sub (.rd (.arr .fwd 164)) (.rd (.arr .rev 163)))),
  .set (.arr .spRates 26) (.sub (.rd (.arr .spRates 26)) (.sub (.rd (.arr .fwd 164)) (.rd (.arr .rev 163)))),
  .set (.arr .spRates 12) (.sub (.rd (.arr .spRates 12)) (.sub (.rd (.arr .fwd 164)) (.rd (.arr .rev 163)))),
  .set (.arr .spRates 13) (.add (.rd (.arr .spRates 13)) (.sub (.rd (.arr .fwd 164)) (.rd (.arr .rev 163))))]

/-- utilities/mechanisms/gri30/lib/src/spec_rates.c:1537-1544 -/
def spec165 : List CStmt := [
  .set (.arr .spRates 16) (.sub (.rd (.arr .spRates 16)) (.sub (.rd (.arr .fwd 165)) (.rd (.arr .rev 164)))),
  .set (.arr .spRates 1) (.add (.rd (.arr .spRates 1)) (.sub (.rd (.arr .fwd 165)) (.rd (.arr .rev 164)))),
  .set (.arr .spRates 14) (.add (.rd (.arr .spRates 14)) (.sub (.rd (.arr .fwd 165)) (.rd (.arr .rev 164))))]

/-- utilities/mechanisms/gri30/lib/src/spec_rates.c:1545-1552 -/
def spec166 : List CStmt := [
  .set (.arr .spRates 16) (.sub (.rd (.arr .spRates 16)) (.mul (.sub (.rd (.arr .fwd 166)) (.rd (.arr .rev 165))) (.rd (.arr .presMod 25)))),
  .set (.arr .spRates 1) (.add (.rd (.arr .spRates 1)) (.mul (.sub (.rd (.arr .fwd 166)) (.rd (.arr .rev 165))) (.rd (.arr .presMod 25)))),
  .set (.arr .spRates 14) (.add (.rd (.arr .spRates 14)) (.mul (.sub (.rd (.arr .fwd 166)) (.rd (.arr .rev 165))) (.rd (.arr .presMod 25))))]

/-- utilities/mechanisms/gri30/lib/src/spec_rates.c:1553-1562 -/
def spec167 : List CStmt := [
  .set (.arr .spRates 16) (.sub (.rd (.arr .spRates 16)) (.sub (.rd (.arr .fwd 167)) (.rd (.arr .rev 166)))),
  .set (.arr .spRates 3) (.sub (.rd (.arr .spRates 3)) (.sub (.rd (.arr .fwd 167)) (.rd (.arr .rev 166)))),
  .set (.arr .spRates 6) (.add (.rd (.arr .spRates 6)) (.sub (.rd (.arr .fwd 167)) (.rd (.arr .rev 166)))),
  .set (.arr .spRates 14) (.add (.rd (.arr .spRates 14)) (.sub (.rd (.arr .fwd 167)) (.rd (.arr .rev 166))))]

/-- utilities/mechanisms/gri30/lib/src/spec_rates.c:1563-1572 -/
def spec168 : List CStmt := [
  .set (.arr .spRates 17) (.add (.rd (.arr .spRates 17)) (.sub (.rd (.arr .fwd 168)) (.rd (.arr .rev 167)))),
  .set (.arr .spRates 18) (.sub (.rd (.arr .spRates 18)) (.sub (.rd (.arr .fwd 168)) (.rd (.arr .rev 167)))),
  .set (.arr .spRates 3) (.sub (.rd (.arr .spRates 3)) (.sub (.rd (.arr .fwd 168)) (.rd (.arr .rev 167)))),
  .set (.arr .spRates 6) (.add (.rd (.arr .spRates 6)) (.sub (.rd (.arr .fwd 168)) (.rd (.arr .rev 167))))]

/-- utilities/mechanisms/gri30/lib/src/spec_rates.c:1573-1582 -/
def spec169 : List CStmt := [
  .set (.arr .spRates 3) (.sub (.rd (.arr .spRates 3)) (.sub (.rd (.arr .fwd 169)) (.rd (.arr .rev 168)))),
  .set (.arr .spRates 17) (.add (.rd (.arr .spRates 17)) (.sub (.rd (.arr .fwd 169)) (.rd (.arr .rev 168)))),
  .set (.arr .spRates 19) (.sub (.rd (.arr .spRates 19)) (.sub (.rd (.arr .fwd 169)) (.rd (.arr .rev 168)))),
  .set (.arr .spRates 6) (.add (.rd (.arr .spRates 6)) (.sub (.rd (.arr .fwd 169)) (.rd (.arr .rev 168))))]

/-- utilities/mechanisms/gri30/lib/src/spec_rates.c:1583-1592 -/
def spec170 : List CStmt := [
  .set (.arr .spRates 16) (.add (.rd (.arr .spRates 16)) (.sub (.rd (.arr .fwd 170)) (.rd (.arr .rev 169)))),
  .set (.arr .spRates 3) (.sub (.rd (.arr .spRates 3)) (.sub (.rd (.arr .fwd 170)) (.rd (.arr .rev 169)))),
  .set (.arr .spRates 21) (.sub (.rd (.arr .spRates 21)) (.sub (.rd (.arr .fwd 170)) (.rd (.arr .rev 169)))),
  .set (.arr .spRates 14) (.add (.rd (.arr .spRates 14)) (.sub (.rd (.arr .fwd 170)) (.rd (.arr .rev 169))))]

/-- utilities/mechanisms/gri30/lib/src/spec_rates.c:1593-1602 -/
def spec171 : List CStmt := [
  .set (.arr .spRates 0) (.sub (.rd (.arr .spRates 0)) (.sub (.rd (.arr .fwd 171)) (.rd (.arr .rev 170)))),
  .set (.arr .spRates 1) (.add (.rd (.arr .spRates 1)) (.sub (.rd (.arr .fwd 171)) (.rd (.arr .rev 170)))),
  .set (.arr .spRates 21) (.sub (.rd (.arr .spRates 21)) (.sub (.rd (.arr .fwd 171)) (.rd (.arr .rev 170)))),
  .set (.arr .spRates 22) (.add (.rd (.arr .spRates 22)) (.sub (.rd (.arr .fwd 171)) (.rd (.arr .rev 170))))]

/-- utilities/mechanisms/gri30/lib/src/spec_rates.c:1603-1612 -/
def spec172 : List CStmt := [
  .set (.arr .spRates 16) (.add (.rd (.arr .spRates 16)) (.sub (.rd (.arr .fwd 172)) (.rd (.arr .rev 171)))),
  .set (.arr .spRates 17) (.add (.rd (.arr .spRates 17)) (.sub (.rd (.arr .fwd 172)) (.rd (.arr .rev 171)))),
  .set (.arr .spRates 3) (.sub (.rd (.arr .spRates 3)) (.sub (.rd (.arr .fwd 172)) (.rd (.arr .rev 171)))),
  .set (.arr .spRates 23) (.sub (.rd (.arr .spRates 23)) (.sub (.rd (.arr .fwd 172)) (.rd (.arr .rev 171))))]

/-- utilities/mechanisms/gri30/lib/src/spec_rates.c:1613-1620 -/
def spec173 : List CStmt := [
  .set (.arr .spRates 24) (.sub (.rd (.arr .spRates 24)) (.mul (.sub (.rd (.arr .fwd 173)) (.rd (.arr .rev 172))) (.rd (.arr .presMod 26)))),
  .set (.arr .spRates 0) (.add (.rd (.arr .spRates 0)) (.mul (.sub (.rd (.arr .fwd 173)) (.rd (.arr .rev 172))) (.rd (.arr .presMod 26)))),
  .set (.arr .spRates 22) (.add (.rd (.arr .spRates 22)) (.mul (.sub (.rd (.arr .fwd 173)) (.rd (.arr .rev 172))) (.rd (.arr .presMod 26))))]

/-- utilities/mechanisms/gri30/lib/src/spec_rates.c:1621-1630 -/
def spec174 : List CStmt := [
  .set (.arr .spRates 24) (.add (.rd (.arr .spRates 24)) (.sub (.rd (.arr .fwd 174)) (.rd (.arr .rev 173)))),
  .set (.arr .spRates 25) (.sub (.rd (.arr .spRates 25)) (.sub (.rd (.arr .fwd 174)) (.rd (.arr .rev 173)))),
  .set (.arr .spRates 3) (.sub (.rd (.arr .spRates 3)) (.sub (.rd (.arr .fwd 174)) (.rd (.arr .rev 173)))),
  .set (.arr .spRates 6) (.add (.rd (.arr .spRates 6)) (.sub (.rd (.arr .fwd 174)) (.rd (.arr .rev 173))))]

/-- utilities/mechanisms/gri30/lib/src/spec_rates.c:1631-1640 -/
def spec175 : List CStmt := [
  .set (.arr .spRates 3) (.sub (.rd (.arr .spRates 3)) (.sub (.rd (.arr .fwd 175)) (.rd (.arr .rev 174)))),
  .set (.arr .spRates 27) (.sub (.rd (.arr .spRates 27)) (.sub (.rd (.arr .fwd 175)) (.rd (.arr .rev 174)))),
  .set (.arr .spRates 4) (.add (.rd (.arr .spRates 4)) (.sub (.rd (.arr .fwd 175)) (.rd (.arr .rev 174)))),
  .set (.arr .spRates 14) (.add (.rd (.arr .spRates 14)) (.mul (.num 2 0) (.sub (.rd (.arr .fwd 175)) (.rd (.arr .rev 174)))))]

/-- utilities/mechanisms/gri30/lib/src/spec_rates.c:1641-1648 -/
def spec176 : List CStmt := [
  .set (.arr .spRates 27) (.sub (.rd (.arr .spRates 27)) (.mul (.num 2 0) (.sub (.rd (.arr .fwd 176)) (.rd (.arr .rev 175))))),
  .set (.arr .spRates 22) (.add (.rd (.arr .spRates 22)) (.sub (.rd (.arr .fwd 176)) (.rd (.arr .rev 175)))),
  .set (.arr .spRates 14) (.add (.rd (.arr .spRates 14)) (.mul (.num 2 0) (.sub (.rd (.arr .fwd 176)) (.rd (.arr .rev 175)))))]

/-- utilities/mechanisms/gri30/lib/src/spec_rates.c:1649-1658 -/
def spec177 : List CStmt := [
  .set (.arr .spRates 2) (.add (.rd (.arr .spRates 2)) (.sub (.rd (.arr .fwd 177)) (.rd (.arr .rev 176)))),
  .set (.arr .spRates 35) (.neg (.sub (.rd (.arr .fwd 177)) (.rd (.arr .rev 176)))),
  .set (.var .dyN) (.sub (.rd (.arr .fwd 177)) (.rd (.arr .rev 176))),
  .set (.arr .spRates 30) (.neg (.sub (.rd (.arr .fwd 177)) (.rd (.arr .rev 176))))]

/-- utilities/mechanisms/gri30/lib/src/spec_rates.c:1659-1668 -/
def spec178 : List CStmt := [
  .set (.arr .spRates 35) (.add (.rd (.arr .spRates 35)) (.sub (.rd (.arr .fwd 178)) (.rd (.arr .rev 177)))),
  .set (.arr .spRates 2) (.add (.rd (.arr .spRates 2)) (.sub (.rd (.arr .fwd 178)) (.rd (.arr .rev 177)))),
  .set (.arr .spRates 3) (.sub (.rd (.arr .spRates 3)) (.sub (.rd (.arr .fwd 178)) (.rd (.arr .rev 177)))),
  .set (.arr .spRates 30) (.sub (.rd (.arr .spRates 30)) (.sub (.rd (.arr .fwd 178)) (.rd (.arr .rev 177))))]

/-- utilities/mechanisms/gri30/lib/src/spec_rates.c:1669-1678 -/
def spec179 : List CStmt := [
  .set (.arr .spRates 1) (.add (.rd (.arr .spRates 1)) (.sub (.rd (.arr .fwd 179)) (.rd (.arr .rev 178)))),
  .set (.arr .spRates 35) (.add (.rd (.arr .spRates 35)) (.sub (.rd (.arr .fwd 179)) (.rd (.arr .rev 178)))),
  .set (.arr .spRates 4) (.sub (.rd (.arr .spRates 4)) (.sub (.rd (.arr .fwd 179)) (.rd (.arr .rev 178)))),
  .set (.arr .spRates 30) (.sub (.rd (.arr .spRates 30)) (.sub (.rd (.arr .fwd 179)) (.rd (.arr .rev 178))))]

/-- utilities/mechanisms/gri30/lib/src/spec_rates.c:1679-1688 -/
def spec180 : List CStmt := [
  .set (.arr .spRates 2) (.sub (.rd (.arr .spRates 2)) (.sub (.rd (.arr .fwd 180)) (.rd (.arr .rev 179)))),
  .set (.arr .spRates 3) (.add (.rd (.arr .spRates 3)) (.sub (.rd (.arr .fwd 180)) (.rd (.arr .rev 179)))),
  .set (.var .dyN) (.add (.rd (.var .dyN)) (.sub (.rd (.arr .fwd 180)) (.rd (.arr .rev 179)))),
  .set (.arr .spRates 37) (.neg (.sub (.rd (.arr .fwd 180)) (.rd (.arr .rev 179))))]

/-- utilities/mechanisms/gri30/lib/src/spec_rates.c:1689-1696 -/
def spec181 : List CStmt := [
  .set (.arr .spRates 2) (.sub (.rd (.arr .spRates 2)) (.sub (.rd (.arr .fwd 181)) (.rd (.arr .rev 180)))),
  .set (.arr .spRates 35) (.add (.rd (.arr .spRates 35)) (.mul (.num 2 0) (.sub (.rd (.arr .fwd 181)) (.rd (.arr .rev 180))))),
  .set (.arr .spRates 37) (.sub (.rd (.arr .spRates 37)) (.sub (.rd (.arr .fwd 181)) (.rd (.arr .rev 180))))]

/-- utilities/mechanisms/gri30/lib/src/spec_rates.c:1697-1706 -/
def spec182 : List CStmt := [
  .set (.arr .spRates 1) (.sub (.rd (.arr .spRates 1)) (.sub (.rd (.arr .fwd 182)) (.rd (.arr .rev 181)))),
  .set (.var .dyN) (.add (.rd (.var .dyN)) (.sub (.rd (.arr .fwd 182)) (.rd (.arr .rev 181)))),
  .set (.arr .spRates 37) (.sub (.rd (.arr .spRates 37)) (.sub (.rd (.arr .fwd 182)) (.rd (.arr .rev 181)))),
  .set (.arr .spRates 4) (.add (.rd (.arr .spRates 4)) (.sub (.rd (.arr .fwd 182)) (.rd (.arr .rev 181))))]

/-- utilities/mechanisms/gri30/lib/src/spec_rates.c:1707-1716 -/
def spec183 : List CStmt := [
  .set (.var .dyN) (.add (.rd (.var .dyN)) (.sub (.rd (.arr .fwd 183)) (.rd (.arr .rev 182)))),
  .set (.arr .spRates 4) (.sub (.rd (.arr .spRates 4)) (.sub (.rd (.arr .fwd 183)) (.rd (.arr .rev 182)))),
  .set (.arr .spRates 37) (.sub (.rd (.arr .spRates 37)) (.sub (.rd (.arr .fwd 183)) (.rd (.arr .rev 182)))),
  .set (.arr .spRates 6) (.add (.rd (.arr .spRates 6)) (.sub (.rd (.arr .fwd 183)) (.rd (.arr .rev 182))))]

/-- utilities/mechanisms/gri30/lib/src/spec_rates.c:1717-1724 -/
def spec184 : List CStmt := [
  .set (.arr .spRates 2) (.add (.rd (.arr .spRates 2)) (.mul (.sub (.rd (.arr .fwd 184)) (.rd (.arr .rev 183))) (.rd (.arr .presMod 27)))),
  .set (.var .dyN) (.add (.rd (.var .dyN)) (.mul (.sub (.rd (.arr .fwd 184)) (.rd (.arr .rev 183))) (.rd (.arr .presMod 27)))),
  .set (.arr .spRates 37) (.sub (.rd (.arr .spRates 37)) (.mul (.sub (.rd (.arr .fwd 184)) (.rd (.arr .rev 183))) (.rd (.arr .presMod 27))))]

/-- utilities/mechanisms/gri30/lib/src/spec_rates.c:1725-1734 -/
def spec185 : List CStmt := [
  .set (.arr .spRates 4) (.add (.rd (.arr .spRates 4)) (.sub (.rd (.arr .fwd 185)) (.rd (.arr .rev 184)))),
  .set (.arr .spRates 35) (.sub (.rd (.arr .spRates 35)) (.sub (.rd (.arr .fwd 185)) (.rd (.arr .rev 184)))),
  .set (.arr .spRates 36) (.sub (.rd (.arr .fwd 185)) (.rd (.arr .rev 184))),
  .set (.arr .spRates 6) (.sub (.rd (.arr .spRates 6)) (.sub (.rd (.arr .fwd 185)) (.rd (.arr .rev 184))))]

/-- utilities/mechanisms/gri30/lib/src/spec_rates.c:1735-1742 -/
def spec186 : List CStmt := [
  .set (.arr .spRates 2) (.sub (.rd (.arr .spRates 2)) (.mul (.sub (.rd (.arr .fwd 186)) (.rd (.arr .rev 185))) (.rd (.arr .presMod 28)))),
  .set (.arr .spRates 35) (.sub (.rd (.arr .spRates 35)) (.mul (.sub (.rd (.arr .fwd 186)) (.rd (.arr .rev 185))) (.rd (.arr .presMod 28)))),
  .set (.arr .spRates 36) (.add (.rd (.arr .spRates 36)) (.mul (.sub (.rd (.arr .fwd 186)) (.rd (.arr .rev 185))) (.rd (.arr .presMod 28))))]

/-- utilities/mechanisms/gri30/lib/src/spec_rates.c:1743-1752 -/
def spec187 : List CStmt := [
  .set (.arr .spRates 35) (.add (.rd (.arr .spRates 35)) (.sub (.rd (.arr .fwd 187)) (.rd (.arr .rev 186)))),
  .set (.arr .spRates 2) (.sub (.rd (.arr .spRates 2)) (.sub (.rd (.arr .fwd 187)) (.rd (.arr .rev 186)))),
  .set (.arr .spRates 3) (.add (.rd (.arr .spRates 3)) (.sub (.rd (.arr .fwd 187)) (.rd (.arr .rev 186)))),
  .set (.arr .spRates 36) (.sub (.rd (.arr .spRates 36)) (.sub (.rd (.arr .fwd 187)) (.rd (.arr .rev 186))))]

/-- utilities/mechanisms/gri30/lib/src/spec_rates.c:1753-1762 -/
def spec188 : List CStmt := [
  .set (.arr .spRates 1) (.sub (.rd (.arr .spRates 1)) (.sub (.rd (.arr .fwd 188)) (.rd (.arr .rev 187)))),
  .set (.arr .spRates 35) (.add (.rd (.arr .spRates 35)) (.sub (.rd (.arr .fwd 188)) (.rd (.arr .rev 187)))),
  .set (.arr .spRates 36) (.sub (.rd (.arr .spRates 36)) (.sub (.rd (.arr .fwd 188)) (.rd (.arr .rev 187)))),
  .set (.arr .spRates 4) (.add (.rd (.arr .spRates 4)) (.sub (.rd (.arr .fwd 188)) (.rd (.arr .rev 187))))]

/-- utilities/mechanisms/gri30/lib/src/spec_rates.c:1763-1772 -/
def spec189 : List CStmt := [
  .set (.arr .spRates 1) (.add (.rd (.arr .spRates 1)) (.sub (.rd (.arr .fwd 189)) (.rd (.arr .rev 188)))),
  .set (.arr .spRates 2) (.sub (.rd (.arr .spRates 2)) (.sub (.rd (.arr .fwd 189)) (.rd (.arr .rev 188)))),
  .set (.arr .spRates 35) (.add (.rd (.arr .spRates 35)) (.sub (.rd (.arr .fwd 189)) (.rd (.arr .rev 188)))),
  .set (.arr .spRates 31) (.neg (.sub (.rd (.arr .fwd 189)) (.rd (.arr .rev 188))))]

/-- utilities/mechanisms/gri30/lib/src/spec_rates.c:1773-1782 -/
def spec190 : List CStmt := [
  .set (.arr .spRates 0) (.add (.rd (.arr .spRates 0)) (.sub (.rd (.arr .fwd 190)) (.rd (.arr .rev 189)))),
  .set (.arr .spRates 1) (.sub (.rd (.arr .spRates 1)) (.sub (.rd (.arr .fwd 190)) (.rd (.arr .rev 189)))),
  .set (.arr .spRates 30) (.add (.rd (.arr .spRates 30)) (.sub (.rd (.arr .fwd 190)) (.rd (.arr .rev 189)))),
  .set (.arr .spRates 31) (.sub (.rd (.arr .spRates 31)) (.sub (.rd (.arr .fwd 190)) (.rd (.arr .rev 189))))]

/-- utilities/mechanisms/gri30/lib/src/spec_rates.c:1783-1792 -/
def spec191 : List CStmt := [
  .set (.arr .spRates 1) (.add (.rd (.arr .spRates 1)) (.sub (.rd (.arr .fwd 191)) (.rd (.arr .rev 190)))),
  .set (.arr .spRates 4) (.sub (.rd (.arr .spRates 4)) (.sub (.rd (.arr .fwd 191)) (.rd (.arr .rev 190)))),
  .set (.arr .spRates 38) (.sub (.rd (.arr .fwd 191)) (.rd (.arr .rev 190))),
  .set (.arr .spRates 31) (.sub (.rd (.arr .spRates 31)) (.sub (.rd (.arr .fwd 191)) (.rd (.arr .rev 190))))]

/-- utilities/mechanisms/gri30/lib/src/spec_rates.c:1793-1802 -/
def spec192 : List CStmt := [
  .set (.arr .spRates 4) (.sub (.rd (.arr .spRates 4)) (.sub (.rd (.arr .fwd 192)) (.rd (.arr .rev 191)))),
  .set (.arr .spRates 5) (.add (.rd (.arr .spRates 5)) (.sub (.rd (.arr .fwd 192)) (.rd (.arr .rev 191)))),
  .set (.arr .spRates 30) (.add (.rd (.arr .spRates 30)) (.sub (.rd (.arr .fwd 192)) (.rd (.arr .rev 191)))),
  .set (.arr .spRates 31) (.sub (.rd (.arr .spRates 31)) (.sub (.rd (.arr .fwd 192)) (.rd (.arr .rev 191))))]

/-- utilities/mechanisms/gri30/lib/src/spec_rates.c:1803-1812 -/
def spec193 : List CStmt := [
  .set (.arr .spRates 2) (.add (.rd (.arr .spRates 2)) (.sub (.rd (.arr .fwd 193)) (.rd (.arr .rev 192)))),
  .set (.arr .spRates 3) (.sub (.rd (.arr .spRates 3)) (.sub (.rd (.arr .fwd 193)) (.rd (.arr .rev 192)))),
  .set (.arr .spRates 38) (.add (.rd (.arr .spRates 38)) (.sub (.rd (.arr .fwd 193)) (.rd (.arr .rev 192)))),
  .set (.arr .spRates 31) (.sub (.rd (.arr .spRates 31)) (.sub (.rd (.arr .fwd 193)) (.rd (.arr .rev 192))))]

/-- utilities/mechanisms/gri30/lib/src/spec_rates.c:1813-1822 -/
def spec194 : List CStmt := [
  .set (.arr .spRates 35) (.add (.rd (.arr .spRates 35)) (.sub (.rd (.arr .fwd 194)) (.rd (.arr .rev 193)))),
  .set (.arr .spRates 3) (.sub (.rd (.arr .spRates 3)) (.sub (.rd (.arr .fwd 194)) (.rd (.arr .rev 193)))),
  .set (.arr .spRates 4) (.add (.rd (.arr .spRates 4)) (.sub (.rd (.arr .fwd 194)) (.rd (.arr .rev 193)))),
  .set (.arr .spRates 31) (.sub (.rd (.arr .spRates 31)) (.sub (.rd (.arr .fwd 194)) (.rd (.arr .rev 193))))]

/-- utilities/mechanisms/gri30/lib/src/spec_rates.c:1823-1832 -/
def spec195 : List CStmt := [
  .set (.arr .spRates 1) (.add (.rd (.arr .spRates 1)) (.sub (.rd (.arr .fwd 195)) (.rd (.arr .rev 194)))),
  .set (.var .dyN) (.add (.rd (.var .dyN)) (.sub (.rd (.arr .fwd 195)) (.rd (.arr .rev 194)))),
  .set (.arr .spRates 30) (.sub (.rd (.arr .spRates 30)) (.sub (.rd (.arr .fwd 195)) (.rd (.arr .rev 194)))),
  .set (.arr .spRates 31) (.sub (.rd (.arr .spRates 31)) (.sub (.rd (.arr .fwd 195)) (.rd (.arr .rev 194))))]

/-- utilities/mechanisms/gri30/lib/src/spec_rates.c:1833-1842 -/
def spec196 : List CStmt := [
  .set (.arr .spRates 0) (.add (.rd (.arr .spRates 0)) (.sub (.rd (.arr .fwd 196)) (.rd (.arr .rev 195)))),
  .set (.arr .spRates 5) (.sub (.rd (.arr .spRates 5)) (.sub (.rd (.arr .fwd 196)) (.rd (.arr .rev 195)))),
  .set (.arr .spRates 38) (.add (.rd (.arr .spRates 38)) (.sub (.rd (.arr .fwd 196)) (.rd (.arr .rev 195)))),
  .set (.arr .spRates 31) (.sub (.rd (.arr .spRates 31)) (.sub (.rd (.arr .fwd 196)) (.rd (.arr .rev 195))))]

/-- utilities/mechanisms/gri30/lib/src/spec_rates.c:1843-1852 -/
def spec197 : List CStmt := [
  .set (.arr .spRates 4) (.add (.rd (.arr .spRates 4)) (.sub (.rd (.arr .fwd 197)) (.rd (.arr .rev 196)))),
  .set (.arr .spRates 35) (.sub (.rd (.arr .spRates 35)) (.sub (.rd (.arr .fwd 197)) (.rd (.arr .rev 196)))),
  .set (.var .dyN) (.add (.rd (.var .dyN)) (.sub (.rd (.arr .fwd 197)) (.rd (.arr .rev 196)))),
  .set (.arr .spRates 31) (.sub (.rd (.arr .spRates 31)) (.sub (.rd (.arr .fwd 197)) (.rd (.arr .rev 196))))]

/-- utilities/mechanisms/gri30/lib/src/spec_rates.c:1853-1862 -/
def spec198 : List CStmt := [
  .set (.arr .spRates 1) (.add (.rd (.arr .spRates 1)) (.sub (.rd (.arr .fwd 198)) (.rd (.arr .rev 197)))),
  .set (.arr .spRates 35) (.sub (.rd (.arr .spRates 35)) (.sub (.rd (.arr .fwd 198)) (.rd (.arr .rev 197)))),
  .set (.arr .spRates 37) (.add (.rd (.arr .spRates 37)) (.sub (.rd (.arr .fwd 198)) (.rd (.arr .rev 197)))),
  .set (.arr .spRates 31) (.sub (.rd (.arr .spRates 31)) (.sub (.rd (.arr .fwd 198)) (.rd (.arr .rev 197))))]

/-- utilities/mechanisms/gri30/lib/src/spec_rates.c:1863-1872 -/
def spec199 : List CStmt := [
  .set (.arr .spRates 32) (.neg (.sub (.rd (.arr .fwd 199)) (.rd (.arr .rev 198)))),
  .set (.arr .spRates 2) (.sub (.rd (.arr .spRates 2)) (.sub (.rd (.arr .fwd 199)) (.rd (.arr .rev 198)))),
  .set (.arr .spRates 4) (.add (.rd (.arr .spRates 4)) (.sub (.rd (.arr .fwd 199)) (.rd (.arr .rev 198)))),
  .set (.arr .spRates 31) (.add (.rd (.arr .spRates 31)) (.sub (.rd (.arr .fwd 199)) (.rd (.arr .rev 198))))]

/-- utilities/mechanisms/gri30/lib/src/spec_rates.c:1873-1882 -/
def spec200 : List CStmt := [
  .set (.arr .spRates 32) (.sub (.rd (.arr .spRates 32)) (.sub (.rd (.arr .fwd 200)) (.rd (.arr .rev 199)))),
  .set (.arr .spRates 1) (.add (.rd (.arr .spRates 1)) (.sub (.rd (.arr .fwd 200)) (.rd (.arr .rev 199)))),
  .set (.arr .spRates 2) (.sub (.rd (.arr .spRates 2)) (.sub (.rd (.arr .fwd 200)) (.rd (.arr .rev 199)))),
  .set (.arr .spRates 38) (.add (.rd (.arr .spRates 38)) (.sub (.rd (.arr .fwd 200)) (.rd (.arr .rev 199))))]

/-- utilities/mechanisms/gri30/lib/src/spec_rates.c:1883-1892 -/
def spec201 : List CStmt := [
  .set (.arr .spRates 32) (.sub (.rd (.arr .spRates 32)) (.sub (.rd (.arr .fwd 201)) (.rd (.arr .rev 200)))),
  .set (.arr .spRates 1) (.sub (.rd (.arr .spRates 1)) (.sub (.rd (.arr .fwd 201)) (.rd (.arr .rev 200)))),
  .set (.arr .spRates 0) (.add (.rd (.arr .spRates 0)) (.sub (.rd (.arr .fwd 201)) (.rd (.arr .rev 200)))),
  .set (.arr .spRates 31) (.add (.rd (.arr .spRates 31)) (.sub (.rd (.arr .fwd 201)) (.rd (.arr .rev 200))))]

/-- utilities/mechanisms/gri30/lib/src/spec_rates.c:1893-1902 -/
def spec202 : List CStmt := [
  .set (.arr .spRates 32) (.sub (.rd (.arr .spRates 32)) (.sub (.rd (.arr .fwd 202)) (.rd (.arr .rev 201)))),
  .set (.arr .spRates 4) (.sub (.rd (.arr .spRates 4)) (.sub (.rd (.arr .fwd 202)) (.rd (.arr .rev 201)))),
  .set (.arr .spRates 5) (.add (.rd (.arr .spRates 5)) (.sub (.rd (.arr .fwd 202)) (.rd (.arr .rev 201)))),
  .set (.arr .spRates 31) (.add (.rd (.arr .spRates 31)) (.sub (.rd (.arr .fwd 202)) (.rd (.arr .rev 201))))]

/-- utilities/mechanisms/gri30/lib/src/spec_rates.c:1903-1910 -/
def spec203 : List CStmt := [
  .set (.arr .spRates 1) (.add (.rd (.arr .spRates 1)) (.sub (.rd (.arr .fwd 203)) (.rd (.arr .rev 202)))),
  .set (.arr .spRates 34) (.neg (.sub (.rd (.arr .fwd 203)) (.rd (.arr .rev 202)))),
  .set (.var .dyN) (.add (.rd (.var .dyN)) (.sub (.rd (.arr .fwd 203)) (.rd (.arr .rev 202))))]

/-- utilities/mechanisms/gri30/lib/src/spec_rates.c:1911-1918 -/
def spec204 : List CStmt := [
  .set (.arr .spRates 1) (.add (.rd (.arr .spRates 1)) (.mul (.sub (.rd (.arr .fwd 204)) (.rd (.arr .rev 203))) (.rd (.arr .presMod 29)))),
  .set (.arr .spRates 34) (.sub (.rd (.arr .spRates 34)) (.mul (.sub (.rd (.arr .fwd 204)) (.rd (.arr .rev 203))) (.rd (.arr .presMod 29)))),
  .set (.var .dyN) (.add (.rd (.var .dyN)) (.mul (.sub (.rd (.arr .fwd 204)) (.rd (.arr .rev 203))) (.rd (.arr .presMod 29))))]

/-- utilities/mechanisms/gri30/lib/src/spec_rates.c:1919-1928 -/
def spec205 : List CStmt := [
  .set (.arr .spRates 34) (.sub (.rd (.arr .spRates 34)) (.sub (.rd (.arr .fwd 205)) (.rd (.arr .rev 204)))),
  .set (.arr .spRates 3) (.sub (.rd (.arr .spRates 3)) (.sub (.rd (.arr .fwd 205)) (.rd (.arr .rev 204)))),
  .set (.var .dyN) (.add (.rd (.var .dyN)) (.sub (.rd (.arr .fwd 205)) (.rd (.arr .rev 204)))),
  .set (.arr .spRates 6) (.add (.rd (.arr .spRates 6)) (.sub (.rd (.arr .fwd 205)) (.rd (.arr .rev 204))))]

/-- utilities/mechanisms/gri30/lib/src/spec_rates.c:1929-1938 -/
def spec206 : List CStmt := [
  .set (.arr .spRates 4) (.add (.rd (.arr .spRates 4)) (.sub (.rd (.arr .fwd 206)) (.rd (.arr .rev 205)))),
  .set (.arr .spRates 2) (.sub (.rd (.arr .spRates 2)) (.sub (.rd (.arr .fwd 206)) (.rd (.arr .rev 205)))),
  .set (.var .dyN) (.add (.rd (.var .dyN)) (.sub (.rd (.arr .fwd 206)) (.rd (.arr .rev 205)))),
  .set (.arr .spRates 34) (.sub (.rd (.arr .spRates 34)) (.sub (.rd (.arr .fwd 206)) (.rd (.arr .rev 205))))]

/-- utilities/mechanisms/gri30/lib/src/spec_rates.c:1939-1948 -/
def spec207 : List CStmt := [
  .set (.arr .spRates 2) (.sub (.rd (.arr .spRates 2)) (.sub (.rd (.arr .fwd 207)) (.rd (.arr .rev 206)))),
  .set (.arr .spRates 35) (.add (.rd (.arr .spRates 35)) (.sub (.rd (.arr .fwd 207)) (.rd (.arr .rev 206)))),
  .set (.arr .spRates 34) (.sub (.rd (.arr .spRates 34)) (.sub (.rd (.arr .fwd 207)) (.rd (.arr .rev 206)))),
  .set (.arr .spRates 31) (.add (.rd (.arr .spRates 31)) (.sub (.rd (.arr .fwd 207)) (.rd (.arr .rev 206))))]

/-- utilities/mechanisms/gri30/lib/src/spec_rates.c:1949-1958 -/
def spec208 : List CStmt := [
  .set (.arr .spRates 0) (.add (.rd (.arr .spRates 0)) (.sub (.rd (.arr .fwd 208)) (.rd (.arr .rev 207)))),
  .set (.arr .spRates 1) (.sub (.rd (.arr .spRates 1)) (.sub (.rd (.arr .fwd 208)) (.rd (.arr .rev 207)))),
  .set (.arr .spRates 34) (.sub (.rd (.arr .spRates 34)) (.sub (.rd (.arr .fwd 208)) (.rd (.arr .rev 207)))),
  .set (.var .dyN) (.add (.rd (.var .dyN)) (.sub (.rd (.arr .fwd 208)) (.rd (.arr .rev 207))))]

/-- utilities/mechanisms/gri30/lib/src/spec_rates.c:1959-1968 -/
def spec209 : List CStmt := [
  .set (.var .dyN) (.add (.rd (.var .dyN)) (.sub (.rd (.arr .fwd 209)) (.rd (.arr .rev 208)))),
  .set (.arr .spRates 34) (.sub (.rd (.arr .spRates 34)) (.sub (.rd (.arr .fwd 209)) (.rd (.arr .rev 208)))),
  .set (.arr .spRates 4) (.sub (.rd (.arr .spRates 4)) (.sub (.rd (.arr .fwd 209)) (.rd (.arr .rev 208)))),
  .set (.arr .spRates 5) (.add (.rd (.arr .spRates 5)) (.sub (.rd (.arr .fwd 209)) (.rd (.arr .rev 208))))]

/-- utilities/mechanisms/gri30/lib/src/spec_rates.c:1969-1978 -/
def spec210 : List CStmt := [
  .set (.var .dyN) (.add (.rd (.var .dyN)) (.sub (.rd (.arr .fwd 210)) (.rd (.arr .rev 209)))),
  .set (.arr .spRates 34) (.sub (.rd (.arr .spRates 34)) (.sub (.rd (.arr .fwd 210)) (.rd (.arr .rev 209)))),
  .set (.arr .spRates 12) (.sub (.rd (.arr .spRates 12)) (.sub (.rd (.arr .fwd 210)) (.rd (.arr .rev 209)))),
  .set (.arr .spRates 13) (.add (.rd (.arr .spRates 13)) (.sub (.rd (.arr .fwd 210)) (.rd (.arr .rev 209))))]

/-- utilities/mechanisms/gri30/lib/src/spec_rates.c:1979-1986 -/
def spec211 : List CStmt := [
  .set (.arr .spRates 1) (.sub (.rd (.arr .spRates 1)) (.mul (.sub (.rd (.arr .fwd 211)) (.rd (.arr .rev 210))) (.rd (.arr .presMod 30)))),
  .set (.arr .spRates 35) (.sub (.rd (.arr .spRates 35)) (.mul (.sub (.rd (.arr .fwd 211)) (.rd (.arr .rev 210))) (.rd (.arr .presMod 30)))),
  .set (.arr .spRates 38) (.add (.rd (.arr .spRates 38)) (.mul (.sub (.rd (.arr .fwd 211)) (.rd (.arr .rev 210))) (.rd (.arr .presMod 30))))]

/-- utilities/mechanisms/gri30/lib/src/spec_rates.c:1987-1996 -/
def spec212 : List CStmt := [
  .set (.arr .spRates 2) (.sub (.rd (.arr .spRates 2)) (.sub (.rd (.arr .fwd 212)) (.rd (.arr .rev 211)))),
  .set (.arr .spRates 35) (.add (.rd (.arr .spRates 35)) (.sub (.rd (.arr .fwd 212)) (.rd (.arr .rev 211)))),
  .set (.arr .spRates 4) (.add (.rd (.arr .spRates 4)) (.sub (.rd (.arr .fwd 212)) (.rd (.arr .rev 211)))),
  .set (.arr .spRates 38) (.sub (.rd (.arr .spRates 38)) (.sub (.rd (.arr .fwd 212)) (.rd (.arr .rev 211))))]

/-- utilities/mechanisms/gri30/lib/src/spec_rates.c:1997-2006 -/
def spec213 : List CStmt := [
  .set (.arr .spRates 0) (.add (.rd (.arr .spRates 0)) (.sub (.rd (.arr .fwd 213)) (.rd (.arr .rev 212)))),
  .set (.arr .spRates 1) (.sub (.rd (.arr .spRates 1)) (.sub (.rd (.arr .fwd 213)) (.rd (.arr .rev 212)))),
  .set (.arr .spRates 35) (.add (.rd (.arr .spRates 35)) (.sub (.rd (.arr .fwd 213)) (.rd (.arr .rev 212)))),
  .set (.arr .spRates 38) (.sub (.rd (.arr .spRates 38)) (.sub (.rd (.arr .fwd 213)) (.rd (.arr .rev 212))))]

/-- utilities/mechanisms/gri30/lib/src/spec_rates.c:2007-2016 -/
def spec214 : List CStmt := [
  .set (.arr .spRates 35) (.add (.rd (.arr .spRates 35)) (.sub (.rd (.arr .fwd 214)) (.rd (.arr .rev 213)))),
  .set (.arr .spRates 4) (.sub (.rd (.arr .spRates 4)) (.sub (.rd (.arr .fwd 214)) (.rd (.arr .rev 213)))),
  .set (.arr .spRates 5) (.add (.rd (.arr .spRates 5)) (.sub (.rd (.arr .fwd 214)) (.rd (.arr .rev 213)))),
  .set (.arr .spRates 38) (.sub (.rd (.arr .spRates 38)) (.sub (.rd (.arr .fwd 214)) (.rd (.arr .rev 213))))]

/-- utilities/mechanisms/gri30/lib/src/spec_rates.c:2017-2026 -/
def spec215 : List CStmt := [
  .set (.arr .spRates 35) (.add (.rd (.arr .spRates 35)) (.sub (.rd (.arr .fwd 215)) (.rd (.arr .rev 214)))),
  .set (.arr .spRates 3) (.sub (.rd (.arr .spRates 3)) (.sub (.rd (.arr .fwd 215)) (.rd (.arr .rev 214)))),
  .set (.arr .spRates 6) (.add (.rd (.arr .spRates 6)) (.sub (.rd (.arr .fwd 215)) (.rd (.arr .rev 214)))),
  .set (.arr .spRates 38) (.sub (.rd (.arr .spRates 38)) (.sub (.rd (.arr .fwd 215)) (.rd (.arr .rev 214))))]

/-- utilities/mechanisms/gri30/lib/src/spec_rates.c:2027-2036 -/
def spec216 : List CStmt := [
  .set (.arr .spRates 2) (.sub (.rd (.arr .spRates 2)) (.sub (.rd (.arr .fwd 216)) (.rd (.arr .rev 215)))),
  .set (.arr .spRates 30) (.add (.rd (.arr .spRates 30)) (.sub (.rd (.arr .fwd 216)) (.rd (.arr .rev 215)))),
  .set (.arr .spRates 14) (.add (.rd (.arr .spRates 14)) (.sub (.rd (.arr .fwd 216)) (.rd (.arr .rev 215)))),
  .set (.arr .spRates 39) (.neg (.sub (.rd (.arr .fwd 216)) (.rd (.arr .rev 215))))]

/-- utilities/mechanisms/gri30/lib/src/spec_rates.c:2037-2046 -/
def spec217 : List CStmt := [
  .set (.arr .spRates 1) (.add (.rd (.arr .spRates 1)) (.sub (.rd (.arr .fwd 217)) (.rd (.arr .rev 216)))),
  .set (.arr .spRates 4) (.sub (.rd (.arr .spRates 4)) (.sub (.rd (.arr .fwd 217)) (.rd (.arr .rev 216)))),
  .set (.arr .spRates 46) (.sub (.rd (.arr .fwd 217)) (.rd (.arr .rev 216))),
  .set (.arr .spRates 39) (.sub (.rd (.arr .spRates 39)) (.sub (.rd (.arr .fwd 217)) (.rd (.arr .rev 216))))]

/-- utilities/mechanisms/gri30/lib/src/spec_rates.c:2047-2056 -/
def spec218 : List CStmt := [
  .set (.arr .spRates 40) (.sub (.rd (.arr .fwd 218)) (.rd (.arr .rev 217))),
  .set (.arr .spRates 4) (.add (.rd (.arr .spRates 4)) (.sub (.rd (.arr .fwd 218)) (.rd (.arr .rev 217)))),
  .set (.arr .spRates 5) (.sub (.rd (.arr .spRates 5)) (.sub (.rd (.arr .fwd 218)) (.rd (.arr .rev 217)))),
  .set (.arr .spRates 39) (.sub (.rd (.arr .spRates 39)) (.sub (.rd (.arr .fwd 218)) (.rd (.arr .rev 217))))]

/-- utilities/mechanisms/gri30/lib/src/spec_rates.c:2057-2066 -/
def spec219 : List CStmt := [
  .set (.arr .spRates 2) (.add (.rd (.arr .spRates 2)) (.sub (.rd (.arr .fwd 219)) (.rd (.arr .rev 218)))),
  .set (.arr .spRates 3) (.sub (.rd (.arr .spRates 3)) (.sub (.rd (.arr .fwd 219)) (.rd (.arr .rev 218)))),
  .set (.arr .spRates 46) (.add (.rd (.arr .spRates 46)) (.sub (.rd (.arr .fwd 219)) (.rd (.arr .rev 218)))),
  .set (.arr .spRates 39) (.sub (.rd (.arr .spRates 39)) (.sub (.rd (.arr .fwd 219)) (.rd (.arr .rev 218))))]

/-- utilities/mechanisms/gri30/lib/src/spec_rates.c:2067-2076 -/
def spec220 : List CStmt := [
  .set (.arr .spRates 0) (.sub (.rd (.arr .spRates 0)) (.sub (.rd (.arr .fwd 220)) (.rd (.arr .rev 219)))),
  .set (.arr .spRates 1) (.add (.rd (.arr .spRates 1)) (.sub (.rd (.arr .fwd 220)) (.rd (.arr .rev 219)))),
  .set (.arr .spRates 40) (.add (.rd (.arr .spRates 40)) (.sub (.rd (.arr .fwd 220)) (.rd (.arr .rev 219)))),
  .set (.arr .spRates 39) (.sub (.rd (.arr .spRates 39)) (.sub (.rd (.arr .fwd 220)) (.rd (.arr .rev 219))))]

/-- utilities/mechanisms/gri30/lib/src/spec_rates.c:2077-2086 -/
def spec221 : List CStmt := [
  .set (.arr .spRates 2) (.sub (.rd (.arr .spRates 2)) (.sub (.rd (.arr .fwd 221)) (.rd (.arr .rev 220)))),
  .set (.arr .spRates 35) (.add (.rd (.arr .spRates 35)) (.sub (.rd (.arr .fwd 221)) (.rd (.arr .rev 220)))),
  .set (.arr .spRates 14) (.add (.rd (.arr .spRates 14)) (.sub (.rd (.arr .fwd 221)) (.rd (.arr .rev 220)))),
  .set (.arr .spRates 46) (.sub (.rd (.arr .spRates 46)) (.sub (.rd (.arr .fwd 221)) (.rd (.arr .rev 220))))]

/-- utilities/mechanisms/gri30/lib/src/spec_rates.c:2087-2096 -/
def spec222 : List CStmt := [
  .set (.arr .spRates 1) (.sub (.rd (.arr .spRates 1)) (.sub (.rd (.arr .fwd 222)) (.rd (.arr .rev 221)))),
  .set (.arr .spRates 14) (.add (.rd (.arr .spRates 14)) (.sub (.rd (.arr .fwd 222)) (.rd (.arr .rev 221)))),
  .set (.arr .spRates 46) (.sub (.rd (.arr .spRates 46)) (.sub (.rd (.arr .fwd 222)) (.rd (.arr .rev 221)))),
  .set (.arr .spRates 31) (.add (.rd (.arr .spRates 31)) (.sub (.rd (.arr .fwd 222)) (.rd (.arr .rev 221))))]

/-- utilities/mechanisms/gri30/lib/src/spec_rates.c:2097-2108 -/
def spec223 : List CStmt := [
  .set (.arr .spRates 1) (.add (.rd (.arr .spRates 1)) (.sub (.rd (.arr .fwd 223)) (.rd (.arr .rev 222)))),
  .set (.arr .spRates 35) (.add (.rd (.arr .spRates 35)) (.sub (.rd (.arr .fwd 223)) (.rd (.arr .rev 222)))),
  .set (.arr .spRates 4) (.sub (.rd (.arr .spRates 4)) (.sub (.rd (.arr .fwd 223)) (.rd (.arr .rev 222)))),
  .set (.arr .spRates 14) (.add (.rd (.arr .spRates 14)) (.sub (.rd (.arr .fwd 223)) (.rd (.arr .rev 222)))),
  .set (.arr .spRates 46) (.sub (.rd (.arr .spRates 46)) (.sub (.rd (.arr .fwd 223)) (.rd (.arr .rev 222))))]

/-- utilities/mechanisms/gri30/lib/src/spec_rates.c:2109-2118 -/
def spec224 : List CStmt := [
  .set (.arr .spRates 14) (.add (.rd (.arr .spRates 14)) (.sub (.rd (.arr .fwd 224)) (.rd (.arr .rev 223)))),
  .set (.var .dyN) (.add (.rd (.var .dyN)) (.sub (.rd (.arr .fwd 224)) (.rd (.arr .rev 223)))),
  .set (.arr .spRates 46) (.sub (.rd (.arr .spRates 46)) (.sub (.rd (.arr .fwd 224)) (.rd (.arr .rev 223)))),
  .set (.arr .spRates 30) (.sub (.rd (.arr .spRates 30)) (.sub (.rd (.arr .fwd 224)) (.rd (.arr .rev 223))))]

/-- utilities/mechanisms/gri30/lib/src/spec_rates.c:2119-2128 -/
def spec225 : List CStmt := [
  .set (.arr .spRates 35) (.add (.rd (.arr .spRates 35)) (.sub (.rd (.arr .fwd 225)) (.rd (.arr .rev 224)))),
  .set (.arr .spRates 3) (.sub (.rd (.arr .spRates 3)) (.sub (.rd (.arr .fwd 225)) (.rd (.arr .rev 224)))),
  .set (.arr .spRates 46) (.sub (.rd (.arr .spRates 46)) (.sub (.rd (.arr .fwd 225)) (.rd (.arr .rev 224)))),
  .set (.arr .spRates 15) (.add (.rd (.arr .spRates 15)) (.sub (.rd (.arr .fwd 225)) (.rd (.arr .rev 224))))]

/-- utilities/mechanisms/gri30/lib/src/spec_rates.c:2129-2136 -/
def spec226 : List CStmt := [
  .set (.arr .spRates 30) (.add (.rd (.arr .spRates 30)) (.mul (.sub (.rd (.arr .fwd 226)) (.rd (.arr .rev 225))) (.rd (.arr .presMod 31)))),
  .set (.arr .spRates 14) (.add (.rd (.arr .spRates 14)) (.mul (.sub (.rd (.arr .fwd 226)) (.rd (.arr .rev 225))) (.rd (.arr .presMod 31)))),
  .set (.arr .spRates 46) (.sub (.rd (.arr .spRates 46)) (.mul (.sub (.rd (.arr .fwd 226)) (.rd (.arr .rev 225))) (.rd (.arr .presMod 31))))]

/-- utilities/mechanisms/gri30/lib/src/spec_rates.c:2137-2146 -/
def spec227 : List CStmt := [
  .set (.arr .spRates 35) (.sub (.rd (.arr .spRates 35)) (.sub (.rd (.arr .fwd 227)) (.rd (.arr .rev 226)))),
  .set (.arr .spRates 14) (.add (.rd (.arr .spRates 14)) (.sub (.rd (.arr .fwd 227)) (.rd (.arr .rev 226)))),
  .set (.arr .spRates 46) (.sub (.rd (.arr .spRates 46)) (.sub (.rd (.arr .fwd 227)) (.rd (.arr .rev 226)))),
  .set (.arr .spRates 37) (.add (.rd (.arr .spRates 37)) (.sub (.rd (.arr .fwd 227)) (.rd (.arr .rev 226))))]

/-- utilities/mechanisms/gri30/lib/src/spec_rates.c:2147-2156 -/
def spec228 : List CStmt := [
  .set (.arr .spRates 35) (.sub (.rd (.arr .spRates 35)) (.sub (.rd (.arr .fwd 228)) (.rd (.arr .rev 227)))),
  .set (.var .dyN) (.add (.rd (.var .dyN)) (.sub (.rd (.arr .fwd 228)) (.rd (.arr .rev 227)))),
  .set (.arr .spRates 46) (.sub (.rd (.arr .spRates 46)) (.sub (.rd (.arr .fwd 228)) (.rd (.arr .rev 227)))),
  .set (.arr .spRates 15) (.add (.rd (.arr .spRates 15)) (.sub (.rd (.arr .fwd 228)) (.rd (.arr .rev 227))))]

/-- utilities/mechanisms/gri30/lib/src/spec_rates.c:2157-2164 -/
def spec229 : List CStmt := [
  .set (.arr .spRates 40) (.sub (.rd (.arr .spRates 40)) (.mul (.sub (.rd (.arr .fwd 229)) (.rd (.arr .rev 228))) (.rd (.arr .presMod 32)))),
  .set (.arr .spRates 1) (.add (.rd (.arr .spRates 1)) (.mul (.sub (.rd (.arr .fwd 229)) (.rd (.arr .rev 228))) (.rd (.arr .presMod 32)))),
  .set (.arr .spRates 39) (.add (.rd (.arr .spRates 39)) (.mul (.sub (.rd (.arr .fwd 229)) (.rd (.arr .rev 228))) (.rd (.arr .presMod 32))))]

/-- utilities/mechanisms/gri30/lib/src/spec_rates.c:2165-2174 -/
def spec230 : List CStmt := [
  .set (.arr .spRates 40) (.sub (.rd (.arr .spRates 40)) (.sub (.rd (.arr .fwd 230)) (.rd (.arr .rev 229)))),
  .set (.arr .spRates 1) (.add (.rd (.arr .spRates 1)) (.sub (.rd (.arr .fwd 230)) (.rd (.arr .rev 229)))),
  .set (.arr .spRates 2) (.sub (.rd (.arr .spRates 2)) (.sub (.rd (.arr .fwd 230)) (.rd (.arr .rev 229)))),
  .set (.arr .spRates 46) (.add (.rd (.arr .spRates 46)) (.sub (.rd (.arr .fwd 230)) (.rd (.arr .rev 229))))]

/-- utilities/mechanisms/gri30/lib/src/spec_rates.c:2175-2184 -/
def spec231 : List CStmt := [
  .set (.arr .spRates 40) (.sub (.rd (.arr .spRates 40)) (.sub (.rd (.arr .fwd 231)) (.rd (.arr .rev 230)))),
  .set (.arr .spRates 2) (.sub (.rd (.arr .spRates 2)) (.sub (.rd (.arr .fwd 231)) (.rd (.arr .rev 230)))),
  .set (.arr .spRates 14) (.add (.rd (.arr .spRates 14)) (.sub (.rd (.arr .fwd 231)) (.rd (.arr .rev 230)))),
  .set (.arr .spRates 31) (.add (.rd (.arr .spRates 31)) (.sub (.rd (.arr .fwd 231)) (.rd (.arr .rev 230))))]

/-- utilities/mechanisms/gri30/lib/src/spec_rates.c:2185-2194 -/
def spec232 : List CStmt := [
  .set (.arr .spRates 40) (.sub (.rd (.arr .spRates 40)) (.sub (.rd (.arr .fwd 232)) (.rd (.arr .rev 231)))),
  .set (.arr .spRates 2) (.sub (.rd (.arr .spRates 2)) (.sub (.rd (.arr .fwd 232)) (.rd (.arr .rev 231)))),
  .set (.arr .spRates 4) (.add (.rd (.arr .spRates 4)) (.sub (.rd (.arr .fwd 232)) (.rd (.arr .rev 231)))),
  .set (.arr .spRates 39) (.add (.rd (.arr .spRates 39)) (.sub (.rd (.arr .fwd 232)) (.rd (.arr .rev 231))))]

/-- utilities/mechanisms/gri30/lib/src/spec_rates.c:2195-2204 -/
def spec233 : List CStmt := [
  .set (.arr .spRates 40) (.sub (.rd (.arr .spRates 40)) (.sub (.rd (.arr .fwd 233)) (.rd (.arr .rev 232)))),
  .set (.arr .spRates 44) (.sub (.rd (.arr .fwd 233)) (.rd (.arr .rev 232))),
  .set (.arr .spRates 4) (.sub (.rd (.arr .spRates 4)) (.sub (.rd (.arr .fwd 233)) (.rd (.arr .rev 232)))),
  .set (.arr .spRates 1) (.add (.rd (.arr .spRates 1)) (.sub (.rd (.arr .fwd 233)) (.rd (.arr .rev 232))))]

/-- utilities/mechanisms/gri30/lib/src/spec_rates.c:2205-2214 -/
def spec234 : List CStmt := [
  .set (.arr .spRates 40) (.sub (.rd (.arr .spRates 40)) (.sub (.rd (.arr .fwd 234)) (.rd (.arr .rev 233)))),
  .set (.arr .spRates 1) (.add (.rd (.arr .spRates 1)) (.sub (.rd (.arr .fwd 234)) (.rd (.arr .rev 233)))),
  .set (.arr .spRates 4) (.sub (.rd (.arr .spRates 4)) (.sub (.rd (.arr .fwd 234)) (.rd (.arr .rev 233)))),
  .set (.arr .spRates 45) (.sub (.rd (.arr .fwd 234)) (.rd (.arr .rev 233)))]

/-- utilities/mechanisms/gri30/lib/src/spec_rates.c:2215-2224 -/
def spec235 : List CStmt := [
  .set (.arr .spRates 40) (.sub (.rd (.arr .spRates 40)) (.sub (.rd (.arr .fwd 235)) (.rd (.arr .rev 234)))),
  .set (.arr .spRates 32) (.add (.rd (.arr .spRates 32)) (.sub (.rd (.arr .fwd 235)) (.rd (.arr .rev 234)))),
  .set (.arr .spRates 4) (.sub (.rd (.arr .spRates 4)) (.sub (.rd (.arr .fwd 235)) (.rd (.arr .rev 234)))),
  .set (.arr .spRates 14) (.add (.rd (.arr .spRates 14)) (.sub (.rd (.arr .fwd 235)) (.rd (.arr .rev 234))))]

/-- utilities/mechanisms/gri30/lib/src/spec_rates.c:2225-2232 -/
def spec236 : List CStmt := [
  .set (.arr .spRates 40) (.sub (.rd (.arr .spRates 40)) (.mul (.sub (.rd (.arr .fwd 236)) (.rd (.arr .rev 235))) (.rd (.arr .presMod 33)))),
  .set (.arr .spRates 1) (.sub (.rd (.arr .spRates 1)) (.mul (.sub (.rd (.arr .fwd 236)) (.rd (.arr .rev 235))) (.rd (.arr .presMod 33)))),
  .set (.arr .spRates 41) (.mul (.sub (.rd (.arr .fwd 236)) (.rd (.arr .rev 235))) (.rd (.arr .presMod 33)))]

/-- utilities/mechanisms/gri30/lib/src/spec_rates.c:2233-2242 -/
def spec237 : List CStmt := [
  .set (.arr .spRates 41) (.sub (.rd (.arr .spRates 41)) (.sub (.rd (.arr .fwd 237)) (.rd (.arr .rev 236)))),
  .set (.arr .spRates 10) (.add (.rd (.arr .spRates 10)) (.sub (.rd (.arr .fwd 237)) (.rd (.arr .rev 236)))),
  .set (.var .dyN) (.add (.rd (.var .dyN)) (.sub (.rd (.arr .fwd 237)) (.rd (.arr .rev 236)))),
  .set (.arr .spRates 30) (.sub (.rd (.arr .spRates 30)) (.sub (.rd (.arr .fwd 237)) (.rd (.arr .rev 236))))]

/-- utilities/mechanisms/gri30/lib/src/spec_rates.c:2243-2252 -/
def spec238 : List CStmt := [
  .set (.arr .spRates 8) (.sub (.rd (.arr .spRates 8)) (.sub (.rd (.arr .fwd 238)) (.rd (.arr .rev 237)))),
  .set (.var .dyN) (.sub (.rd (.var .dyN)) (.sub (.rd (.arr .fwd 238)) (.rd (.arr .rev 237)))),
  .set (.arr .spRates 30) (.add (.rd (.arr .spRates 30)) (.sub (.rd (.arr .fwd 238)) (.rd (.arr .rev 237)))),
  .set (.arr .spRates 39) (.add (.rd (.arr .spRates 39)) (.sub (.rd (.arr .fwd 238)) (.rd (.arr .rev 237))))]

/-- utilities/mechanisms/gri30/lib/src/spec_rates.c:2253-2262 -/
def spec239 : List CStmt := [
  .set (.arr .spRates 40) (.add (.rd (.arr .spRates 40)) (.sub (.rd (.arr .fwd 239)) (.rd (.arr .rev 238)))),
  .set (.arr .spRates 9) (.sub (.rd (.arr .spRates 9)) (.sub (.rd (.arr .fwd 239)) (.rd (.arr .rev 238)))),
  .set (.var .dyN) (.sub (.rd (.var .dyN)) (.sub (.rd (.arr .fwd 239)) (.rd (.arr .rev 238)))),
  .set (.arr .spRates 30) (.add (.rd (.arr .spRates 30)) (.sub (.rd (.arr .fwd 239)) (.rd (.arr .rev 238))))]

/-- utilities/mechanisms/gri30/lib/src/spec_rates.c:2263-2270 -/
def spec240 : List CStmt := [
  .set (.arr .spRates 9) (.sub (.rd (.arr .spRates 9)) (.mul (.sub (.rd (.arr .fwd 240)) (.rd (.arr .rev 239))) (.rd (.arr .presMod 34)))),
  .set (.arr .spRates 42) (.mul (.sub (.rd (.arr .fwd 240)) (.rd (.arr .rev 239))) (.rd (.arr .presMod 34))),
  .set (.var .dyN) (.sub (.rd (.var .dyN)) (.mul (.sub (.rd (.arr .fwd 240)) (.rd (.arr .rev 239))) (.rd (.arr .presMod 34))))]

/-- utilities/mechanisms/gri30/lib/src/spec_rates.c:2271-2280 -/
def spec241 : List CStmt := [
  .set (.arr .spRates 40) (.add (.rd (.arr .spRates 40)) (.sub (.rd (.arr .fwd 241)) (.rd (.arr .rev 240)))),
  .set (.arr .spRates 10) (.sub (.rd (.arr .spRates 10)) (.sub (.rd (.arr .fwd 241)) (.rd (.arr .rev 240)))),
  .set (.var .dyN) (.sub (.rd (.var .dyN)) (.sub (.rd (.arr .fwd 241)) (.rd (.arr .rev 240)))),
  .set (.arr .spRates 31) (.add (.rd (.arr .spRates 31)) (.sub (.rd (.arr .fwd 241)) (.rd (.arr .rev 240))))]

/-- utilities/mechanisms/gri30/lib/src/spec_rates.c:2281-2290 -/
def spec242 : List CStmt := [
  .set (.arr .spRates 40) (.add (.rd (.arr .spRates 40)) (.sub (.rd (.arr .fwd 242)) (.rd (.arr .rev 241)))),
  .set (.arr .spRates 11) (.sub (.rd (.arr .spRates 11)) (.sub (.rd (.arr .fwd 242)) (.rd (.arr .rev 241)))),
  .set (.var .dyN) (.sub (.rd (.var .dyN)) (.sub (.rd (.arr .fwd 242)) (.rd (.arr .rev 241)))),
  .set (.arr .spRates 31) (.add (.rd (.arr .spRates 31)) (.sub (.rd (.arr .fwd 242)) (.rd (.arr .rev 241))))]

/-- utilities/mechanisms/gri30/lib/src/spec_rates.c:2291-2300 -/
def spec243 : List CStmt := [
  .set (.arr .spRates 8) (.sub (.rd (.arr .spRates 8)) (.sub (.rd (.arr .fwd 243)) (.rd (.arr .rev 242)))),
  .set (.arr .spRates 2) (.add (.rd (.arr .spRates 2)) (.sub (.rd (.arr .fwd 243)) (.rd (.arr .rev 242)))),
  .set (.arr .spRates 35) (.sub (.rd (.arr .spRates 35)) (.sub (.rd (.arr .fwd 243)) (.rd (.arr .rev 242)))),
  .set (.arr .spRates 39) (.add (.rd (.arr .spRates 39)) (.sub (.rd (.arr .fwd 243)) (.rd (.arr .rev 242))))]

/-- utilities/mechanisms/gri30/lib/src/spec_rates.c:2301-2310 -/
def spec244 : List CStmt := [
  .set (.arr .spRates 8) (.sub (.rd (.arr .spRates 8)) (.sub (.rd (.arr .fwd 244)) (.rd (.arr .rev 243)))),
  .set (.arr .spRates 35) (.sub (.rd (.arr .spRates 35)) (.sub (.rd (.arr .fwd 244)) (.rd (.arr .rev 243)))),
  .set (.arr .spRates 30) (.add (.rd (.arr .spRates 30)) (.sub (.rd (.arr .fwd 244)) (.rd (.arr .rev 243)))),
  .set (.arr .spRates 14) (.add (.rd (.arr .spRates 14)) (.sub (.rd (.arr .fwd 244)) (.rd (.arr .rev 243))))]

/-- utilities/mechanisms/gri30/lib/src/spec_rates.c:2311-2320 -/
def spec245 : List CStmt := [
  .set (.arr .spRates 40) (.add (.rd (.arr .spRates 40)) (.sub (.rd (.arr .fwd 245)) (.rd (.arr .rev 244)))),
  .set (.arr .spRates 9) (.sub (.rd (.arr .spRates 9)) (.sub (.rd (.arr .fwd 245)) (.rd (.arr .rev 244)))),
  .set (.arr .spRates 2) (.add (.rd (.arr .spRates 2)) (.sub (.rd (.arr .fwd 245)) (.rd (.arr .rev 244)))),
  .set (.arr .spRates 35) (.sub (.rd (.arr .spRates 35)) (.sub (.rd (.arr .fwd 245)) (.rd (.arr .rev 244))))]

/-- utilities/mechanisms/gri30/lib/src/spec_rates.c:2321-2330 -/
def spec246 : List CStmt := [
  .set (.arr .spRates 9) (.sub (.rd (.arr .spRates 9)) (.sub (.rd (.arr .fwd 246)) (.rd (.arr .rev 245)))),
  .set (.arr .spRates 35) (.sub (.rd (.arr .spRates 35)) (.sub (.rd (.arr .fwd 246)) (.rd (.arr .rev 245)))),
  .set (.arr .spRates 46) (.add (.rd (.arr .spRates 46)) (.sub (.rd (.arr .fwd 246)) (.rd (.arr .rev 245)))),
  .set (.arr .spRates 1) (.add (.rd (.arr .spRates 1)) (.sub (.rd (.arr .fwd 246)) (.rd (.arr .rev 245))))]

/-- utilities/mechanisms/gri30/lib/src/spec_rates.c:2331-2340 -/
def spec247 : List CStmt := [
  .set (.arr .spRates 16) (.add (.rd (.arr .spRates 16)) (.sub (.rd (.arr .fwd 247)) (.rd (.arr .rev 246)))),
  .set (.arr .spRates 9) (.sub (.rd (.arr .spRates 9)) (.sub (.rd (.arr .fwd 247)) (.rd (.arr .rev 246)))),
  .set (.arr .spRates 35) (.sub (.rd (.arr .spRates 35)) (.sub (.rd (.arr .fwd 247)) (.rd (.arr .rev 246)))),
  .set (.arr .spRates 30) (.add (.rd (.arr .spRates 30)) (.sub (.rd (.arr .fwd 247)) (.rd (.arr .rev 246))))]

/-- utilities/mechanisms/gri30/lib/src/spec_rates.c:2341-2350 -/
def spec248 : List CStmt := [
  .set (.arr .spRates 1) (.add (.rd (.arr .spRates 1)) (.sub (.rd (.arr .fwd 248)) (.rd (.arr .rev 247)))),
  .set (.arr .spRates 10) (.sub (.rd (.arr .spRates 10)) (.sub (.rd (.arr .fwd 248)) (.rd (.arr .rev 247)))),
  .set (.arr .spRates 35) (.sub (.rd (.arr .spRates 35)) (.sub (.rd (.arr .fwd 248)) (.rd (.arr .rev 247)))),
  .set (.arr .spRates 45) (.add (.rd (.arr .spRates 45)) (.sub (.rd (.arr .fwd 248)) (.rd (.arr .rev 247))))]

/-- utilities/mechanisms/gri30/lib/src/spec_rates.c:2351-2360 -/
def spec249 : List CStmt := [
  .set (.arr .spRates 40) (.add (.rd (.arr .spRates 40)) (.sub (.rd (.arr .fwd 249)) (.rd (.arr .rev 248)))),
  .set (.arr .spRates 10) (.sub (.rd (.arr .spRates 10)) (.sub (.rd (.arr .fwd 249)) (.rd (.arr .rev 248)))),
  .set (.arr .spRates 35) (.sub (.rd (.arr .spRates 35)) (.sub (.rd (.arr .fwd 249)) (.rd (.arr .rev 248)))),
  .set (.arr .spRates 4) (.add (.rd (.arr .spRates 4)) (.sub (.rd (.arr .fwd 249)) (.rd (.arr .rev 248))))]

/-- utilities/mechanisms/gri30/lib/src/spec_rates.c:2361-2370 -/
def spec250 : List CStmt := [
  .set (.arr .spRates 1) (.add (.rd (.arr .spRates 1)) (.sub (.rd (.arr .fwd 250)) (.rd (.arr .rev 249)))),
  .set (.arr .spRates 10) (.sub (.rd (.arr .spRates 10)) (.sub (.rd (.arr .fwd 250)) (.rd (.arr .rev 249)))),
  .set (.arr .spRates 35) (.sub (.rd (.arr .spRates 35)) (.sub (.rd (.arr .fwd 250)) (.rd (.arr .rev 249)))),
  .set (.arr .spRates 43) (.sub (.rd (.arr .fwd 250)) (.rd (.arr .rev 249)))]

/-- utilities/mechanisms/gri30/lib/src/spec_rates.c:2371-2380 -/
def spec251 : List CStmt := [
  .set (.arr .spRates 35) (.sub (.rd (.arr .spRates 35)) (.sub (.rd (.arr .fwd 251)) (.rd (.arr .rev 250)))),
  .set (.arr .spRates 11) (.sub (.rd (.arr .spRates 11)) (.sub (.rd (.arr .fwd 251)) (.rd (.arr .rev 250)))),
  .set (.arr .spRates 45) (.add (.rd (.arr .spRates 45)) (.sub (.rd (.arr .fwd 251)) (.rd (.arr .rev 250)))),
  .set (.arr .spRates 1) (.add (.rd (.arr .spRates 1)) (.sub (.rd (.arr .fwd 251)) (.rd (.arr .rev 250))))]

/-- utilities/mechanisms/gri30/lib/src/spec_rates.c:2381-2390 -/
def spec252 : List CStmt := [
  .set (.arr .spRates 40) (.add (.rd (.arr .spRates 40)) (.sub (.rd (.arr .fwd 252)) (.rd (.arr .rev 251)))),
  .set (.arr .spRates 35) (.sub (.rd (.arr .spRates 35)) (.sub (.rd (.arr .fwd 252)) (.rd (.arr .rev 251)))),
  .set (.arr .spRates 11) (.sub (.rd (.arr .spRates 11)) (.sub (.rd (.arr .fwd 252)) (.rd (.arr .rev 251)))),
  .set (.arr .spRates 4) (.add (.rd (.arr .spRates 4)) (.sub (.rd (.arr .fwd 252)) (.rd (.arr .rev 251))))]

/-- utilities/mechanisms/gri30/lib/src/spec_rates.c:2391-2400 -/
def spec253 : List CStmt := [
  .set (.arr .spRates 35) (.sub (.rd (.arr .spRates 35)) (.sub (.rd (.arr .fwd 253)) (.rd (.arr .rev 252)))),
  .set (.arr .spRates 11) (.sub (.rd (.arr .spRates 11)) (.sub (.rd (.arr .fwd 253)) (.rd (.arr .rev 252)))),
  .set (.arr .spRates 43) (.add (.rd (.arr .spRates 43)) (.sub (.rd (.arr .fwd 253)) (.rd (.arr .rev 252)))),
  .set (.arr .spRates 1) (.add (.rd (.arr .spRates 1)) (.sub (.rd (.arr .fwd 253)) (.rd (.arr .rev 252))))]

/-- utilities/mechanisms/gri30/lib/src/spec_rates.c:2401-2410 -/
def spec254 : List CStmt := [
  .set (.arr .spRates 40) (.add (.rd (.arr .spRates 40)) (.sub (.rd (.arr .fwd 254)) (.rd (.arr .rev 253)))),
  .set (.arr .spRates 35) (.sub (.rd (.arr .spRates 35)) (.sub (.rd (.arr .fwd 254)) (.rd (.arr .rev 253)))),
  .set (.arr .spRates 12) (.sub (.rd (.arr .spRates 12)) (.sub (.rd (.arr .fwd 254)) (.rd (.arr .rev 253)))),
  .set (.arr .spRates 5) (.add (.rd (.arr .spRates 5)) (.sub (.rd (.arr .fwd 254)) (.rd (.arr .rev 253))))]

/-- utilities/mechanisms/gri30/lib/src/spec_rates.c:2411-2420 -/
def spec255 : List CStmt := [
  .set (.arr .spRates 41) (.add (.rd (.arr .spRates 41)) (.sub (.rd (.arr .fwd 255)) (.rd (.arr .rev 254)))),
  .set (.arr .spRates 35) (.sub (.rd (.arr .spRates 35)) (.sub (.rd (.arr .fwd 255)) (.rd (.arr .rev 254)))),
  .set (.arr .spRates 12) (.sub (.rd (.arr .spRates 12)) (.sub (.rd (.arr .fwd 255)) (.rd (.arr .rev 254)))),
  .set (.arr .spRates 4) (.add (.rd (.arr .spRates 4)) (.sub (.rd (.arr .fwd 255)) (.rd (.arr .rev 254))))]

/-- utilities/mechanisms/gri30/lib/src/spec_rates.c:2421-2432 -/
def spec256 : List CStmt := [
  .set (.arr .spRates 1) (.add (.rd (.arr .spRates 1)) (.sub (.rd (.arr .fwd 256)) (.rd (.arr .rev 255)))),
  .set (.arr .spRates 2) (.sub (.rd (.arr .spRates 2)) (.sub (.rd (.arr .fwd 256)) (.rd (.arr .rev 255)))),
  .set (.var .dyN) (.add (.rd (.var .dyN)) (.sub (.rd (.arr .fwd 256)) (.rd (.arr .rev 255)))),
  .set (.arr .spRates 42) (.sub (.rd (.arr .spRates 42)) (.sub (.rd (.arr .fwd 256)) (.rd (.arr .rev 255)))),
  .set (.arr .spRates 14) (.add (.rd (.arr .spRates 14)) (.sub (.rd (.arr .fwd 256)) (.rd (.arr .rev 255))))]

/-- utilities/mechanisms/gri30/lib/src/spec_rates.c:2433-2442 -/
def spec257 : List CStmt := [
  .set (.arr .spRates 40) (.add (.rd (.arr .spRates 40)) (.sub (.rd (.arr .fwd 257)) (.rd (.arr .rev 256)))),
  .set (.arr .spRates 2) (.sub (.rd (.arr .spRates 2)) (.sub (.rd (.arr .fwd 257)) (.rd (.arr .rev 256)))),
  .set (.arr .spRates 35) (.add (.rd (.arr .spRates 35)) (.sub (.rd (.arr .fwd 257)) (.rd (.arr .rev 256)))),
  .set (.arr .spRates 42) (.sub (.rd (.arr .spRates 42)) (.sub (.rd (.arr .fwd 257)) (.rd (.arr .rev 256))))]

/-- utilities/mechanisms/gri30/lib/src/spec_rates.c:2443-2454 -/
def spec258 : List CStmt := [
  .set (.arr .spRates 16) (.add (.rd (.arr .spRates 16)) (.sub (.rd (.arr .fwd 258)) (.rd (.arr .rev 257)))),
  .set (.arr .spRates 42) (.sub (.rd (.arr .spRates 42)) (.sub (.rd (.arr .fwd 258)) (.rd (.arr .rev 257)))),
  .set (.arr .spRates 3) (.sub (.rd (.arr .spRates 3)) (.sub (.rd (.arr .fwd 258)) (.rd (.arr .rev 257)))),
  .set (.var .dyN) (.add (.rd (.var .dyN)) (.sub (.rd (.arr .fwd 258)) (.rd (.arr .rev 257)))),
  .set (.arr .spRates 2) (.add (.rd (.arr .spRates 2)) (.sub (.rd (.arr .fwd 258)) (.rd (.arr .rev 257))))]

/-- utilities/mechanisms/gri30/lib/src/spec_rates.c:2455-2466 -/
def spec259 : List CStmt := [
  .set (.arr .spRates 16) (.add (.rd (.arr .spRates 16)) (.sub (.rd (.arr .fwd 259)) (.rd (.arr .rev 258)))),
  .set (.arr .spRates 1) (.add (.rd (.arr .spRates 1)) (.sub (.rd (.arr .fwd 259)) (.rd (.arr .rev 258)))),
  .set (.arr .spRates 42) (.sub (.rd (.arr .spRates 42)) (.sub (.rd (.arr .fwd 259)) (.rd (.arr .rev 258)))),
  .set (.arr .spRates 4) (.sub (.rd (.arr .spRates 4)) (.sub (.rd (.arr .fwd 259)) (.rd (.arr .rev 258)))),
  .set (.var .dyN) (.add (.rd (.var .dyN)) (.sub (.rd (.arr .fwd 259)) (.rd (.arr .rev 258))))]

/-- utilities/mechanisms/gri30/lib/src/spec_rates.c:2467-2476 -/
def spec260 : List CStmt := [
  .set (.arr .spRates 1) (.sub (.rd (.arr .spRates 1)) (.sub (.rd (.arr .fwd 260)) (.rd (.arr .rev 259)))),
  .set (.arr .spRates 42) (.sub (.rd (.arr .spRates 42)) (.sub (.rd (.arr .fwd 260)) (.rd (.arr .rev 259)))),
  .set (.var .dyN) (.add (.rd (.var .dyN)) (.sub (.rd (.arr .fwd 260)) (.rd (.arr .rev 259)))),
  .set (.arr .spRates 10) (.add (.rd (.arr .spRates 10)) (.sub (.rd (.arr .fwd 260)) (.rd (.arr .rev 259))))]

/-- utilities/mechanisms/gri30/lib/src/spec_rates.c:2477-2486 -/
def spec261 : List CStmt := [
  .set (.arr .spRates 2) (.sub (.rd (.arr .spRates 2)) (.sub (.rd (.arr .fwd 261)) (.rd (.arr .rev 260)))),
  .set (.arr .spRates 15) (.add (.rd (.arr .spRates 15)) (.sub (.rd (.arr .fwd 261)) (.rd (.arr .rev 260)))),
  .set (.arr .spRates 45) (.sub (.rd (.arr .spRates 45)) (.sub (.rd (.arr .fwd 261)) (.rd (.arr .rev 260)))),
  .set (.arr .spRates 31) (.add (.rd (.arr .spRates 31)) (.sub (.rd (.arr .fwd 261)) (.rd (.arr .rev 260))))]

/-- utilities/mechanisms/gri30/lib/src/spec_rates.c:2487-2496 -/
def spec262 : List CStmt := [
  .set (.arr .spRates 2) (.sub (.rd (.arr .spRates 2)) (.sub (.rd (.arr .fwd 262)) (.rd (.arr .rev 261)))),
  .set (.arr .spRates 38) (.add (.rd (.arr .spRates 38)) (.sub (.rd (.arr .fwd 262)) (.rd (.arr .rev 261)))),
  .set (.arr .spRates 45) (.sub (.rd (.arr .spRates 45)) (.sub (.rd (.arr .fwd 262)) (.rd (.arr .rev 261)))),
  .set (.arr .spRates 14) (.add (.rd (.arr .spRates 14)) (.sub (.rd (.arr .fwd 262)) (.rd (.arr .rev 261))))]

/-- utilities/mechanisms/gri30/lib/src/spec_rates.c:2497-2506 -/
def spec263 : List CStmt := [
  .set (.arr .spRates 2) (.sub (.rd (.arr .spRates 2)) (.sub (.rd (.arr .fwd 263)) (.rd (.arr .rev 262)))),
  .set (.arr .spRates 4) (.add (.rd (.arr .spRates 4)) (.sub (.rd (.arr .fwd 263)) (.rd (.arr .rev 262)))),
  .set (.arr .spRates 45) (.sub (.rd (.arr .spRates 45)) (.sub (.rd (.arr .fwd 263)) (.rd (.arr .rev 262)))),
  .set (.arr .spRates 46) (.add (.rd (.arr .spRates 46)) (.sub (.rd (.arr .fwd 263)) (.rd (.arr .rev 262))))]

/-- utilities/mechanisms/gri30/lib/src/spec_rates.c:2507-2516 -/
def spec264 : List CStmt := [
  .set (.arr .spRates 32) (.add (.rd (.arr .spRates 32)) (.sub (.rd (.arr .fwd 264)) (.rd (.arr .rev 263)))),
  .set (.arr .spRates 1) (.sub (.rd (.arr .spRates 1)) (.sub (.rd (.arr .fwd 264)) (.rd (.arr .rev 263)))),
  .set (.arr .spRates 45) (.sub (.rd (.arr .spRates 45)) (.sub (.rd (.arr .fwd 264)) (.rd (.arr .rev 263)))),
  .set (.arr .spRates 14) (.add (.rd (.arr .spRates 14)) (.sub (.rd (.arr .fwd 264)) (.rd (.arr .rev 263))))]

/-- utilities/mechanisms/gri30/lib/src/spec_rates.c:2517-2526 -/
def spec265 : List CStmt := [
  .set (.arr .spRates 0) (.add (.rd (.arr .spRates 0)) (.sub (.rd (.arr .fwd 265)) (.rd (.arr .rev 264)))),
  .set (.arr .spRates 1) (.sub (.rd (.arr .spRates 1)) (.sub (.rd (.arr .fwd 265)) (.rd (.arr .rev 264)))),
  .set (.arr .spRates 45) (.sub (.rd (.arr .spRates 45)) (.sub (.rd (.arr .fwd 265)) (.rd (.arr .rev 264)))),
  .set (.arr .spRates 46) (.add (.rd (.arr .spRates 46)) (.sub (.rd (.arr .fwd 265)) (.rd (.arr .rev 264))))]

/-- utilities/mechanisms/gri30/lib/src/spec_rates.c:2527-2536 -/
def spec266 : List CStmt := [
  .set (.arr .spRates 4) (.sub (.rd (.arr .spRates 4)) (.sub (.rd (.arr .fwd 266)) (.rd (.arr .rev 265)))),
  .set (.arr .spRates 45) (.sub (.rd (.arr .spRates 45)) (.sub (.rd (.arr .fwd 266)) (.rd (.arr .rev 265)))),
  .set (.arr .spRates 46) (.add (.rd (.arr .spRates 46)) (.sub (.rd (.arr .fwd 266)) (.rd (.arr .rev 265)))),
  .set (.arr .spRates 5) (.add (.rd (.arr .spRates 5)) (.sub (.rd (.arr .fwd 266)) (.rd (.arr .rev 265))))]

/-- utilities/mechanisms/gri30/lib/src/spec_rates.c:2537-2546 -/
def spec267 : List CStmt := [
  .set (.arr .spRates 32) (.add (.rd (.arr .spRates 32)) (.sub (.rd (.arr .fwd 267)) (.rd (.arr .rev 266)))),
  .set (.arr .spRates 4) (.sub (.rd (.arr .spRates 4)) (.sub (.rd (.arr .fwd 267)) (.rd (.arr .rev 266)))),
  .set (.arr .spRates 45) (.sub (.rd (.arr .spRates 45)) (.sub (.rd (.arr .fwd 267)) (.rd (.arr .rev 266)))),
  .set (.arr .spRates 15) (.add (.rd (.arr .spRates 15)) (.sub (.rd (.arr .fwd 267)) (.rd (.arr .rev 266))))]

/-- utilities/mechanisms/gri30/lib/src/spec_rates.c:2547-2554 -/
def spec268 : List CStmt := [
  .set (.arr .spRates 45) (.sub (.rd (.arr .spRates 45)) (.mul (.sub (.rd (.arr .fwd 268)) (.rd (.arr .rev 267))) (.rd (.arr .presMod 35)))),
  .set (.arr .spRates 14) (.add (.rd (.arr .spRates 14)) (.mul (.sub (.rd (.arr .fwd 268)) (.rd (.arr .rev 267))) (.rd (.arr .presMod 35)))),
  .set (.arr .spRates 31) (.add (.rd (.arr .spRates 31)) (.mul (.sub (.rd (.arr .fwd 268)) (.rd (.arr .rev 267))) (.rd (.arr .presMod 35))))]

/-- utilities/mechanisms/gri30/lib/src/spec_rates.c:2555-2560 -/
def spec269 : List CStmt := [
  .set (.arr .spRates 43) (.sub (.rd (.arr .spRates 43)) (.sub (.rd (.arr .fwd 269)) (.rd (.arr .rev 268)))),
  .set (.arr .spRates 45) (.add (.rd (.arr .spRates 45)) (.sub (.rd (.arr .fwd 269)) (.rd (.arr .rev 268))))]

/-- utilities/mechanisms/gri30/lib/src/spec_rates.c:2561-2570 -/
def spec270 : List CStmt := [
  .set (.arr .spRates 40) (.add (.rd (.arr .spRates 40)) (.sub (.rd (.arr .fwd 270)) (.rd (.arr .rev 269)))),
  .set (.arr .spRates 1) (.sub (.rd (.arr .spRates 1)) (.sub (.rd (.arr .fwd 270)) (.rd (.arr .rev 269)))),
  .set (.arr .spRates 43) (.sub (.rd (.arr .spRates 43)) (.sub (.rd (.arr .fwd 270)) (.rd (.arr .rev 269)))),
  .set (.arr .spRates 4) (.add (.rd (.arr .spRates 4)) (.sub (.rd (.arr .fwd 270)) (.rd (.arr .rev 269))))]

/-- utilities/mechanisms/gri30/lib/src/spec_rates.c:2571-2580 -/
def spec271 : List CStmt := [
  .set (.arr .spRates 32) (.add (.rd (.arr .spRates 32)) (.sub (.rd (.arr .fwd 271)) (.rd (.arr .rev 270)))),
  .set (.arr .spRates 1) (.sub (.rd (.arr .spRates 1)) (.sub (.rd (.arr .fwd 271)) (.rd (.arr .rev 270)))),
  .set (.arr .spRates 43) (.sub (.rd (.arr .spRates 43)) (.sub (.rd (.arr .fwd 271)) (.rd (.arr .rev 270)))),
  .set (.arr .spRates 14) (.add (.rd (.arr .spRates 14)) (.sub (.rd (.arr .fwd 271)) (.rd (.arr .rev 270))))]

/-- utilities/mechanisms/gri30/lib/src/spec_rates.c:2581-2586 -/
def spec272 : List CStmt := [
  .set (.arr .spRates 44) (.sub (.rd (.arr .spRates 44)) (.sub (.rd (.arr .fwd 272)) (.rd (.arr .rev 271)))),
  .set (.arr .spRates 45) (.add (.rd (.arr .spRates 45)) (.sub (.rd (.arr .fwd 272)) (.rd (.arr .rev 271))))]

/-- utilities/mechanisms/gri30/lib/src/spec_rates.c:2587-2596 -/
def spec273 : List CStmt := [
  .set (.arr .spRates 35) (.sub (.rd (.arr .spRates 35)) (.sub (.rd (.arr .fwd 273)) (.rd (.arr .rev 272)))),
  .set (.arr .spRates 27) (.sub (.rd (.arr .spRates 27)) (.sub (.rd (.arr .fwd 273)) (.rd (.arr .rev 272)))),
  .set (.arr .spRates 14) (.add (.rd (.arr .spRates 14)) (.sub (.rd (.arr .fwd 273)) (.rd (.arr .rev 272)))),
  .set (.arr .spRates 43) (.add (.rd (.arr .spRates 43)) (.sub (.rd (.arr .fwd 273)) (.rd (.arr .rev 272))))]

/-- utilities/mechanisms/gri30/lib/src/spec_rates.c:2597-2606 -/
def spec274 : List CStmt := [
  .set (.arr .spRates 1) (.add (.rd (.arr .spRates 1)) (.sub (.rd (.arr .fwd 274)) (.rd (.arr .rev 273)))),
  .set (.arr .spRates 12) (.sub (.rd (.arr .spRates 12)) (.sub (.rd (.arr .fwd 274)) (.rd (.arr .rev 273)))),
  .set (.arr .spRates 30) (.sub (.rd (.arr .spRates 30)) (.sub (.rd (.arr .fwd 274)) (.rd (.arr .rev 273)))),
  .set (.arr .spRates 41) (.add (.rd (.arr .spRates 41)) (.sub (.rd (.arr .fwd 274)) (.rd (.arr .rev 273))))]

/-- utilities/mechanisms/gri30/lib/src/spec_rates.c:2607-2616 -/
def spec275 : List CStmt := [
  .set (.arr .spRates 0) (.add (.rd (.arr .spRates 0)) (.sub (.rd (.arr .fwd 275)) (.rd (.arr .rev 274)))),
  .set (.arr .spRates 40) (.add (.rd (.arr .spRates 40)) (.sub (.rd (.arr .fwd 275)) (.rd (.arr .rev 274)))),
  .set (.arr .spRates 12) (.sub (.rd (.arr .spRates 12)) (.sub (.rd (.arr .fwd 275)) (.rd (.arr .rev 274)))),
  .set (.arr .spRates 30) (.sub (.rd (.arr .spRates 30)) (.sub (.rd (.arr .fwd 275)) (.rd (.arr .rev 274))))]

/-- utilities/mechanisms/gri30/lib/src/spec_rates.c:2617-2626 -/
def spec276 : List CStmt := [
  .set (.arr .spRates 0) (.add (.rd (.arr .spRates 0)) (.sub (.rd (.arr .fwd 276)) (.rd (.arr .rev 275)))),
  .set (.arr .spRates 1) (.sub (.rd (.arr .spRates 1)) (.sub (.rd (.arr .fwd 276)) (.rd (.arr .rev 275)))),
  .set (.arr .spRates 32) (.add (.rd (.arr .spRates 32)) (.sub (.rd (.arr .fwd 276)) (.rd (.arr .rev 275)))),
  .set (.arr .spRates 33) (.neg (.sub (.rd (.arr .fwd 276)) (.rd (.arr .rev 275))))]

/-- utilities/mechanisms/gri30/lib/src/spec_rates.c:2627-2636 -/
def spec277 : List CStmt := [
  .set (.arr .spRates 32) (.add (.rd (.arr .spRates 32)) (.sub (.rd (.arr .fwd 277)) (.rd (.arr .rev 276)))),
  .set (.arr .spRates 33) (.sub (.rd (.arr .spRates 33)) (.sub (.rd (.arr .fwd 277)) (.rd (.arr .rev 276)))),
  .set (.arr .spRates 4) (.sub (.rd (.arr .spRates 4)) (.sub (.rd (.arr .fwd 277)) (.rd (.arr .rev 276)))),
  .set (.arr .spRates 5) (.add (.rd (.arr .spRates 5)) (.sub (.rd (.arr .fwd 277)) (.rd (.arr .rev 276))))]

/-- utilities/mechanisms/gri30/lib/src/spec_rates.c:2637-2646 -/
def spec278 : List CStmt := [
  .set (.arr .spRates 32) (.add (.rd (.arr .spRates 32)) (.sub (.rd (.arr .fwd 278)) (.rd (.arr .rev 277)))),
  .set (.arr .spRates 33) (.sub (.rd (.arr .spRates 33)) (.sub (.rd (.arr .fwd 278)) (.rd (.arr .rev 277)))),
  .set (.arr .spRates 2) (.sub (.rd (.arr .spRates 2)) (.sub (.rd (.arr .fwd 278)) (.rd (.arr .rev 277)))),
  .set (.arr .spRates 4) (.add (.rd (.arr .spRates 4)) (.sub (.rd (.arr .fwd 278)) (.rd (.arr .rev 277))))]

/-- utilities/mechanisms/gri30/lib/src/spec_rates.c:2647-2656 -/
def spec279 : List CStmt := [
  .set (.arr .spRates 15) (.sub (.rd (.arr .spRates 15)) (.sub (.rd (.arr .fwd 279)) (.rd (.arr .rev 278)))),
  .set (.arr .spRates 38) (.add (.rd (.arr .spRates 38)) (.sub (.rd (.arr .fwd 279)) (.rd (.arr .rev 278)))),
  .set (.arr .spRates 14) (.add (.rd (.arr .spRates 14)) (.sub (.rd (.arr .fwd 279)) (.rd (.arr .rev 278)))),
  .set (.arr .spRates 31) (.sub (.rd (.arr .spRates 31)) (.sub (.rd (.arr .fwd 279)) (.rd (.arr .rev 278))))]

/-- utilities/mechanisms/gri30/lib/src/spec_rates.c:2657-2666 -/
def spec280 : List CStmt := [
  .set (.arr .spRates 35) (.add (.rd (.arr .spRates 35)) (.sub (.rd (.arr .fwd 280)) (.rd (.arr .rev 279)))),
  .set (.arr .spRates 36) (.sub (.rd (.arr .spRates 36)) (.sub (.rd (.arr .fwd 280)) (.rd (.arr .rev 279)))),
  .set (.arr .spRates 46) (.add (.rd (.arr .spRates 46)) (.sub (.rd (.arr .fwd 280)) (.rd (.arr .rev 279)))),
  .set (.arr .spRates 39) (.sub (.rd (.arr .spRates 39)) (.sub (.rd (.arr .fwd 280)) (.rd (.arr .rev 279))))]

/-- utilities/mechanisms/gri30/lib/src/spec_rates.c:2667-2676 -/
def spec281 : List CStmt := [
  .set (.arr .spRates 36) (.sub (.rd (.arr .spRates 36)) (.sub (.rd (.arr .fwd 281)) (.rd (.arr .rev 280)))),
  .set (.arr .spRates 37) (.add (.rd (.arr .spRates 37)) (.sub (.rd (.arr .fwd 281)) (.rd (.arr .rev 280)))),
  .set (.arr .spRates 46) (.sub (.rd (.arr .spRates 46)) (.sub (.rd (.arr .fwd 281)) (.rd (.arr .rev 280)))),
  .set (.arr .spRates 15) (.add (.rd (.arr .spRates 15)) (.sub (.rd (.arr .fwd 281)) (.rd (.arr .rev 280))))]

/-- utilities/mechanisms/gri30/lib/src/spec_rates.c:2677-2686 -/
def spec282 : List CStmt := [
  .set (.arr .spRates 35) (.add (.rd (.arr .spRates 35)) (.sub (.rd (.arr .fwd 282)) (.rd (.arr .rev 281)))),
  .set (.arr .spRates 14) (.add (.rd (.arr .spRates 14)) (.sub (.rd (.arr .fwd 282)) (.rd (.arr .rev 281)))),
  .set (.arr .spRates 30) (.sub (.rd (.arr .spRates 30)) (.sub (.rd (.arr .fwd 282)) (.rd (.arr .rev 281)))),
  .set (.arr .spRates 15) (.sub (.rd (.arr .spRates 15)) (.sub (.rd (.arr .fwd 282)) (.rd (.arr .rev 281))))]

/-- utilities/mechanisms/gri30/lib/src/spec_rates.c:2687-2698 -/
def spec283 : List CStmt := [
  .set (.arr .spRates 0) (.add (.rd (.arr .spRates 0)) (.rd (.arr .fwd 283))),
  .set (.arr .spRates 1) (.add (.rd (.arr .spRates 1)) (.rd (.arr .fwd 283))),
  .set (.arr .spRates 2) (.sub (.rd (.arr .spRates 2)) (.rd (.arr .fwd 283))),
  .set (.arr .spRates 12) (.sub (.rd (.arr .spRates 12)) (.rd (.arr .fwd 283))),
  .set (.arr .spRates 14) (.add (.rd (.arr .spRates 14)) (.rd (.arr .fwd 283)))]

/-- utilities/mechanisms/gri30/lib/src/spec_rates.c:2699-2708 -/
def spec284 : List CStmt := [
  .set (.arr .spRates 24) (.sub (.rd (.arr .spRates 24)) (.sub (.rd (.arr .fwd 284)) (.rd (.arr .rev 282)))),
  .set (.arr .spRates 1) (.add (.rd (.arr .spRates 1)) (.sub (.rd (.arr .fwd 284)) (.rd (.arr .rev 282)))),
  .set (.arr .spRates 2) (.sub (.rd (.arr .spRates 2)) (.sub (.rd (.arr .fwd 284)) (.rd (.arr .rev 282)))),
  .set (.arr .spRates 50) (.sub (.rd (.arr .fwd 284)) (.rd (.arr .rev 282)))]

/-- utilities/mechanisms/gri30/lib/src/spec_rates.c:2709-2718 -/
def spec285 : List CStmt := [
  .set (.arr .spRates 25) (.sub (.rd (.arr .spRates 25)) (.sub (.rd (.arr .fwd 285)) (.rd (.arr .rev 283)))),
  .set (.arr .spRates 2) (.sub (.rd (.arr .spRates 2)) (.sub (.rd (.arr .fwd 285)) (.rd (.arr .rev 283)))),
  .set (.arr .spRates 51) (.sub (.rd (.arr .fwd 285)) (.rd (.arr .rev 283))),
  .set (.arr .spRates 1) (.add (.rd (.arr .spRates 1)) (.sub (.rd (.arr .fwd 285)) (.rd (.arr .rev 283))))]

/-- utilities/mechanisms/gri30/lib/src/spec_rates.c:2719-2728 -/
def spec286 : List CStmt := [
  .set (.arr .spRates 3) (.add (.rd (.arr .spRates 3)) (.sub (.rd (.arr .fwd 286)) (.rd (.arr .rev 284)))),
  .set (.arr .spRates 4) (.sub (.rd (.arr .spRates 4)) (.sub (.rd (.arr .fwd 286)) (.rd (.arr .rev 284)))),
  .set (.arr .spRates 5) (.add (.rd (.arr .spRates 5)) (.sub (.rd (.arr .fwd 286)) (.rd (.arr .rev 284)))),
  .set (.arr .spRates 6) (.sub (.rd (.arr .spRates 6)) (.sub (.rd (.arr .fwd 286)) (.rd (.arr .rev 284))))]

/-- utilities/mechanisms/gri30/lib/src/spec_rates.c:2729-2738 -/
def spec287 : List CStmt := [
  .set (.arr .spRates 0) (.add (.rd (.arr .spRates 0)) (.rd (.arr .fwd 287))),
  .set (.arr .spRates 4) (.sub (.rd (.arr .spRates 4)) (.rd (.arr .fwd 287))),
  .set (.arr .spRates 12) (.sub (.rd (.arr .spRates 12)) (.rd (.arr .fwd 287))),
  .set (.arr .spRates 17) (.add (.rd (.arr .spRates 17)) (.rd (.arr .fwd 287)))]

/-- utilities/mechanisms/gri30/lib/src/spec_rates.c:2739-2746 -/
def spec288 : List CStmt := [
  .set (.arr .spRates 0) (.sub (.rd (.arr .spRates 0)) (.mul (.sub (.rd (.arr .fwd 288)) (.rd (.arr .rev 285))) (.rd (.arr .presMod 36)))),
  .set (.arr .spRates 9) (.sub (.rd (.arr .spRates 9)) (.mul (.sub (.rd (.arr .fwd 288)) (.rd (.arr .rev 285))) (.rd (.arr .presMod 36)))),
  .set (.arr .spRates 12) (.add (.rd (.arr .spRates 12)) (.mul (.sub (.rd (.arr .fwd 288)) (.rd (.arr .rev 285))) (.rd (.arr .presMod 36))))]

/-- utilities/mechanisms/gri30/lib/src/spec_rates.c:2747-2756 -/
def spec289 : List CStmt := [
  .set (.arr .spRates 1) (.add (.rd (.arr .spRates 1)) (.mul (.num 2 0) (.rd (.arr .fwd 289)))),
  .set (.arr .spRates 10) (.sub (.rd (.arr .spRates 10)) (.rd (.arr .fwd 289))),
  .set (.arr .spRates 3) (.sub (.rd (.arr .spRates 3)) (.rd (.arr .fwd 289))),
  .set (.arr .spRates 15) (.add (.rd (.arr .spRates 15)) (.rd (.arr .fwd 289)))]

/-- utilities/mechanisms/gri30/lib/src/spec_rates.c:2757-2766 -/
def spec290 : List CStmt := [
  .set (.arr .spRates 17) (.add (.rd (.arr .spRates 17)) (.sub (.rd (.arr .fwd 290)) (.rd (.arr .rev 286)))),
  .set (.arr .spRates 10) (.sub (.rd (.arr .spRates 10)) (.sub (.rd (.arr .fwd 290)) (.rd (.arr .rev 286)))),
  .set (.arr .spRates 3) (.sub (.rd (.arr .spRates 3)) (.sub (.rd (.arr .fwd 290)) (.rd (.arr .rev 286)))),
  .set (.arr .spRates 2) (.add (.rd (.arr .spRates 2)) (.sub (.rd (.arr .fwd 290)) (.rd (.arr .rev 286))))]

/-- utilities/mechanisms/gri30/lib/src/spec_rates.c:2767-2774 -/
def spec291 : List CStmt := [
  .set (.arr .spRates 1) (.add (.rd (.arr .spRates 1)) (.mul (.num 2 0) (.rd (.arr .fwd 291)))),
  .set (.arr .spRates 10) (.sub (.rd (.arr .spRates 10)) (.mul (.num 2 0) (.rd (.arr .fwd 291)))),
  .set (.arr .spRates 22) (.add (.rd (.arr .spRates 22)) (.rd (.arr .fwd 291)))]

/-- utilities/mechanisms/gri30/lib/src/spec_rates.c:2775-2784 -/
def spec292 : List CStmt := [
  .set (.arr .spRates 0) (.add (.rd (.arr .spRates 0)) (.rd (.arr .fwd 292))),
  .set (.arr .spRates 17) (.add (.rd (.arr .spRates 17)) (.rd (.arr .fwd 292))),
  .set (.arr .spRates 11) (.sub (.rd (.arr .spRates 11)) (.rd (.arr .fwd 292))),
  .set (.arr .spRates 5) (.sub (.rd (.arr .spRates 5)) (.rd (.arr .fwd 292)))]

/-- utilities/mechanisms/gri30/lib/src/spec_rates.c:2785-2794 -/
def spec293 : List CStmt := [
  .set (.arr .spRates 50) (.add (.rd (.arr .spRates 50)) (.sub (.rd (.arr .fwd 293)) (.rd (.arr .rev 287)))),
  .set (.arr .spRates 3) (.sub (.rd (.arr .spRates 3)) (.sub (.rd (.arr .fwd 293)) (.rd (.arr .rev 287)))),
  .set (.arr .spRates 2) (.add (.rd (.arr .spRates 2)) (.sub (.rd (.arr .fwd 293)) (.rd (.arr .rev 287)))),
  .set (.arr .spRates 23) (.sub (.rd (.arr .spRates 23)) (.sub (.rd (.arr .fwd 293)) (.rd (.arr .rev 287))))]

/-- utilities/mechanisms/gri30/lib/src/spec_rates.c:2795-2804 -/
def spec294 : List CStmt := [
  .set (.arr .spRates 3) (.sub (.rd (.arr .spRates 3)) (.sub (.rd (.arr .fwd 294)) (.rd (.arr .rev 288)))),
  .set (.arr .spRates 22) (.add (.rd (.arr .spRates 22)) (.sub (.rd (.arr .fwd 294)) (.rd (.arr .rev 288)))),
  .set (.arr .spRates 6) (.add (.rd (.arr .spRates 6)) (.sub (.rd (.arr .fwd 294)) (.rd (.arr .rev 288)))),
  .set (.arr .spRates 23) (.sub (.rd (.arr .spRates 23)) (.sub (.rd (.arr .fwd 294)) (.rd (.arr .rev 288))))]

/-- utilities/mechanisms/gri30/lib/src/spec_rates.c:2805-2814 -/
def spec295 : List CStmt := [
  .set (.arr .spRates 2) (.sub (.rd (.arr .spRates 2)) (.sub (.rd (.arr .fwd 295)) (.rd (.arr .rev 289)))),
  .set (.arr .spRates 51) (.sub (.rd (.arr .spRates 51)) (.sub (.rd (.arr .fwd 295)) (.rd (.arr .rev 289)))),
  .set (.arr .spRates 4) (.add (.rd (.arr .spRates 4)) (.sub (.rd (.arr .fwd 295)) (.rd (.arr .rev 289)))),
  .set (.arr .spRates 50) (.add (.rd (.arr .spRates 50)) (.sub (.rd (.arr .fwd 295)) (.rd (.arr .rev 289))))]

/-- utilities/mechanisms/gri30/lib/src/spec_rates.c:2815-2826 -/
def spec296 : List CStmt := [
  .set (.arr .spRates 4) (.add (.rd (.arr .spRates 4)) (.rd (.arr .fwd 296))),
  .set (.arr .spRates 2) (.sub (.rd (.arr .spRates 2)) (.rd (.arr .fwd 296))),
  .set (.arr .spRates 51) (.sub (.rd (.arr .spRates 51)) (.rd (.arr .fwd 296))),
  .set (.arr .spRates 12) (.add (.rd (.arr .spRates 12)) (.rd (.arr .fwd 296))),
  .set (.arr .spRates 14) (.add (.rd (.arr .spRates 14)) (.rd (.arr .fwd 296)))]

/-- utilities/mechanisms/gri30/lib/src/spec_rates.c:2827-2838 -/
def spec297 : List CStmt := [
  .set (.arr .spRates 3) (.sub (.rd (.arr .spRates 3)) (.rd (.arr .fwd 297))),
  .set (.arr .spRates 51) (.sub (.rd (.arr .spRates 51)) (.rd (.arr .fwd 297))),
  .set (.arr .spRates 12) (.add (.rd (.arr .spRates 12)) (.rd (.arr .fwd 297))),
  .set (.arr .spRates 6) (.add (.rd (.arr .spRates 6)) (.rd (.arr .fwd 297))),
  .set (.arr .spRates 14) (.add (.rd (.arr .spRates 14)) (.rd (.arr .fwd 297)))]

/-- utilities/mechanisms/gri30/lib/src/spec_rates.c:2839-2848 -/
def spec298 : List CStmt := [
  .set (.arr .spRates 0) (.add (.rd (.arr .spRates 0)) (.sub (.rd (.arr .fwd 298)) (.rd (.arr .rev 290)))),
  .set (.arr .spRates 1) (.sub (.rd (.arr .spRates 1)) (.sub (.rd (.arr .fwd 298)) (.rd (.arr .rev 290)))),
  .set (.arr .spRates 50) (.add (.rd (.arr .spRates 50)) (.sub (.rd (.arr .fwd 298)) (.rd (.arr .rev 290)))),
  .set (.arr .spRates 51) (.sub (.rd (.arr .spRates 51)) (.sub (.rd (.arr .fwd 298)) (.rd (.arr .rev 290))))]

/-- utilities/mechanisms/gri30/lib/src/spec_rates.c:2849-2860 -/
def spec299 : List CStmt := [
  .set (.arr .spRates 0) (.add (.rd (.arr .spRates 0)) (.rd (.arr .fwd 299))),
  .set (.arr .spRates 1) (.sub (.rd (.arr .spRates 1)) (.rd (.arr .fwd 299))),
  .set (.arr .spRates 51) (.sub (.rd (.arr .spRates 51)) (.rd (.arr .fwd 299))),
  .set (.arr .spRates 12) (.add (.rd (.arr .spRates 12)) (.rd (.arr .fwd 299))),
  .set (.arr .spRates 14) (.add (.rd (.arr .spRates 14)) (.rd (.arr .fwd 299)))]

/-- utilities/mechanisms/gri30/lib/src/spec_rates.c:2861-2872 -/
def spec300 : List CStmt := [
  .set (.arr .spRates 12) (.add (.rd (.arr .spRates 12)) (.rd (.arr .fwd 300))),
  .set (.arr .spRates 51) (.sub (.rd (.arr .spRates 51)) (.rd (.arr .fwd 300))),
  .set (.arr .spRates 4) (.sub (.rd (.arr .spRates 4)) (.rd (.arr .fwd 300))),
  .set (.arr .spRates 5) (.add (.rd (.arr .spRates 5)) (.rd (.arr .fwd 300))),
  .set (.arr .spRates 14) (.add (.rd (.arr .spRates 14)) (.rd (.arr .fwd 300)))]

/-- utilities/mechanisms/gri30/lib/src/spec_rates.c:2873-2884 -/
def spec301 : List CStmt := [
  .set (.arr .spRates 51) (.sub (.rd (.arr .spRates 51)) (.rd (.arr .fwd 301))),
  .set (.arr .spRates 12) (.add (.rd (.arr .spRates 12)) (.rd (.arr .fwd 301))),
  .set (.arr .spRates 14) (.add (.rd (.arr .spRates 14)) (.rd (.arr .fwd 301))),
  .set (.arr .spRates 6) (.sub (.rd (.arr .spRates 6)) (.rd (.arr .fwd 301))),
  .set (.arr .spRates 7) (.add (.rd (.arr .spRates 7)) (.rd (.arr .fwd 301)))]

/-- utilities/mechanisms/gri30/lib/src/spec_rates.c:2885-2892 -/
def spec302 : List CStmt := [
  .set (.arr .spRates 51) (.sub (.rd (.arr .spRates 51)) (.rd (.arr .fwd 302))),
  .set (.arr .spRates 13) (.add (.rd (.arr .spRates 13)) (.rd (.arr .fwd 302))),
  .set (.arr .spRates 14) (.add (.rd (.arr .spRates 14)) (.rd (.arr .fwd 302)))]

/-- utilities/mechanisms/gri30/lib/src/spec_rates.c:2893-2900 -/
def spec303 : List CStmt := [
  .set (.arr .spRates 1) (.sub (.rd (.arr .spRates 1)) (.mul (.sub (.rd (.arr .fwd 303)) (.rd (.arr .rev 291))) (.rd (.arr .presMod 37)))),
  .set (.arr .spRates 50) (.add (.rd (.arr .spRates 50)) (.mul (.sub (.rd (.arr .fwd 303)) (.rd (.arr .rev 291))) (.rd (.arr .presMod 37)))),
  .set (.arr .spRates 28) (.sub (.rd (.arr .spRates 28)) (.mul (.sub (.rd (.arr .fwd 303)) (.rd (.arr .rev 291))) (.rd (.arr .presMod 37))))]

/-- utilities/mechanisms/gri30/lib/src/spec_rates.c:2901-2912 -/
def spec304 : List CStmt := [
  .set (.arr .spRates 1) (.add (.rd (.arr .spRates 1)) (.rd (.arr .fwd 304))),
  .set (.arr .spRates 50) (.sub (.rd (.arr .spRates 50)) (.rd (.arr .fwd 304))),
  .set (.arr .spRates 10) (.add (.rd (.arr .spRates 10)) (.rd (.arr .fwd 304))),
  .set (.arr .spRates 2) (.sub (.rd (.arr .spRates 2)) (.rd (.arr .fwd 304))),
  .set (.arr .spRates 15) (.add (.rd (.arr .spRates 15)) (.rd (.arr .fwd 304)))]

/-- utilities/mechanisms/gri30/lib/src/spec_rates.c:2913-2924 -/
def spec305 : List CStmt := [
  .set (.arr .spRates 17) (.add (.rd (.arr .spRates 17)) (.rd (.arr .fwd 305))),
  .set (.arr .spRates 50) (.sub (.rd (.arr .spRates 50)) (.rd (.arr .fwd 305))),
  .set (.arr .spRates 3) (.sub (.rd (.arr .spRates 3)) (.rd (.arr .fwd 305))),
  .set (.arr .spRates 4) (.add (.rd (.arr .spRates 4)) (.rd (.arr .fwd 305))),
  .set (.arr .spRates 14) (.add (.rd (.arr .spRates 14)) (.rd (.arr .fwd 305)))]

/-- utilities/mechanisms/gri30/lib/src/spec_rates.c:2925-2934 -/
def spec306 : List CStmt := [
  .set (.arr .spRates 16) (.add (.rd (.arr .spRates 16)) (.mul (.num 2 0) (.rd (.arr .fwd 306)))),
  .set (.arr .spRates 50) (.sub (.rd (.arr .spRates 50)) (.rd (.arr .fwd 306))),
  .set (.arr .spRates 3) (.sub (.rd (.arr .spRates 3)) (.rd (.arr .fwd 306))),
  .set (.arr .spRates 4) (.add (.rd (.arr .spRates 4)) (.rd (.arr .fwd 306)))]

/-- utilities/mechanisms/gri30/lib/src/spec_rates.c:2935-2944 -/
def spec307 : List CStmt := [
  .set (.arr .spRates 16) (.add (.rd (.arr .spRates 16)) (.sub (.rd (.arr .fwd 307)) (.rd (.arr .rev 292)))),
  .set (.arr .spRates 1) (.sub (.rd (.arr .spRates 1)) (.sub (.rd (.arr .fwd 307)) (.rd (.arr .rev 292)))),
  .set (.arr .spRates 50) (.sub (.rd (.arr .spRates 50)) (.sub (.rd (.arr .fwd 307)) (.rd (.arr .rev 292)))),
  .set (.arr .spRates 12) (.add (.rd (.arr .spRates 12)) (.sub (.rd (.arr .fwd 307)) (.rd (.arr .rev 292))))]

/-- utilities/mechanisms/gri30/lib/src/spec_rates.c:2945-2954 -/
def spec308 : List CStmt := [
  .set (.arr .spRates 0) (.add (.rd (.arr .spRates 0)) (.sub (.rd (.arr .fwd 308)) (.rd (.arr .rev 293)))),
  .set (.arr .spRates 1) (.sub (.rd (.arr .spRates 1)) (.sub (.rd (.arr .fwd 308)) (.rd (.arr .rev 293)))),
  .set (.arr .spRates 50) (.sub (.rd (.arr .spRates 50)) (.sub (.rd (.arr .fwd 308)) (.rd (.arr .rev 293)))),
  .set (.arr .spRates 28) (.add (.rd (.arr .spRates 28)) (.sub (.rd (.arr .fwd 308)) (.rd (.arr .rev 293))))]

/-- utilities/mechanisms/gri30/lib/src/spec_rates.c:2955-2964 -/
def spec309 : List CStmt := [
  .set (.arr .spRates 28) (.add (.rd (.arr .spRates 28)) (.sub (.rd (.arr .fwd 309)) (.rd (.arr .rev 294)))),
  .set (.arr .spRates 50) (.sub (.rd (.arr .spRates 50)) (.sub (.rd (.arr .fwd 309)) (.rd (.arr .rev 294)))),
  .set (.arr .spRates 4) (.sub (.rd (.arr .spRates 4)) (.sub (.rd (.arr .fwd 309)) (.rd (.arr .rev 294)))),
  .set (.arr .spRates 5) (.add (.rd (.arr .spRates 5)) (.sub (.rd (.arr .fwd 309)) (.rd (.arr .rev 294))))]

/-- utilities/mechanisms/gri30/lib/src/spec_rates.c:2965-2974 -/
def spec310 : List CStmt := [
  .set (.arr .spRates 16) (.add (.rd (.arr .spRates 16)) (.sub (.rd (.arr .fwd 310)) (.rd (.arr .rev 295)))),
  .set (.arr .spRates 50) (.sub (.rd (.arr .spRates 50)) (.sub (.rd (.arr .fwd 310)) (.rd (.arr .rev 295)))),
  .set (.arr .spRates 4) (.sub (.rd (.arr .spRates 4)) (.sub (.rd (.arr .fwd 310)) (.rd (.arr .rev 295)))),
  .set (.arr .spRates 18) (.add (.rd (.arr .spRates 18)) (.sub (.rd (.arr .fwd 310)) (.rd (.arr .rev 295))))]

/-- utilities/mechanisms/gri30/lib/src/spec_rates.c:2975-2982 -/
def spec311 : List CStmt := [
  .set (.arr .spRates 25) (.sub (.rd (.arr .spRates 25)) (.mul (.sub (.rd (.arr .fwd 311)) (.rd (.arr .rev 296))) (.rd (.arr .presMod 38)))),
  .set (.arr .spRates 12) (.sub (.rd (.arr .spRates 12)) (.mul (.sub (.rd (.arr .fwd 311)) (.rd (.arr .rev 296))) (.rd (.arr .presMod 38)))),
  .set (.arr .spRates 49) (.mul (.sub (.rd (.arr .fwd 311)) (.rd (.arr .rev 296))) (.rd (.arr .presMod 38)))]

/-- utilities/mechanisms/gri30/lib/src/spec_rates.c:2983-2992 -/
def spec312 : List CStmt := [
  .set (.arr .spRates 48) (.sub (.rd (.arr .fwd 312)) (.rd (.arr .rev 297))),
  .set (.arr .spRates 49) (.sub (.rd (.arr .spRates 49)) (.sub (.rd (.arr .fwd 312)) (.rd (.arr .rev 297)))),
  .set (.arr .spRates 2) (.sub (.rd (.arr .spRates 2)) (.sub (.rd (.arr .fwd 312)) (.rd (.arr .rev 297)))),
  .set (.arr .spRates 4) (.add (.rd (.arr .spRates 4)) (.sub (.rd (.arr .fwd 312)) (.rd (.arr .rev 297))))]

/-- utilities/mechanisms/gri30/lib/src/spec_rates.c:2993-3002 -/
def spec313 : List CStmt := [
  .set (.arr .spRates 0) (.add (.rd (.arr .spRates 0)) (.sub (.rd (.arr .fwd 313)) (.rd (.arr .rev 298)))),
  .set (.arr .spRates 1) (.sub (.rd (.arr .spRates 1)) (.sub (.rd (.arr .fwd 313)) (.rd (.arr .rev 298)))),
  .set (.arr .spRates 48) (.add (.rd (.arr .spRates 48)) (.sub (.rd (.arr .fwd 313)) (.rd (.arr .rev 298)))),
  .set (.arr .spRates 49) (.sub (.rd (.arr .spRates 49)) (.sub (.rd (.arr .fwd 313)) (.rd (.arr .rev 298))))]

/-- utilities/mechanisms/gri30/lib/src/spec_rates.c:3003-3012 -/
def spec314 : List CStmt := [
  .set (.arr .spRates 48) (.add (.rd (.arr .spRates 48)) (.sub (.rd (.arr .fwd 314)) (.rd (.arr .rev 299)))),
  .set (.arr .spRates 49) (.sub (.rd (.arr .spRates 49)) (.sub (.rd (.arr .fwd 314)) (.rd (.arr .rev 299)))),
  .set (.arr .spRates 4) (.sub (.rd (.arr .spRates 4)) (.sub (.rd (.arr .fwd 314)) (.rd (.arr .rev 299)))),
  .set (.arr .spRates 5) (.add (.rd (.arr .spRates 5)) (.sub (.rd (.arr .fwd 314)) (.rd (.arr .rev 299))))]

/-- utilities/mechanisms/gri30/lib/src/spec_rates.c:3013-3022 -/
def spec315 : List CStmt := [
  .set (.arr .spRates 48) (.sub (.rd (.arr .spRates 48)) (.sub (.rd (.arr .fwd 315)) (.rd (.arr .rev 300)))),
  .set (.arr .spRates 49) (.add (.rd (.arr .spRates 49)) (.sub (.rd (.arr .fwd 315)) (.rd (.arr .rev 300)))),
  .set (.arr .spRates 6) (.add (.rd (.arr .spRates 6)) (.sub (.rd (.arr .fwd 315)) (.rd (.arr .rev 300)))),
  .set (.arr .spRates 7) (.sub (.rd (.arr .spRates 7)) (.sub (.rd (.arr .fwd 315)) (.rd (.arr .rev 300))))]

/-- utilities/mechanisms/gri30/lib/src/spec_rates.c:3023-3032 -/
def spec316 : List CStmt := [
  .set (.arr .spRates 48) (.add (.rd (.arr .spRates 48)) (.sub (.rd (.arr .fwd 316)) (.rd (.arr .rev 301)))),
  .set (.arr .spRates 49) (.sub (.rd (.arr .spRates 49)) (.sub (.rd (.arr .fwd 316)) (.rd (.arr .rev 301)))),
  .set (.arr .spRates 12) (.sub (.rd (.arr .spRates 12)) (.sub (.rd (.arr .fwd 316)) (.rd (.arr .rev 301)))),
  .set (.arr .spRates 13) (.add (.rd (.arr .spRates 13)) (.sub (.rd (.arr .fwd 316)) (.rd (.arr .rev 301))))]

/-- utilities/mechanisms/gri30/lib/src/spec_rates.c:3033-3040 -/
def spec317 : List CStmt := [
  .set (.arr .spRates 24) (.sub (.rd (.arr .spRates 24)) (.mul (.sub (.rd (.arr .fwd 317)) (.rd (.arr .rev 302))) (.rd (.arr .presMod 39)))),
  .set (.arr .spRates 48) (.add (.rd (.arr .spRates 48)) (.mul (.sub (.rd (.arr .fwd 317)) (.rd (.arr .rev 302))) (.rd (.arr .presMod 39)))),
  .set (.arr .spRates 12) (.sub (.rd (.arr .spRates 12)) (.mul (.sub (.rd (.arr .fwd 317)) (.rd (.arr .rev 302))) (.rd (.arr .presMod 39))))]

/-- utilities/mechanisms/gri30/lib/src/spec_rates.c:3041-3050 -/
def spec318 : List CStmt := [
  .set (.arr .spRates 48) (.sub (.rd (.arr .spRates 48)) (.sub (.rd (.arr .fwd 318)) (.rd (.arr .rev 303)))),
  .set (.arr .spRates 17) (.add (.rd (.arr .spRates 17)) (.sub (.rd (.arr .fwd 318)) (.rd (.arr .rev 303)))),
  .set (.arr .spRates 2) (.sub (.rd (.arr .spRates 2)) (.sub (.rd (.arr .fwd 318)) (.rd (.arr .rev 303)))),
  .set (.arr .spRates 25) (.add (.rd (.arr .spRates 25)) (.sub (.rd (.arr .fwd 318)) (.rd (.arr .rev 303))))]

/-- utilities/mechanisms/gri30/lib/src/spec_rates.c:3051-3058 -/
def spec319 : List CStmt := [
  .set (.arr .spRates 48) (.sub (.rd (.arr .spRates 48)) (.mul (.sub (.rd (.arr .fwd 319)) (.rd (.arr .rev 304))) (.rd (.arr .presMod 40)))),
  .set (.arr .spRates 1) (.sub (.rd (.arr .spRates 1)) (.mul (.sub (.rd (.arr .fwd 319)) (.rd (.arr .rev 304))) (.rd (.arr .presMod 40)))),
  .set (.arr .spRates 49) (.add (.rd (.arr .spRates 49)) (.mul (.sub (.rd (.arr .fwd 319)) (.rd (.arr .rev 304))) (.rd (.arr .presMod 40))))]

/-- utilities/mechanisms/gri30/lib/src/spec_rates.c:3059-3068 -/
def spec320 : List CStmt := [
  .set (.arr .spRates 48) (.sub (.rd (.arr .spRates 48)) (.sub (.rd (.arr .fwd 320)) (.rd (.arr .rev 305)))),
  .set (.arr .spRates 1) (.sub (.rd (.arr .spRates 1)) (.sub (.rd (.arr .fwd 320)) (.rd (.arr .rev 305)))),
  .set (.arr .spRates 12) (.add (.rd (.arr .spRates 12)) (.sub (.rd (.arr .fwd 320)) (.rd (.arr .rev 305)))),
  .set (.arr .spRates 25) (.add (.rd (.arr .spRates 25)) (.sub (.rd (.arr .fwd 320)) (.rd (.arr .rev 305))))]

/-- utilities/mechanisms/gri30/lib/src/spec_rates.c:3069-3078 -/
def spec321 : List CStmt := [
  .set (.arr .spRates 48) (.sub (.rd (.arr .spRates 48)) (.sub (.rd (.arr .fwd 321)) (.rd (.arr .rev 306)))),
  .set (.arr .spRates 25) (.add (.rd (.arr .spRates 25)) (.sub (.rd (.arr .fwd 321)) (.rd (.arr .rev 306)))),
  .set (.arr .spRates 18) (.add (.rd (.arr .spRates 18)) (.sub (.rd (.arr .fwd 321)) (.rd (.arr .rev 306)))),
  .set (.arr .spRates 4) (.sub (.rd (.arr .spRates 4)) (.sub (.rd (.arr .fwd 321)) (.rd (.arr .rev 306))))]

/-- utilities/mechanisms/gri30/lib/src/spec_rates.c:3079-3088 -/
def spec322 : List CStmt := [
  .set (.arr .spRates 48) (.sub (.rd (.arr .spRates 48)) (.sub (.rd (.arr .fwd 322)) (.rd (.arr .rev 307)))),
  .set (.arr .spRates 49) (.add (.rd (.arr .spRates 49)) (.sub (.rd (.arr .fwd 322)) (.rd (.arr .rev 307)))),
  .set (.arr .spRates 3) (.add (.rd (.arr .spRates 3)) (.sub (.rd (.arr .fwd 322)) (.rd (.arr .rev 307)))),
  .set (.arr .spRates 6) (.sub (.rd (.arr .spRates 6)) (.sub (.rd (.arr .fwd 322)) (.rd (.arr .rev 307))))]

/-- utilities/mechanisms/gri30/lib/src/spec_rates.c:3089-3100 -/
def spec323 : List CStmt := [
  .set (.arr .spRates 48) (.sub (.rd (.arr .spRates 48)) (.rd (.arr .fwd 323))),
  .set (.arr .spRates 17) (.add (.rd (.arr .spRates 17)) (.rd (.arr .fwd 323))),
  .set (.arr .spRates 4) (.add (.rd (.arr .spRates 4)) (.rd (.arr .fwd 323))),
  .set (.arr .spRates 6) (.sub (.rd (.arr .spRates 6)) (.rd (.arr .fwd 323))),
  .set (.arr .spRates 25) (.add (.rd (.arr .spRates 25)) (.rd (.arr .fwd 323)))]

/-- utilities/mechanisms/gri30/lib/src/spec_rates.c:3101-3107 -/
def spec324 : List CStmt := [
  .set (.arr .spRates 48) (.sub (.rd (.arr .spRates 48)) (.sub (.rd (.arr .fwd 324)) (.rd (.arr .rev 308)))),
  .set (.arr .spRates 25) (.add (.rd (.arr .spRates 25)) (.mul (.num 2 0) (.sub (.rd (.arr .fwd 324)) (.rd (.arr .rev 308))))),
  .set (.arr .spRates 12) (.sub (.rd (.arr .spRates 12)) (.sub (.rd (.arr .fwd 324)) (.rd (.arr .rev 308))))]

/-- utilities/mechanisms/gri30/lib/src/spec_rates.c:3108-3110 -/
def specRest : List CStmt := [
  .set (.arr .spRates 47) (.num 0 0)]

/-- The blocks of `void eval_spec_rates`, one per reaction: utilities/mechanisms/gri30/lib/src/spec_rates.c:5-3110 -/
def specBlocks : List (List CStmt) := [
  spec0, spec1, spec2, spec3, spec4, spec5, spec6, spec7, spec8, spec9, spec10, spec11, spec12, spec13, spec14, spec15, spec16, spec17, spec18, spec19, spec20, spec21, spec22, spec23, spec24, spec25, spec26, spec27, spec28, spec29, spec30, spec31, spec32, spec33, spec34, spec35, spec36, spec37, spec38, spec39, spec40, spec41, spec42, spec43, spec44, spec45, spec46, spec47, spec48, spec49, spec50, spec51, spec52, spec53, spec54, spec55, spec56, spec57, spec58, spec59, spec60, spec61, spec62, spec63, spec64, spec65, spec66, spec67, spec68, spec69, spec70, spec71, spec72, spec73, spec74, spec75, spec76, spec77, spec78, spec79, spec80, spec81, spec82, spec83, spec84, spec85, spec86, spec87, spec88, spec89, spec90, spec91, spec92, spec93, spec94, spec95, spec96, spec97, spec98, spec99, spec100, spec101, spec102, spec103, spec104, spec105, spec106, spec107, spec108, spec109, spec110, spec111, spec112, spec113, spec114, spec115, spec116, spec117, spec118, spec119, spec120, spec121, spec122, spec123, spec124, spec125, spec126, spec127, spec128, spec129, spec130, spec131, spec132, spec133, spec134, spec135, spec136, spec137, spec138, spec139, spec140, spec141, spec142, spec143, spec144, spec145, spec146, spec147, spec148, spec149, spec150, spec151, spec152, spec153, spec154, spec155, spec156, spec157, spec158, spec159, spec160, spec161, spec162, spec163, spec164, spec165, spec166, spec167, spec168, spec169, spec170, spec171, spec172, spec173, spec174, spec175, spec176, spec177, spec178, spec179, spec180, spec181, spec182, spec183, spec184, spec185, spec186, spec187, spec188, spec189, spec190, spec191, spec192, spec193, spec194, spec195, spec196, spec197, spec198, spec199, spec200, spec201, spec202, spec203, spec204, spec205, spec206, spec207, spec208, spec209, spec210, spec211, spec212, spec213, spec214, spec215, spec216, spec217, spec218, spec219, spec220, spec221, spec222, spec223, spec224, spec225, spec226, spec227, spec228, spec229, spec230, spec231, spec232, spec233, spec234, spec235, spec236, spec237, spec238, spec239, spec240, spec241, spec242, spec243, spec244, spec245, spec246, spec247, spec248, spec249, spec250, spec251, spec252, spec253, spec254, spec255, spec256, spec257, spec258, spec259, spec260, spec261, spec262, spec263, spec264, spec265, spec266, spec267, spec268, spec269, spec270, spec271, spec272, spec273, spec274, spec275, spec276, spec277, spec278, spec279, spec280, spec281, spec282, spec283, spec284, spec285, spec286, spec287, spec288, spec289, spec290, spec291, spec292, spec293, spec294, spec295, spec296, spec297, spec298, spec299, spec300, spec301, spec302, spec303, spec304, spec305, spec306, spec307, spec308, spec309, spec310, spec311, spec312, spec313, spec314, spec315, spec316, spec317, spec318, spec319, spec320, spec321, spec322, spec323, spec324]

end DLB.Mech.Gri30
