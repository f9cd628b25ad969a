/- Generated by tools/gen_mechanisms.py from utilities/mechanisms/drm19/lib/src/spec_rates.c. Do not edit. -/
import Verif.Model.CLang
set_option autoImplicit false

namespace DLB.Mech.Drm19
open DLB

/-- utilities/mechanisms/drm19/lib/src/spec_rates.c:5-4 (declarations without initialiser only) -/
def specStart : List CStmt := []

/-- utilities/mechanisms/drm19/lib/src/spec_rates.c:5-12 -/
def spec0 : List CStmt := [
  .set (.arr .spRates 1) (.mul (.neg (.sub (.rd (.arr .fwd 0)) (.rd (.arr .rev 0)))) (.rd (.arr .presMod 0))),
  .set (.arr .spRates 2) (.mul (.neg (.sub (.rd (.arr .fwd 0)) (.rd (.arr .rev 0)))) (.rd (.arr .presMod 0))),
  .set (.arr .spRates 4) (.mul (.sub (.rd (.arr .fwd 0)) (.rd (.arr .rev 0))) (.rd (.arr .presMod 0)))]

/-- utilities/mechanisms/drm19/lib/src/spec_rates.c:13-22 -/
def spec1 : List CStmt := [
  .set (.arr .spRates 0) (.neg (.sub (.rd (.arr .fwd 1)) (.rd (.arr .rev 1)))),
  .set (.arr .spRates 1) (.add (.rd (.arr .spRates 1)) (.sub (.rd (.arr .fwd 1)) (.rd (.arr .rev 1)))),
  .set (.arr .spRates 2) (.sub (.rd (.arr .spRates 2)) (.sub (.rd (.arr .fwd 1)) (.rd (.arr .rev 1)))),
  .set (.arr .spRates 4) (.add (.rd (.arr .spRates 4)) (.sub (.rd (.arr .fwd 1)) (.rd (.arr .rev 1))))]

/-- utilities/mechanisms/drm19/lib/src/spec_rates.c:23-32 -/
def spec2 : List CStmt := [
  .set (.arr .spRates 2) (.sub (.rd (.arr .spRates 2)) (.sub (.rd (.arr .fwd 2)) (.rd (.arr .rev 2)))),
  .set (.arr .spRates 3) (.sub (.rd (.arr .fwd 2)) (.rd (.arr .rev 2))),
  .set (.arr .spRates 4) (.add (.rd (.arr .spRates 4)) (.sub (.rd (.arr .fwd 2)) (.rd (.arr .rev 2)))),
  .set (.arr .spRates 6) (.neg (.sub (.rd (.arr .fwd 2)) (.rd (.arr .rev 2))))]

/-- utilities/mechanisms/drm19/lib/src/spec_rates.c:33-42 -/
def spec3 : List CStmt := [
  .set (.arr .spRates 1) (.add (.rd (.arr .spRates 1)) (.sub (.rd (.arr .fwd 3)) (.rd (.arr .rev 3)))),
  .set (.arr .spRates 2) (.sub (.rd (.arr .spRates 2)) (.sub (.rd (.arr .fwd 3)) (.rd (.arr .rev 3)))),
  .set (.arr .spRates 13) (.sub (.rd (.arr .fwd 3)) (.rd (.arr .rev 3))),
  .set (.arr .spRates 7) (.neg (.sub (.rd (.arr .fwd 3)) (.rd (.arr .rev 3))))]

/-- utilities/mechanisms/drm19/lib/src/spec_rates.c:43-52 -/
def spec4 : List CStmt := [
  .set (.arr .spRates 8) (.neg (.sub (.rd (.arr .fwd 4)) (.rd (.arr .rev 4)))),
  .set (.arr .spRates 1) (.add (.rd (.arr .spRates 1)) (.sub (.rd (.arr .fwd 4)) (.rd (.arr .rev 4)))),
  .set (.arr .spRates 2) (.sub (.rd (.arr .spRates 2)) (.sub (.rd (.arr .fwd 4)) (.rd (.arr .rev 4)))),
  .set (.arr .spRates 13) (.add (.rd (.arr .spRates 13)) (.sub (.rd (.arr .fwd 4)) (.rd (.arr .rev 4))))]

/-- utilities/mechanisms/drm19/lib/src/spec_rates.c:53-62 -/
def spec5 : List CStmt := [
  .set (.arr .spRates 9) (.neg (.sub (.rd (.arr .fwd 5)) (.rd (.arr .rev 5)))),
  .set (.arr .spRates 2) (.sub (.rd (.arr .spRates 2)) (.sub (.rd (.arr .fwd 5)) (.rd (.arr .rev 5)))),
  .set (.arr .spRates 14) (.sub (.rd (.arr .fwd 5)) (.rd (.arr .rev 5))),
  .set (.arr .spRates 1) (.add (.rd (.arr .spRates 1)) (.sub (.rd (.arr .fwd 5)) (.rd (.arr .rev 5))))]

/-- utilities/mechanisms/drm19/lib/src/spec_rates.c:63-72 -/
def spec6 : List CStmt := [
  .set (.arr .spRates 9) (.add (.rd (.arr .spRates 9)) (.sub (.rd (.arr .fwd 6)) (.rd (.arr .rev 6)))),
  .set (.arr .spRates 10) (.neg (.sub (.rd (.arr .fwd 6)) (.rd (.arr .rev 6)))),
  .set (.arr .spRates 4) (.add (.rd (.arr .spRates 4)) (.sub (.rd (.arr .fwd 6)) (.rd (.arr .rev 6)))),
  .set (.arr .spRates 2) (.sub (.rd (.arr .spRates 2)) (.sub (.rd (.arr .fwd 6)) (.rd (.arr .rev 6))))]

/-- utilities/mechanisms/drm19/lib/src/spec_rates.c:73-80 -/
def spec7 : List CStmt := [
  .set (.arr .spRates 2) (.sub (.rd (.arr .spRates 2)) (.mul (.sub (.rd (.arr .fwd 7)) (.rd (.arr .rev 7))) (.rd (.arr .presMod 1)))),
  .set (.arr .spRates 11) (.mul (.neg (.sub (.rd (.arr .fwd 7)) (.rd (.arr .rev 7)))) (.rd (.arr .presMod 1))),
  .set (.arr .spRates 12) (.mul (.sub (.rd (.arr .fwd 7)) (.rd (.arr .rev 7))) (.rd (.arr .presMod 1)))]

/-- utilities/mechanisms/drm19/lib/src/spec_rates.c:81-90 -/
def spec8 : List CStmt := [
  .set (.arr .spRates 2) (.sub (.rd (.arr .spRates 2)) (.sub (.rd (.arr .fwd 8)) (.rd (.arr .rev 8)))),
  .set (.arr .spRates 11) (.add (.rd (.arr .spRates 11)) (.sub (.rd (.arr .fwd 8)) (.rd (.arr .rev 8)))),
  .set (.arr .spRates 4) (.add (.rd (.arr .spRates 4)) (.sub (.rd (.arr .fwd 8)) (.rd (.arr .rev 8)))),
  .set (.arr .spRates 13) (.sub (.rd (.arr .spRates 13)) (.sub (.rd (.arr .fwd 8)) (.rd (.arr .rev 8))))]

/-- utilities/mechanisms/drm19/lib/src/spec_rates.c:91-100 -/
def spec9 : List CStmt := [
  .set (.arr .spRates 1) (.add (.rd (.arr .spRates 1)) (.sub (.rd (.arr .fwd 9)) (.rd (.arr .rev 9)))),
  .set (.arr .spRates 2) (.sub (.rd (.arr .spRates 2)) (.sub (.rd (.arr .fwd 9)) (.rd (.arr .rev 9)))),
  .set (.arr .spRates 12) (.add (.rd (.arr .spRates 12)) (.sub (.rd (.arr .fwd 9)) (.rd (.arr .rev 9)))),
  .set (.arr .spRates 13) (.sub (.rd (.arr .spRates 13)) (.sub (.rd (.arr .fwd 9)) (.rd (.arr .rev 9))))]

/-- utilities/mechanisms/drm19/lib/src/spec_rates.c:101-110 -/
def spec10 : List CStmt := [
  .set (.arr .spRates 2) (.sub (.rd (.arr .spRates 2)) (.sub (.rd (.arr .fwd 10)) (.rd (.arr .rev 10)))),
  .set (.arr .spRates 4) (.add (.rd (.arr .spRates 4)) (.sub (.rd (.arr .fwd 10)) (.rd (.arr .rev 10)))),
  .set (.arr .spRates 13) (.add (.rd (.arr .spRates 13)) (.sub (.rd (.arr .fwd 10)) (.rd (.arr .rev 10)))),
  .set (.arr .spRates 14) (.sub (.rd (.arr .spRates 14)) (.sub (.rd (.arr .fwd 10)) (.rd (.arr .rev 10))))]

/-- utilities/mechanisms/drm19/lib/src/spec_rates.c:111-120 -/
def spec11 : List CStmt := [
  .set (.arr .spRates 16) (.neg (.sub (.rd (.arr .fwd 11)) (.rd (.arr .rev 11)))),
  .set (.arr .spRates 9) (.add (.rd (.arr .spRates 9)) (.sub (.rd (.arr .fwd 11)) (.rd (.arr .rev 11)))),
  .set (.arr .spRates 2) (.sub (.rd (.arr .spRates 2)) (.sub (.rd (.arr .fwd 11)) (.rd (.arr .rev 11)))),
  .set (.arr .spRates 13) (.add (.rd (.arr .spRates 13)) (.sub (.rd (.arr .fwd 11)) (.rd (.arr .rev 11))))]

/-- utilities/mechanisms/drm19/lib/src/spec_rates.c:121-130 -/
def spec12 : List CStmt := [
  .set (.arr .spRates 17) (.neg (.sub (.rd (.arr .fwd 12)) (.rd (.arr .rev 12)))),
  .set (.arr .spRates 2) (.sub (.rd (.arr .spRates 2)) (.sub (.rd (.arr .fwd 12)) (.rd (.arr .rev 12)))),
  .set (.arr .spRates 14) (.add (.rd (.arr .spRates 14)) (.sub (.rd (.arr .fwd 12)) (.rd (.arr .rev 12)))),
  .set (.arr .spRates 9) (.add (.rd (.arr .spRates 9)) (.sub (.rd (.arr .fwd 12)) (.rd (.arr .rev 12))))]

/-- utilities/mechanisms/drm19/lib/src/spec_rates.c:131-140 -/
def spec13 : List CStmt := [
  .set (.arr .spRates 17) (.add (.rd (.arr .spRates 17)) (.sub (.rd (.arr .fwd 13)) (.rd (.arr .rev 13)))),
  .set (.arr .spRates 18) (.neg (.sub (.rd (.arr .fwd 13)) (.rd (.arr .rev 13)))),
  .set (.arr .spRates 4) (.add (.rd (.arr .spRates 4)) (.sub (.rd (.arr .fwd 13)) (.rd (.arr .rev 13)))),
  .set (.arr .spRates 2) (.sub (.rd (.arr .spRates 2)) (.sub (.rd (.arr .fwd 13)) (.rd (.arr .rev 13))))]

/-- utilities/mechanisms/drm19/lib/src/spec_rates.c:141-150 -/
def spec14 : List CStmt := [
  .set (.arr .spRates 3) (.sub (.rd (.arr .spRates 3)) (.sub (.rd (.arr .fwd 14)) (.rd (.arr .rev 14)))),
  .set (.arr .spRates 2) (.add (.rd (.arr .spRates 2)) (.sub (.rd (.arr .fwd 14)) (.rd (.arr .rev 14)))),
  .set (.arr .spRates 11) (.sub (.rd (.arr .spRates 11)) (.sub (.rd (.arr .fwd 14)) (.rd (.arr .rev 14)))),
  .set (.arr .spRates 12) (.add (.rd (.arr .spRates 12)) (.sub (.rd (.arr .fwd 14)) (.rd (.arr .rev 14))))]

/-- utilities/mechanisms/drm19/lib/src/spec_rates.c:151-160 -/
def spec15 : List CStmt := [
  .set (.arr .spRates 3) (.sub (.rd (.arr .spRates 3)) (.sub (.rd (.arr .fwd 15)) (.rd (.arr .rev 15)))),
  .set (.arr .spRates 6) (.add (.rd (.arr .spRates 6)) (.sub (.rd (.arr .fwd 15)) (.rd (.arr .rev 15)))),
  .set (.arr .spRates 14) (.sub (.rd (.arr .spRates 14)) (.sub (.rd (.arr .fwd 15)) (.rd (.arr .rev 15)))),
  .set (.arr .spRates 13) (.add (.rd (.arr .spRates 13)) (.sub (.rd (.arr .fwd 15)) (.rd (.arr .rev 15))))]

/-- utilities/mechanisms/drm19/lib/src/spec_rates.c:161-168 -/
def spec16 : List CStmt := [
  .set (.arr .spRates 1) (.sub (.rd (.arr .spRates 1)) (.mul (.sub (.rd (.arr .fwd 16)) (.rd (.arr .rev 16))) (.rd (.arr .presMod 2)))),
  .set (.arr .spRates 3) (.sub (.rd (.arr .spRates 3)) (.mul (.sub (.rd (.arr .fwd 16)) (.rd (.arr .rev 16))) (.rd (.arr .presMod 2)))),
  .set (.arr .spRates 6) (.add (.rd (.arr .spRates 6)) (.mul (.sub (.rd (.arr .fwd 16)) (.rd (.arr .rev 16))) (.rd (.arr .presMod 2))))]

/-- utilities/mechanisms/drm19/lib/src/spec_rates.c:169-176 -/
def spec17 : List CStmt := [
  .set (.arr .spRates 1) (.sub (.rd (.arr .spRates 1)) (.sub (.rd (.arr .fwd 17)) (.rd (.arr .rev 17)))),
  .set (.arr .spRates 3) (.sub (.rd (.arr .spRates 3)) (.sub (.rd (.arr .fwd 17)) (.rd (.arr .rev 17)))),
  .set (.arr .spRates 6) (.add (.rd (.arr .spRates 6)) (.sub (.rd (.arr .fwd 17)) (.rd (.arr .rev 17))))]

/-- utilities/mechanisms/drm19/lib/src/spec_rates.c:177-184 -/
def spec18 : List CStmt := [
  .set (.arr .spRates 1) (.sub (.rd (.arr .spRates 1)) (.sub (.rd (.arr .fwd 18)) (.rd (.arr .rev 18)))),
  .set (.arr .spRates 3) (.sub (.rd (.arr .spRates 3)) (.sub (.rd (.arr .fwd 18)) (.rd (.arr .rev 18)))),
  .set (.arr .spRates 6) (.add (.rd (.arr .spRates 6)) (.sub (.rd (.arr .fwd 18)) (.rd (.arr .rev 18))))]

/-- utilities/mechanisms/drm19/lib/src/spec_rates.c:185-192 -/
def spec19 : List CStmt := [
  .set (.arr .spRates 1) (.sub (.rd (.arr .spRates 1)) (.sub (.rd (.arr .fwd 19)) (.rd (.arr .rev 19)))),
  .set (.arr .spRates 3) (.sub (.rd (.arr .spRates 3)) (.sub (.rd (.arr .fwd 19)) (.rd (.arr .rev 19)))),
  .set (.arr .spRates 6) (.add (.rd (.arr .spRates 6)) (.sub (.rd (.arr .fwd 19)) (.rd (.arr .rev 19))))]

/-- utilities/mechanisms/drm19/lib/src/spec_rates.c:193-200 -/
def spec20 : List CStmt := [
  .set (.arr .spRates 3) (.sub (.rd (.arr .spRates 3)) (.sub (.rd (.arr .fwd 20)) (.rd (.arr .rev 20)))),
  .set (.arr .spRates 1) (.sub (.rd (.arr .spRates 1)) (.sub (.rd (.arr .fwd 20)) (.rd (.arr .rev 20)))),
  .set (.arr .spRates 6) (.add (.rd (.arr .spRates 6)) (.sub (.rd (.arr .fwd 20)) (.rd (.arr .rev 20))))]

/-- utilities/mechanisms/drm19/lib/src/spec_rates.c:201-210 -/
def spec21 : List CStmt := [
  .set (.arr .spRates 1) (.sub (.rd (.arr .spRates 1)) (.sub (.rd (.arr .fwd 21)) (.rd (.arr .rev 21)))),
  .set (.arr .spRates 2) (.add (.rd (.arr .spRates 2)) (.sub (.rd (.arr .fwd 21)) (.rd (.arr .rev 21)))),
  .set (.arr .spRates 3) (.sub (.rd (.arr .spRates 3)) (.sub (.rd (.arr .fwd 21)) (.rd (.arr .rev 21)))),
  .set (.arr .spRates 4) (.add (.rd (.arr .spRates 4)) (.sub (.rd (.arr .fwd 21)) (.rd (.arr .rev 21))))]

/-- utilities/mechanisms/drm19/lib/src/spec_rates.c:211-216 -/
def spec22 : List CStmt := [
  .set (.arr .spRates 0) (.add (.rd (.arr .spRates 0)) (.mul (.sub (.rd (.arr .fwd 22)) (.rd (.arr .rev 22))) (.rd (.arr .presMod 3)))),
  .set (.arr .spRates 1) (.sub (.rd (.arr .spRates 1)) (.mul (.mul (.num 2 0) (.sub (.rd (.arr .fwd 22)) (.rd (.arr .rev 22)))) (.rd (.arr .presMod 3))))]

/-- utilities/mechanisms/drm19/lib/src/spec_rates.c:217-222 -/
def spec23 : List CStmt := [
  .set (.arr .spRates 0) (.add (.rd (.arr .spRates 0)) (.sub (.rd (.arr .fwd 23)) (.rd (.arr .rev 23)))),
  .set (.arr .spRates 1) (.sub (.rd (.arr .spRates 1)) (.mul (.num 2 0) (.sub (.rd (.arr .fwd 23)) (.rd (.arr .rev 23)))))]

/-- utilities/mechanisms/drm19/lib/src/spec_rates.c:223-228 -/
def spec24 : List CStmt := [
  .set (.arr .spRates 0) (.add (.rd (.arr .spRates 0)) (.sub (.rd (.arr .fwd 24)) (.rd (.arr .rev 24)))),
  .set (.arr .spRates 1) (.sub (.rd (.arr .spRates 1)) (.mul (.num 2 0) (.sub (.rd (.arr .fwd 24)) (.rd (.arr .rev 24)))))]

/-- utilities/mechanisms/drm19/lib/src/spec_rates.c:229-234 -/
def spec25 : List CStmt := [
  .set (.arr .spRates 0) (.add (.rd (.arr .spRates 0)) (.sub (.rd (.arr .fwd 25)) (.rd (.arr .rev 25)))),
  .set (.arr .spRates 1) (.sub (.rd (.arr .spRates 1)) (.mul (.num 2 0) (.sub (.rd (.arr .fwd 25)) (.rd (.arr .rev 25)))))]

/-- utilities/mechanisms/drm19/lib/src/spec_rates.c:235-242 -/
def spec26 : List CStmt := [
  .set (.arr .spRates 1) (.sub (.rd (.arr .spRates 1)) (.mul (.sub (.rd (.arr .fwd 26)) (.rd (.arr .rev 26))) (.rd (.arr .presMod 4)))),
  .set (.arr .spRates 4) (.sub (.rd (.arr .spRates 4)) (.mul (.sub (.rd (.arr .fwd 26)) (.rd (.arr .rev 26))) (.rd (.arr .presMod 4)))),
  .set (.arr .spRates 5) (.mul (.sub (.rd (.arr .fwd 26)) (.rd (.arr .rev 26))) (.rd (.arr .presMod 4)))]

/-- utilities/mechanisms/drm19/lib/src/spec_rates.c:243-252 -/
def spec27 : List CStmt := [
  .set (.arr .spRates 0) (.add (.rd (.arr .spRates 0)) (.sub (.rd (.arr .fwd 27)) (.rd (.arr .rev 27)))),
  .set (.arr .spRates 1) (.sub (.rd (.arr .spRates 1)) (.sub (.rd (.arr .fwd 27)) (.rd (.arr .rev 27)))),
  .set (.arr .spRates 3) (.add (.rd (.arr .spRates 3)) (.sub (.rd (.arr .fwd 27)) (.rd (.arr .rev 27)))),
  .set (.arr .spRates 6) (.sub (.rd (.arr .spRates 6)) (.sub (.rd (.arr .fwd 27)) (.rd (.arr .rev 27))))]

/-- utilities/mechanisms/drm19/lib/src/spec_rates.c:253-260 -/
def spec28 : List CStmt := [
  .set (.arr .spRates 1) (.sub (.rd (.arr .spRates 1)) (.sub (.rd (.arr .fwd 28)) (.rd (.arr .rev 28)))),
  .set (.arr .spRates 4) (.add (.rd (.arr .spRates 4)) (.mul (.num 2 0) (.sub (.rd (.arr .fwd 28)) (.rd (.arr .rev 28))))),
  .set (.arr .spRates 6) (.sub (.rd (.arr .spRates 6)) (.sub (.rd (.arr .fwd 28)) (.rd (.arr .rev 28))))]

/-- utilities/mechanisms/drm19/lib/src/spec_rates.c:261-268 -/
def spec29 : List CStmt := [
  .set (.arr .spRates 1) (.sub (.rd (.arr .spRates 1)) (.mul (.sub (.rd (.arr .fwd 29)) (.rd (.arr .rev 29))) (.rd (.arr .presMod 5)))),
  .set (.arr .spRates 9) (.add (.rd (.arr .spRates 9)) (.mul (.sub (.rd (.arr .fwd 29)) (.rd (.arr .rev 29))) (.rd (.arr .presMod 5)))),
  .set (.arr .spRates 7) (.sub (.rd (.arr .spRates 7)) (.mul (.sub (.rd (.arr .fwd 29)) (.rd (.arr .rev 29))) (.rd (.arr .presMod 5))))]

/-- utilities/mechanisms/drm19/lib/src/spec_rates.c:269-276 -/
def spec30 : List CStmt := [
  .set (.arr .spRates 1) (.sub (.rd (.arr .spRates 1)) (.mul (.sub (.rd (.arr .fwd 30)) (.rd (.arr .rev 30))) (.rd (.arr .presMod 6)))),
  .set (.arr .spRates 10) (.add (.rd (.arr .spRates 10)) (.mul (.sub (.rd (.arr .fwd 30)) (.rd (.arr .rev 30))) (.rd (.arr .presMod 6)))),
  .set (.arr .spRates 9) (.sub (.rd (.arr .spRates 9)) (.mul (.sub (.rd (.arr .fwd 30)) (.rd (.arr .rev 30))) (.rd (.arr .presMod 6))))]

/-- utilities/mechanisms/drm19/lib/src/spec_rates.c:277-286 -/
def spec31 : List CStmt := [
  .set (.arr .spRates 0) (.add (.rd (.arr .spRates 0)) (.sub (.rd (.arr .fwd 31)) (.rd (.arr .rev 31)))),
  .set (.arr .spRates 1) (.sub (.rd (.arr .spRates 1)) (.sub (.rd (.arr .fwd 31)) (.rd (.arr .rev 31)))),
  .set (.arr .spRates 10) (.sub (.rd (.arr .spRates 10)) (.sub (.rd (.arr .fwd 31)) (.rd (.arr .rev 31)))),
  .set (.arr .spRates 9) (.add (.rd (.arr .spRates 9)) (.sub (.rd (.arr .fwd 31)) (.rd (.arr .rev 31))))]

/-- utilities/mechanisms/drm19/lib/src/spec_rates.c:287-294 -/
def spec32 : List CStmt := [
  .set (.arr .spRates 1) (.sub (.rd (.arr .spRates 1)) (.mul (.sub (.rd (.arr .fwd 32)) (.rd (.arr .rev 32))) (.rd (.arr .presMod 7)))),
  .set (.arr .spRates 13) (.sub (.rd (.arr .spRates 13)) (.mul (.sub (.rd (.arr .fwd 32)) (.rd (.arr .rev 32))) (.rd (.arr .presMod 7)))),
  .set (.arr .spRates 14) (.add (.rd (.arr .spRates 14)) (.mul (.sub (.rd (.arr .fwd 32)) (.rd (.arr .rev 32))) (.rd (.arr .presMod 7))))]

/-- utilities/mechanisms/drm19/lib/src/spec_rates.c:295-304 -/
def spec33 : List CStmt := [
  .set (.arr .spRates 0) (.add (.rd (.arr .spRates 0)) (.sub (.rd (.arr .fwd 33)) (.rd (.arr .rev 33)))),
  .set (.arr .spRates 1) (.sub (.rd (.arr .spRates 1)) (.sub (.rd (.arr .fwd 33)) (.rd (.arr .rev 33)))),
  .set (.arr .spRates 11) (.add (.rd (.arr .spRates 11)) (.sub (.rd (.arr .fwd 33)) (.rd (.arr .rev 33)))),
  .set (.arr .spRates 13) (.sub (.rd (.arr .spRates 13)) (.sub (.rd (.arr .fwd 33)) (.rd (.arr .rev 33))))]

/-- utilities/mechanisms/drm19/lib/src/spec_rates.c:305-312 -/
def spec34 : List CStmt := [
  .set (.arr .spRates 1) (.sub (.rd (.arr .spRates 1)) (.mul (.sub (.rd (.arr .fwd 34)) (.rd (.arr .rev 34))) (.rd (.arr .presMod 8)))),
  .set (.arr .spRates 14) (.sub (.rd (.arr .spRates 14)) (.mul (.sub (.rd (.arr .fwd 34)) (.rd (.arr .rev 34))) (.rd (.arr .presMod 8)))),
  .set (.arr .spRates 15) (.mul (.sub (.rd (.arr .fwd 34)) (.rd (.arr .rev 34))) (.rd (.arr .presMod 8)))]

/-- utilities/mechanisms/drm19/lib/src/spec_rates.c:313-322 -/
def spec35 : List CStmt := [
  .set (.arr .spRates 0) (.add (.rd (.arr .spRates 0)) (.sub (.rd (.arr .fwd 35)) (.rd (.arr .rev 35)))),
  .set (.arr .spRates 1) (.sub (.rd (.arr .spRates 1)) (.sub (.rd (.arr .fwd 35)) (.rd (.arr .rev 35)))),
  .set (.arr .spRates 13) (.add (.rd (.arr .spRates 13)) (.sub (.rd (.arr .fwd 35)) (.rd (.arr .rev 35)))),
  .set (.arr .spRates 14) (.sub (.rd (.arr .spRates 14)) (.sub (.rd (.arr .fwd 35)) (.rd (.arr .rev 35))))]

/-- utilities/mechanisms/drm19/lib/src/spec_rates.c:323-332 -/
def spec36 : List CStmt := [
  .set (.arr .spRates 1) (.sub (.rd (.arr .spRates 1)) (.sub (.rd (.arr .fwd 36)) (.rd (.arr .rev 36)))),
  .set (.arr .spRates 9) (.add (.rd (.arr .spRates 9)) (.sub (.rd (.arr .fwd 36)) (.rd (.arr .rev 36)))),
  .set (.arr .spRates 4) (.add (.rd (.arr .spRates 4)) (.sub (.rd (.arr .fwd 36)) (.rd (.arr .rev 36)))),
  .set (.arr .spRates 15) (.sub (.rd (.arr .spRates 15)) (.sub (.rd (.arr .fwd 36)) (.rd (.arr .rev 36))))]

/-- utilities/mechanisms/drm19/lib/src/spec_rates.c:333-340 -/
def spec37 : List CStmt := [
  .set (.arr .spRates 16) (.sub (.rd (.arr .spRates 16)) (.mul (.sub (.rd (.arr .fwd 37)) (.rd (.arr .rev 37))) (.rd (.arr .presMod 9)))),
  .set (.arr .spRates 1) (.sub (.rd (.arr .spRates 1)) (.mul (.sub (.rd (.arr .fwd 37)) (.rd (.arr .rev 37))) (.rd (.arr .presMod 9)))),
  .set (.arr .spRates 17) (.add (.rd (.arr .spRates 17)) (.mul (.sub (.rd (.arr .fwd 37)) (.rd (.arr .rev 37))) (.rd (.arr .presMod 9))))]

/-- utilities/mechanisms/drm19/lib/src/spec_rates.c:341-348 -/
def spec38 : List CStmt := [
  .set (.arr .spRates 1) (.sub (.rd (.arr .spRates 1)) (.mul (.sub (.rd (.arr .fwd 38)) (.rd (.arr .rev 38))) (.rd (.arr .presMod 10)))),
  .set (.arr .spRates 18) (.add (.rd (.arr .spRates 18)) (.mul (.sub (.rd (.arr .fwd 38)) (.rd (.arr .rev 38))) (.rd (.arr .presMod 10)))),
  .set (.arr .spRates 17) (.sub (.rd (.arr .spRates 17)) (.mul (.sub (.rd (.arr .fwd 38)) (.rd (.arr .rev 38))) (.rd (.arr .presMod 10))))]

/-- utilities/mechanisms/drm19/lib/src/spec_rates.c:349-358 -/
def spec39 : List CStmt := [
  .set (.arr .spRates 0) (.add (.rd (.arr .spRates 0)) (.sub (.rd (.arr .fwd 39)) (.rd (.arr .rev 39)))),
  .set (.arr .spRates 1) (.sub (.rd (.arr .spRates 1)) (.sub (.rd (.arr .fwd 39)) (.rd (.arr .rev 39)))),
  .set (.arr .spRates 18) (.sub (.rd (.arr .spRates 18)) (.sub (.rd (.arr .fwd 39)) (.rd (.arr .rev 39)))),
  .set (.arr .spRates 17) (.add (.rd (.arr .spRates 17)) (.sub (.rd (.arr .fwd 39)) (.rd (.arr .rev 39))))]

/-- utilities/mechanisms/drm19/lib/src/spec_rates.c:359-366 -/
def spec40 : List CStmt := [
  .set (.arr .spRates 0) (.sub (.rd (.arr .spRates 0)) (.mul (.sub (.rd (.arr .fwd 40)) (.rd (.arr .rev 40))) (.rd (.arr .presMod 11)))),
  .set (.arr .spRates 11) (.sub (.rd (.arr .spRates 11)) (.mul (.sub (.rd (.arr .fwd 40)) (.rd (.arr .rev 40))) (.rd (.arr .presMod 11)))),
  .set (.arr .spRates 14) (.add (.rd (.arr .spRates 14)) (.mul (.sub (.rd (.arr .fwd 40)) (.rd (.arr .rev 40))) (.rd (.arr .presMod 11))))]

/-- utilities/mechanisms/drm19/lib/src/spec_rates.c:367-376 -/
def spec41 : List CStmt := [
  .set (.arr .spRates 0) (.sub (.rd (.arr .spRates 0)) (.sub (.rd (.arr .fwd 41)) (.rd (.arr .rev 41)))),
  .set (.arr .spRates 1) (.add (.rd (.arr .spRates 1)) (.sub (.rd (.arr .fwd 41)) (.rd (.arr .rev 41)))),
  .set (.arr .spRates 4) (.sub (.rd (.arr .spRates 4)) (.sub (.rd (.arr .fwd 41)) (.rd (.arr .rev 41)))),
  .set (.arr .spRates 5) (.add (.rd (.arr .spRates 5)) (.sub (.rd (.arr .fwd 41)) (.rd (.arr .rev 41))))]

/-- utilities/mechanisms/drm19/lib/src/spec_rates.c:377-384 -/
def spec42 : List CStmt := [
  .set (.arr .spRates 2) (.add (.rd (.arr .spRates 2)) (.sub (.rd (.arr .fwd 42)) (.rd (.arr .rev 42)))),
  .set (.arr .spRates 4) (.sub (.rd (.arr .spRates 4)) (.mul (.num 2 0) (.sub (.rd (.arr .fwd 42)) (.rd (.arr .rev 42))))),
  .set (.arr .spRates 5) (.add (.rd (.arr .spRates 5)) (.sub (.rd (.arr .fwd 42)) (.rd (.arr .rev 42))))]

/-- utilities/mechanisms/drm19/lib/src/spec_rates.c:385-394 -/
def spec43 : List CStmt := [
  .set (.arr .spRates 3) (.add (.rd (.arr .spRates 3)) (.sub (.rd (.arr .fwd 43)) (.rd (.arr .rev 43)))),
  .set (.arr .spRates 4) (.sub (.rd (.arr .spRates 4)) (.sub (.rd (.arr .fwd 43)) (.rd (.arr .rev 43)))),
  .set (.arr .spRates 5) (.add (.rd (.arr .spRates 5)) (.sub (.rd (.arr .fwd 43)) (.rd (.arr .rev 43)))),
  .set (.arr .spRates 6) (.sub (.rd (.arr .spRates 6)) (.sub (.rd (.arr .fwd 43)) (.rd (.arr .rev 43))))]

/-- utilities/mechanisms/drm19/lib/src/spec_rates.c:395-404 -/
def spec44 : List CStmt := [
  .set (.arr .spRates 1) (.add (.rd (.arr .spRates 1)) (.sub (.rd (.arr .fwd 44)) (.rd (.arr .rev 44)))),
  .set (.arr .spRates 4) (.sub (.rd (.arr .spRates 4)) (.sub (.rd (.arr .fwd 44)) (.rd (.arr .rev 44)))),
  .set (.arr .spRates 14) (.add (.rd (.arr .spRates 14)) (.sub (.rd (.arr .fwd 44)) (.rd (.arr .rev 44)))),
  .set (.arr .spRates 7) (.sub (.rd (.arr .spRates 7)) (.sub (.rd (.arr .fwd 44)) (.rd (.arr .rev 44))))]

/-- utilities/mechanisms/drm19/lib/src/spec_rates.c:405-414 -/
def spec45 : List CStmt := [
  .set (.arr .spRates 8) (.sub (.rd (.arr .spRates 8)) (.sub (.rd (.arr .fwd 45)) (.rd (.arr .rev 45)))),
  .set (.arr .spRates 1) (.add (.rd (.arr .spRates 1)) (.sub (.rd (.arr .fwd 45)) (.rd (.arr .rev 45)))),
  .set (.arr .spRates 4) (.sub (.rd (.arr .spRates 4)) (.sub (.rd (.arr .fwd 45)) (.rd (.arr .rev 45)))),
  .set (.arr .spRates 14) (.add (.rd (.arr .spRates 14)) (.sub (.rd (.arr .fwd 45)) (.rd (.arr .rev 45))))]

/-- utilities/mechanisms/drm19/lib/src/spec_rates.c:415-424 -/
def spec46 : List CStmt := [
  .set (.arr .spRates 9) (.sub (.rd (.arr .spRates 9)) (.sub (.rd (.arr .fwd 46)) (.rd (.arr .rev 46)))),
  .set (.arr .spRates 4) (.sub (.rd (.arr .spRates 4)) (.sub (.rd (.arr .fwd 46)) (.rd (.arr .rev 46)))),
  .set (.arr .spRates 5) (.add (.rd (.arr .spRates 5)) (.sub (.rd (.arr .fwd 46)) (.rd (.arr .rev 46)))),
  .set (.arr .spRates 7) (.add (.rd (.arr .spRates 7)) (.sub (.rd (.arr .fwd 46)) (.rd (.arr .rev 46))))]

/-- utilities/mechanisms/drm19/lib/src/spec_rates.c:425-434 -/
def spec47 : List CStmt := [
  .set (.arr .spRates 8) (.add (.rd (.arr .spRates 8)) (.sub (.rd (.arr .fwd 47)) (.rd (.arr .rev 47)))),
  .set (.arr .spRates 9) (.sub (.rd (.arr .spRates 9)) (.sub (.rd (.arr .fwd 47)) (.rd (.arr .rev 47)))),
  .set (.arr .spRates 4) (.sub (.rd (.arr .spRates 4)) (.sub (.rd (.arr .fwd 47)) (.rd (.arr .rev 47)))),
  .set (.arr .spRates 5) (.add (.rd (.arr .spRates 5)) (.sub (.rd (.arr .fwd 47)) (.rd (.arr .rev 47))))]

/-- utilities/mechanisms/drm19/lib/src/spec_rates.c:435-444 -/
def spec48 : List CStmt := [
  .set (.arr .spRates 9) (.add (.rd (.arr .spRates 9)) (.sub (.rd (.arr .fwd 48)) (.rd (.arr .rev 48)))),
  .set (.arr .spRates 10) (.sub (.rd (.arr .spRates 10)) (.sub (.rd (.arr .fwd 48)) (.rd (.arr .rev 48)))),
  .set (.arr .spRates 4) (.sub (.rd (.arr .spRates 4)) (.sub (.rd (.arr .fwd 48)) (.rd (.arr .rev 48)))),
  .set (.arr .spRates 5) (.add (.rd (.arr .spRates 5)) (.sub (.rd (.arr .fwd 48)) (.rd (.arr .rev 48))))]

/-- utilities/mechanisms/drm19/lib/src/spec_rates.c:445-454 -/
def spec49 : List CStmt := [
  .set (.arr .spRates 1) (.add (.rd (.arr .spRates 1)) (.sub (.rd (.arr .fwd 49)) (.rd (.arr .rev 49)))),
  .set (.arr .spRates 11) (.sub (.rd (.arr .spRates 11)) (.sub (.rd (.arr .fwd 49)) (.rd (.arr .rev 49)))),
  .set (.arr .spRates 4) (.sub (.rd (.arr .spRates 4)) (.sub (.rd (.arr .fwd 49)) (.rd (.arr .rev 49)))),
  .set (.arr .spRates 12) (.add (.rd (.arr .spRates 12)) (.sub (.rd (.arr .fwd 49)) (.rd (.arr .rev 49))))]

/-- utilities/mechanisms/drm19/lib/src/spec_rates.c:455-464 -/
def spec50 : List CStmt := [
  .set (.arr .spRates 11) (.add (.rd (.arr .spRates 11)) (.sub (.rd (.arr .fwd 50)) (.rd (.arr .rev 50)))),
  .set (.arr .spRates 4) (.sub (.rd (.arr .spRates 4)) (.sub (.rd (.arr .fwd 50)) (.rd (.arr .rev 50)))),
  .set (.arr .spRates 13) (.sub (.rd (.arr .spRates 13)) (.sub (.rd (.arr .fwd 50)) (.rd (.arr .rev 50)))),
  .set (.arr .spRates 5) (.add (.rd (.arr .spRates 5)) (.sub (.rd (.arr .fwd 50)) (.rd (.arr .rev 50))))]

/-- utilities/mechanisms/drm19/lib/src/spec_rates.c:465-474 -/
def spec51 : List CStmt := [
  .set (.arr .spRates 4) (.sub (.rd (.arr .spRates 4)) (.sub (.rd (.arr .fwd 51)) (.rd (.arr .rev 51)))),
  .set (.arr .spRates 5) (.add (.rd (.arr .spRates 5)) (.sub (.rd (.arr .fwd 51)) (.rd (.arr .rev 51)))),
  .set (.arr .spRates 14) (.sub (.rd (.arr .spRates 14)) (.sub (.rd (.arr .fwd 51)) (.rd (.arr .rev 51)))),
  .set (.arr .spRates 13) (.add (.rd (.arr .spRates 13)) (.sub (.rd (.arr .fwd 51)) (.rd (.arr .rev 51))))]

/-- utilities/mechanisms/drm19/lib/src/spec_rates.c:475-484 -/
def spec52 : List CStmt := [
  .set (.arr .spRates 17) (.add (.rd (.arr .spRates 17)) (.sub (.rd (.arr .fwd 52)) (.rd (.arr .rev 52)))),
  .set (.arr .spRates 18) (.sub (.rd (.arr .spRates 18)) (.sub (.rd (.arr .fwd 52)) (.rd (.arr .rev 52)))),
  .set (.arr .spRates 4) (.sub (.rd (.arr .spRates 4)) (.sub (.rd (.arr .fwd 52)) (.rd (.arr .rev 52)))),
  .set (.arr .spRates 5) (.add (.rd (.arr .spRates 5)) (.sub (.rd (.arr .fwd 52)) (.rd (.arr .rev 52))))]

/-- utilities/mechanisms/drm19/lib/src/spec_rates.c:485-494 -/
def spec53 : List CStmt := [
  .set (.arr .spRates 4) (.add (.rd (.arr .spRates 4)) (.sub (.rd (.arr .fwd 53)) (.rd (.arr .rev 53)))),
  .set (.arr .spRates 14) (.add (.rd (.arr .spRates 14)) (.sub (.rd (.arr .fwd 53)) (.rd (.arr .rev 53)))),
  .set (.arr .spRates 6) (.sub (.rd (.arr .spRates 6)) (.sub (.rd (.arr .fwd 53)) (.rd (.arr .rev 53)))),
  .set (.arr .spRates 7) (.sub (.rd (.arr .spRates 7)) (.sub (.rd (.arr .fwd 53)) (.rd (.arr .rev 53))))]

/-- utilities/mechanisms/drm19/lib/src/spec_rates.c:495-504 -/
def spec54 : List CStmt := [
  .set (.arr .spRates 9) (.sub (.rd (.arr .spRates 9)) (.sub (.rd (.arr .fwd 54)) (.rd (.arr .rev 54)))),
  .set (.arr .spRates 10) (.add (.rd (.arr .spRates 10)) (.sub (.rd (.arr .fwd 54)) (.rd (.arr .rev 54)))),
  .set (.arr .spRates 3) (.add (.rd (.arr .spRates 3)) (.sub (.rd (.arr .fwd 54)) (.rd (.arr .rev 54)))),
  .set (.arr .spRates 6) (.sub (.rd (.arr .spRates 6)) (.sub (.rd (.arr .fwd 54)) (.rd (.arr .rev 54))))]

/-- utilities/mechanisms/drm19/lib/src/spec_rates.c:505-514 -/
def spec55 : List CStmt := [
  .set (.arr .spRates 9) (.sub (.rd (.arr .spRates 9)) (.sub (.rd (.arr .fwd 55)) (.rd (.arr .rev 55)))),
  .set (.arr .spRates 4) (.add (.rd (.arr .spRates 4)) (.sub (.rd (.arr .fwd 55)) (.rd (.arr .rev 55)))),
  .set (.arr .spRates 6) (.sub (.rd (.arr .spRates 6)) (.sub (.rd (.arr .fwd 55)) (.rd (.arr .rev 55)))),
  .set (.arr .spRates 15) (.add (.rd (.arr .spRates 15)) (.sub (.rd (.arr .fwd 55)) (.rd (.arr .rev 55))))]

/-- utilities/mechanisms/drm19/lib/src/spec_rates.c:515-524 -/
def spec56 : List CStmt := [
  .set (.arr .spRates 4) (.add (.rd (.arr .spRates 4)) (.sub (.rd (.arr .fwd 56)) (.rd (.arr .rev 56)))),
  .set (.arr .spRates 11) (.sub (.rd (.arr .spRates 11)) (.sub (.rd (.arr .fwd 56)) (.rd (.arr .rev 56)))),
  .set (.arr .spRates 12) (.add (.rd (.arr .spRates 12)) (.sub (.rd (.arr .fwd 56)) (.rd (.arr .rev 56)))),
  .set (.arr .spRates 6) (.sub (.rd (.arr .spRates 6)) (.sub (.rd (.arr .fwd 56)) (.rd (.arr .rev 56))))]

/-- utilities/mechanisms/drm19/lib/src/spec_rates.c:525-534 -/
def spec57 : List CStmt := [
  .set (.arr .spRates 3) (.sub (.rd (.arr .spRates 3)) (.sub (.rd (.arr .fwd 57)) (.rd (.arr .rev 57)))),
  .set (.arr .spRates 4) (.add (.rd (.arr .spRates 4)) (.sub (.rd (.arr .fwd 57)) (.rd (.arr .rev 57)))),
  .set (.arr .spRates 13) (.add (.rd (.arr .spRates 13)) (.sub (.rd (.arr .fwd 57)) (.rd (.arr .rev 57)))),
  .set (.arr .spRates 7) (.sub (.rd (.arr .spRates 7)) (.sub (.rd (.arr .fwd 57)) (.rd (.arr .rev 57))))]

/-- utilities/mechanisms/drm19/lib/src/spec_rates.c:535-544 -/
def spec58 : List CStmt := [
  .set (.arr .spRates 0) (.sub (.rd (.arr .spRates 0)) (.sub (.rd (.arr .fwd 58)) (.rd (.arr .rev 58)))),
  .set (.arr .spRates 1) (.add (.rd (.arr .spRates 1)) (.sub (.rd (.arr .fwd 58)) (.rd (.arr .rev 58)))),
  .set (.arr .spRates 9) (.add (.rd (.arr .spRates 9)) (.sub (.rd (.arr .fwd 58)) (.rd (.arr .rev 58)))),
  .set (.arr .spRates 7) (.sub (.rd (.arr .spRates 7)) (.sub (.rd (.arr .fwd 58)) (.rd (.arr .rev 58))))]

/-- utilities/mechanisms/drm19/lib/src/spec_rates.c:545-554 -/
def spec59 : List CStmt := [
  .set (.arr .spRates 16) (.add (.rd (.arr .spRates 16)) (.sub (.rd (.arr .fwd 59)) (.rd (.arr .rev 59)))),
  .set (.arr .spRates 9) (.sub (.rd (.arr .spRates 9)) (.sub (.rd (.arr .fwd 59)) (.rd (.arr .rev 59)))),
  .set (.arr .spRates 1) (.add (.rd (.arr .spRates 1)) (.sub (.rd (.arr .fwd 59)) (.rd (.arr .rev 59)))),
  .set (.arr .spRates 7) (.sub (.rd (.arr .spRates 7)) (.sub (.rd (.arr .fwd 59)) (.rd (.arr .rev 59))))]

/-- utilities/mechanisms/drm19/lib/src/spec_rates.c:555-562 -/
def spec60 : List CStmt := [
  .set (.arr .spRates 9) (.add (.rd (.arr .spRates 9)) (.mul (.num 2 0) (.sub (.rd (.arr .fwd 60)) (.rd (.arr .rev 60))))),
  .set (.arr .spRates 10) (.sub (.rd (.arr .spRates 10)) (.sub (.rd (.arr .fwd 60)) (.rd (.arr .rev 60)))),
  .set (.arr .spRates 7) (.sub (.rd (.arr .spRates 7)) (.sub (.rd (.arr .fwd 60)) (.rd (.arr .rev 60))))]

/-- utilities/mechanisms/drm19/lib/src/spec_rates.c:563-568 -/
def spec61 : List CStmt := [
  .set (.arr .spRates 8) (.sub (.rd (.arr .spRates 8)) (.sub (.rd (.arr .fwd 61)) (.rd (.arr .rev 61)))),
  .set (.arr .spRates 7) (.add (.rd (.arr .spRates 7)) (.sub (.rd (.arr .fwd 61)) (.rd (.arr .rev 61))))]

/-- utilities/mechanisms/drm19/lib/src/spec_rates.c:569-574 -/
def spec62 : List CStmt := [
  .set (.arr .spRates 8) (.sub (.rd (.arr .spRates 8)) (.sub (.rd (.arr .fwd 62)) (.rd (.arr .rev 62)))),
  .set (.arr .spRates 7) (.add (.rd (.arr .spRates 7)) (.sub (.rd (.arr .fwd 62)) (.rd (.arr .rev 62))))]

/-- utilities/mechanisms/drm19/lib/src/spec_rates.c:575-586 -/
def spec63 : List CStmt := [
  .set (.arr .spRates 8) (.sub (.rd (.arr .spRates 8)) (.sub (.rd (.arr .fwd 63)) (.rd (.arr .rev 63)))),
  .set (.arr .spRates 1) (.add (.rd (.arr .spRates 1)) (.sub (.rd (.arr .fwd 63)) (.rd (.arr .rev 63)))),
  .set (.arr .spRates 3) (.sub (.rd (.arr .spRates 3)) (.sub (.rd (.arr .fwd 63)) (.rd (.arr .rev 63)))),
  .set (.arr .spRates 4) (.add (.rd (.arr .spRates 4)) (.sub (.rd (.arr .fwd 63)) (.rd (.arr .rev 63)))),
  .set (.arr .spRates 11) (.add (.rd (.arr .spRates 11)) (.sub (.rd (.arr .fwd 63)) (.rd (.arr .rev 63))))]

/-- utilities/mechanisms/drm19/lib/src/spec_rates.c:587-596 -/
def spec64 : List CStmt := [
  .set (.arr .spRates 8) (.sub (.rd (.arr .spRates 8)) (.sub (.rd (.arr .fwd 64)) (.rd (.arr .rev 64)))),
  .set (.arr .spRates 11) (.add (.rd (.arr .spRates 11)) (.sub (.rd (.arr .fwd 64)) (.rd (.arr .rev 64)))),
  .set (.arr .spRates 3) (.sub (.rd (.arr .spRates 3)) (.sub (.rd (.arr .fwd 64)) (.rd (.arr .rev 64)))),
  .set (.arr .spRates 5) (.add (.rd (.arr .spRates 5)) (.sub (.rd (.arr .fwd 64)) (.rd (.arr .rev 64))))]

/-- utilities/mechanisms/drm19/lib/src/spec_rates.c:597-606 -/
def spec65 : List CStmt := [
  .set (.arr .spRates 0) (.sub (.rd (.arr .spRates 0)) (.sub (.rd (.arr .fwd 65)) (.rd (.arr .rev 65)))),
  .set (.arr .spRates 8) (.sub (.rd (.arr .spRates 8)) (.sub (.rd (.arr .fwd 65)) (.rd (.arr .rev 65)))),
  .set (.arr .spRates 9) (.add (.rd (.arr .spRates 9)) (.sub (.rd (.arr .fwd 65)) (.rd (.arr .rev 65)))),
  .set (.arr .spRates 1) (.add (.rd (.arr .spRates 1)) (.sub (.rd (.arr .fwd 65)) (.rd (.arr .rev 65))))]

/-- utilities/mechanisms/drm19/lib/src/spec_rates.c:607-612 -/
def spec66 : List CStmt := [
  .set (.arr .spRates 8) (.sub (.rd (.arr .spRates 8)) (.sub (.rd (.arr .fwd 66)) (.rd (.arr .rev 66)))),
  .set (.arr .spRates 7) (.add (.rd (.arr .spRates 7)) (.sub (.rd (.arr .fwd 66)) (.rd (.arr .rev 66))))]

/-- utilities/mechanisms/drm19/lib/src/spec_rates.c:613-622 -/
def spec67 : List CStmt := [
  .set (.arr .spRates 8) (.sub (.rd (.arr .spRates 8)) (.sub (.rd (.arr .fwd 67)) (.rd (.arr .rev 67)))),
  .set (.arr .spRates 9) (.sub (.rd (.arr .spRates 9)) (.sub (.rd (.arr .fwd 67)) (.rd (.arr .rev 67)))),
  .set (.arr .spRates 16) (.add (.rd (.arr .spRates 16)) (.sub (.rd (.arr .fwd 67)) (.rd (.arr .rev 67)))),
  .set (.arr .spRates 1) (.add (.rd (.arr .spRates 1)) (.sub (.rd (.arr .fwd 67)) (.rd (.arr .rev 67))))]

/-- utilities/mechanisms/drm19/lib/src/spec_rates.c:623-630 -/
def spec68 : List CStmt := [
  .set (.arr .spRates 8) (.sub (.rd (.arr .spRates 8)) (.sub (.rd (.arr .fwd 68)) (.rd (.arr .rev 68)))),
  .set (.arr .spRates 9) (.add (.rd (.arr .spRates 9)) (.mul (.num 2 0) (.sub (.rd (.arr .fwd 68)) (.rd (.arr .rev 68))))),
  .set (.arr .spRates 10) (.sub (.rd (.arr .spRates 10)) (.sub (.rd (.arr .fwd 68)) (.rd (.arr .rev 68))))]

/-- utilities/mechanisms/drm19/lib/src/spec_rates.c:631-636 -/
def spec69 : List CStmt := [
  .set (.arr .spRates 8) (.sub (.rd (.arr .spRates 8)) (.sub (.rd (.arr .fwd 69)) (.rd (.arr .rev 69)))),
  .set (.arr .spRates 7) (.add (.rd (.arr .spRates 7)) (.sub (.rd (.arr .fwd 69)) (.rd (.arr .rev 69))))]

/-- utilities/mechanisms/drm19/lib/src/spec_rates.c:637-642 -/
def spec70 : List CStmt := [
  .set (.arr .spRates 8) (.sub (.rd (.arr .spRates 8)) (.sub (.rd (.arr .fwd 70)) (.rd (.arr .rev 70)))),
  .set (.arr .spRates 7) (.add (.rd (.arr .spRates 7)) (.sub (.rd (.arr .fwd 70)) (.rd (.arr .rev 70))))]

/-- utilities/mechanisms/drm19/lib/src/spec_rates.c:643-652 -/
def spec71 : List CStmt := [
  .set (.arr .spRates 8) (.sub (.rd (.arr .spRates 8)) (.sub (.rd (.arr .fwd 71)) (.rd (.arr .rev 71)))),
  .set (.arr .spRates 11) (.add (.rd (.arr .spRates 11)) (.sub (.rd (.arr .fwd 71)) (.rd (.arr .rev 71)))),
  .set (.arr .spRates 12) (.sub (.rd (.arr .spRates 12)) (.sub (.rd (.arr .fwd 71)) (.rd (.arr .rev 71)))),
  .set (.arr .spRates 14) (.add (.rd (.arr .spRates 14)) (.sub (.rd (.arr .fwd 71)) (.rd (.arr .rev 71))))]

/-- utilities/mechanisms/drm19/lib/src/spec_rates.c:653-662 -/
def spec72 : List CStmt := [
  .set (.arr .spRates 9) (.sub (.rd (.arr .spRates 9)) (.sub (.rd (.arr .fwd 72)) (.rd (.arr .rev 72)))),
  .set (.arr .spRates 2) (.add (.rd (.arr .spRates 2)) (.sub (.rd (.arr .fwd 72)) (.rd (.arr .rev 72)))),
  .set (.arr .spRates 3) (.sub (.rd (.arr .spRates 3)) (.sub (.rd (.arr .fwd 72)) (.rd (.arr .rev 72)))),
  .set (.arr .spRates 15) (.add (.rd (.arr .spRates 15)) (.sub (.rd (.arr .fwd 72)) (.rd (.arr .rev 72))))]

/-- utilities/mechanisms/drm19/lib/src/spec_rates.c:663-672 -/
def spec73 : List CStmt := [
  .set (.arr .spRates 9) (.sub (.rd (.arr .spRates 9)) (.sub (.rd (.arr .fwd 73)) (.rd (.arr .rev 73)))),
  .set (.arr .spRates 3) (.sub (.rd (.arr .spRates 3)) (.sub (.rd (.arr .fwd 73)) (.rd (.arr .rev 73)))),
  .set (.arr .spRates 4) (.add (.rd (.arr .spRates 4)) (.sub (.rd (.arr .fwd 73)) (.rd (.arr .rev 73)))),
  .set (.arr .spRates 14) (.add (.rd (.arr .spRates 14)) (.sub (.rd (.arr .fwd 73)) (.rd (.arr .rev 73))))]

/-- utilities/mechanisms/drm19/lib/src/spec_rates.c:673-678 -/
def spec74 : List CStmt := [
  .set (.arr .spRates 9) (.sub (.rd (.arr .spRates 9)) (.mul (.mul (.num 2 0) (.sub (.rd (.arr .fwd 74)) (.rd (.arr .rev 74)))) (.rd (.arr .presMod 12)))),
  .set (.arr .spRates 18) (.add (.rd (.arr .spRates 18)) (.mul (.sub (.rd (.arr .fwd 74)) (.rd (.arr .rev 74))) (.rd (.arr .presMod 12))))]

/-- utilities/mechanisms/drm19/lib/src/spec_rates.c:679-686 -/
def spec75 : List CStmt := [
  .set (.arr .spRates 9) (.sub (.rd (.arr .spRates 9)) (.mul (.num 2 0) (.sub (.rd (.arr .fwd 75)) (.rd (.arr .rev 75))))),
  .set (.arr .spRates 17) (.add (.rd (.arr .spRates 17)) (.sub (.rd (.arr .fwd 75)) (.rd (.arr .rev 75)))),
  .set (.arr .spRates 1) (.add (.rd (.arr .spRates 1)) (.sub (.rd (.arr .fwd 75)) (.rd (.arr .rev 75))))]

/-- utilities/mechanisms/drm19/lib/src/spec_rates.c:687-696 -/
def spec76 : List CStmt := [
  .set (.arr .spRates 9) (.sub (.rd (.arr .spRates 9)) (.sub (.rd (.arr .fwd 76)) (.rd (.arr .rev 76)))),
  .set (.arr .spRates 10) (.add (.rd (.arr .spRates 10)) (.sub (.rd (.arr .fwd 76)) (.rd (.arr .rev 76)))),
  .set (.arr .spRates 11) (.add (.rd (.arr .spRates 11)) (.sub (.rd (.arr .fwd 76)) (.rd (.arr .rev 76)))),
  .set (.arr .spRates 13) (.sub (.rd (.arr .spRates 13)) (.sub (.rd (.arr .fwd 76)) (.rd (.arr .rev 76))))]

/-- utilities/mechanisms/drm19/lib/src/spec_rates.c:697-706 -/
def spec77 : List CStmt := [
  .set (.arr .spRates 9) (.sub (.rd (.arr .spRates 9)) (.sub (.rd (.arr .fwd 77)) (.rd (.arr .rev 77)))),
  .set (.arr .spRates 10) (.add (.rd (.arr .spRates 10)) (.sub (.rd (.arr .fwd 77)) (.rd (.arr .rev 77)))),
  .set (.arr .spRates 13) (.add (.rd (.arr .spRates 13)) (.sub (.rd (.arr .fwd 77)) (.rd (.arr .rev 77)))),
  .set (.arr .spRates 14) (.sub (.rd (.arr .spRates 14)) (.sub (.rd (.arr .fwd 77)) (.rd (.arr .rev 77))))]

/-- utilities/mechanisms/drm19/lib/src/spec_rates.c:707-716 -/
def spec78 : List CStmt := [
  .set (.arr .spRates 9) (.sub (.rd (.arr .spRates 9)) (.sub (.rd (.arr .fwd 78)) (.rd (.arr .rev 78)))),
  .set (.arr .spRates 18) (.sub (.rd (.arr .spRates 18)) (.sub (.rd (.arr .fwd 78)) (.rd (.arr .rev 78)))),
  .set (.arr .spRates 10) (.add (.rd (.arr .spRates 10)) (.sub (.rd (.arr .fwd 78)) (.rd (.arr .rev 78)))),
  .set (.arr .spRates 17) (.add (.rd (.arr .spRates 17)) (.sub (.rd (.arr .fwd 78)) (.rd (.arr .rev 78))))]

/-- utilities/mechanisms/drm19/lib/src/spec_rates.c:717-724 -/
def spec79 : List CStmt := [
  .set (.arr .spRates 1) (.add (.rd (.arr .spRates 1)) (.sub (.rd (.arr .fwd 79)) (.rd (.arr .rev 79)))),
  .set (.arr .spRates 11) (.add (.rd (.arr .spRates 11)) (.sub (.rd (.arr .fwd 79)) (.rd (.arr .rev 79)))),
  .set (.arr .spRates 13) (.sub (.rd (.arr .spRates 13)) (.sub (.rd (.arr .fwd 79)) (.rd (.arr .rev 79))))]

/-- utilities/mechanisms/drm19/lib/src/spec_rates.c:725-732 -/
def spec80 : List CStmt := [
  .set (.arr .spRates 1) (.add (.rd (.arr .spRates 1)) (.mul (.sub (.rd (.arr .fwd 80)) (.rd (.arr .rev 80))) (.rd (.arr .presMod 13)))),
  .set (.arr .spRates 11) (.add (.rd (.arr .spRates 11)) (.mul (.sub (.rd (.arr .fwd 80)) (.rd (.arr .rev 80))) (.rd (.arr .presMod 13)))),
  .set (.arr .spRates 13) (.sub (.rd (.arr .spRates 13)) (.mul (.sub (.rd (.arr .fwd 80)) (.rd (.arr .rev 80))) (.rd (.arr .presMod 13))))]

/-- utilities/mechanisms/drm19/lib/src/spec_rates.c:733-742 -/
def spec81 : List CStmt := [
  .set (.arr .spRates 11) (.add (.rd (.arr .spRates 11)) (.sub (.rd (.arr .fwd 81)) (.rd (.arr .rev 81)))),
  .set (.arr .spRates 3) (.sub (.rd (.arr .spRates 3)) (.sub (.rd (.arr .fwd 81)) (.rd (.arr .rev 81)))),
  .set (.arr .spRates 13) (.sub (.rd (.arr .spRates 13)) (.sub (.rd (.arr .fwd 81)) (.rd (.arr .rev 81)))),
  .set (.arr .spRates 6) (.add (.rd (.arr .spRates 6)) (.sub (.rd (.arr .fwd 81)) (.rd (.arr .rev 81))))]

/-- utilities/mechanisms/drm19/lib/src/spec_rates.c:743-752 -/
def spec82 : List CStmt := [
  .set (.arr .spRates 3) (.sub (.rd (.arr .spRates 3)) (.sub (.rd (.arr .fwd 82)) (.rd (.arr .rev 82)))),
  .set (.arr .spRates 6) (.add (.rd (.arr .spRates 6)) (.sub (.rd (.arr .fwd 82)) (.rd (.arr .rev 82)))),
  .set (.arr .spRates 14) (.add (.rd (.arr .spRates 14)) (.sub (.rd (.arr .fwd 82)) (.rd (.arr .rev 82)))),
  .set (.arr .spRates 15) (.sub (.rd (.arr .spRates 15)) (.sub (.rd (.arr .fwd 82)) (.rd (.arr .rev 82))))]

/-- utilities/mechanisms/drm19/lib/src/spec_rates.c:753-761 -/
def spec83 : List CStmt := [
  .set (.arr .spRates 16) (.add (.rd (.arr .spRates 16)) (.sub (.rd (.arr .fwd 83)) (.rd (.arr .rev 83)))),
  .set (.arr .spRates 17) (.sub (.rd (.arr .spRates 17)) (.sub (.rd (.arr .fwd 83)) (.rd (.arr .rev 83)))),
  .set (.arr .spRates 3) (.sub (.rd (.arr .spRates 3)) (.sub (.rd (.arr .fwd 83)) (.rd (.arr .rev 83)))),
  .set (.arr .spRates 6) (.add (.rd (.arr .spRates 6)) (.sub (.rd (.arr .fwd 83)) (.rd (.arr .rev 83))))]

/-- utilities/mechanisms/drm19/lib/src/spec_rates.c:762-766 -/
def specRest : List CStmt := [
  .set (.arr .spRates 19) (.num 0 0),
  .set (.var .dyN) (.num 0 0)]

/-- The blocks of `void eval_spec_rates`, one per reaction: utilities/mechanisms/drm19/lib/src/spec_rates.c:5-766 -/
def specBlocks : List (List CStmt) := [
  spec0, spec1, spec2, spec3, spec4, spec5, spec6, spec7, spec8, spec9, spec10, spec11, spec12, spec13, spec14, spec15, spec16, spec17, spec18, spec19, spec20, spec21, spec22, spec23, spec24, spec25, spec26, spec27, spec28, spec29, spec30, spec31, spec32, spec33, spec34, spec35, spec36, spec37, spec38, spec39, spec40, spec41, spec42, spec43, spec44, spec45, spec46, spec47, spec48, spec49, spec50, spec51, spec52, spec53, spec54, spec55, spec56, spec57, spec58, spec59, spec60, spec61, spec62, spec63, spec64, spec65, spec66, spec67, spec68, spec69, spec70, spec71, spec72, spec73, spec74, spec75, spec76, spec77, spec78, spec79, spec80, spec81, spec82, spec83]

end DLB.Mech.Drm19
