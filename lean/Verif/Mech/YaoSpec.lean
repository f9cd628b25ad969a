/- Generated by tools/gen_mechanisms.py from utilities/mechanisms/yao/lib/src/spec_rates.c. Do not edit. -/
import Verif.Model.CLang
set_option autoImplicit false

namespace DLB.Mech.Yao
open DLB

/-- utilities/mechanisms/yao/lib/src/spec_rates.c:5-4 (declarations without initialiser only) -/
def specStart : List CStmt := []

/-- utilities/mechanisms/yao/lib/src/spec_rates.c:5-14 -/
def spec0 : List CStmt := [
  .set (.arr .spRates 8) (.neg (.sub (.rd (.arr .fwd 0)) (.rd (.arr .rev 0)))),
  .set (.arr .spRates 1) (.neg (.sub (.rd (.arr .fwd 0)) (.rd (.arr .rev 0)))),
  .set (.arr .spRates 2) (.sub (.rd (.arr .fwd 0)) (.rd (.arr .rev 0))),
  .set (.arr .spRates 3) (.sub (.rd (.arr .fwd 0)) (.rd (.arr .rev 0)))]

/-- utilities/mechanisms/yao/lib/src/spec_rates.c:15-24 -/
def spec1 : List CStmt := [
  .set (.arr .spRates 1) (.add (.rd (.arr .spRates 1)) (.sub (.rd (.arr .fwd 1)) (.rd (.arr .rev 1)))),
  .set (.arr .spRates 2) (.sub (.rd (.arr .spRates 2)) (.sub (.rd (.arr .fwd 1)) (.rd (.arr .rev 1)))),
  .set (.arr .spRates 3) (.add (.rd (.arr .spRates 3)) (.sub (.rd (.arr .fwd 1)) (.rd (.arr .rev 1)))),
  .set (.arr .spRates 5) (.neg (.sub (.rd (.arr .fwd 1)) (.rd (.arr .rev 1))))]

/-- utilities/mechanisms/yao/lib/src/spec_rates.c:25-34 -/
def spec2 : List CStmt := [
  .set (.arr .spRates 1) (.add (.rd (.arr .spRates 1)) (.sub (.rd (.arr .fwd 2)) (.rd (.arr .rev 2)))),
  .set (.arr .spRates 3) (.sub (.rd (.arr .spRates 3)) (.sub (.rd (.arr .fwd 2)) (.rd (.arr .rev 2)))),
  .set (.arr .spRates 5) (.sub (.rd (.arr .spRates 5)) (.sub (.rd (.arr .fwd 2)) (.rd (.arr .rev 2)))),
  .set (.arr .spRates 6) (.sub (.rd (.arr .fwd 2)) (.rd (.arr .rev 2)))]

/-- utilities/mechanisms/yao/lib/src/spec_rates.c:35-42 -/
def spec3 : List CStmt := [
  .set (.arr .spRates 2) (.add (.rd (.arr .spRates 2)) (.sub (.rd (.arr .fwd 3)) (.rd (.arr .rev 3)))),
  .set (.arr .spRates 3) (.sub (.rd (.arr .spRates 3)) (.mul (.num 2 0) (.sub (.rd (.arr .fwd 3)) (.rd (.arr .rev 3))))),
  .set (.arr .spRates 6) (.add (.rd (.arr .spRates 6)) (.sub (.rd (.arr .fwd 3)) (.rd (.arr .rev 3))))]

/-- utilities/mechanisms/yao/lib/src/spec_rates.c:43-50 -/
def spec4 : List CStmt := [
  .set (.arr .spRates 8) (.sub (.rd (.arr .spRates 8)) (.mul (.sub (.rd (.arr .fwd 4)) (.rd (.arr .rev 4))) (.rd (.arr .presMod 0)))),
  .set (.arr .spRates 1) (.sub (.rd (.arr .spRates 1)) (.mul (.sub (.rd (.arr .fwd 4)) (.rd (.arr .rev 4))) (.rd (.arr .presMod 0)))),
  .set (.arr .spRates 4) (.mul (.sub (.rd (.arr .fwd 4)) (.rd (.arr .rev 4))) (.rd (.arr .presMod 0)))]

/-- utilities/mechanisms/yao/lib/src/spec_rates.c:51-58 -/
def spec5 : List CStmt := [
  .set (.arr .spRates 1) (.sub (.rd (.arr .spRates 1)) (.sub (.rd (.arr .fwd 5)) (.rd (.arr .rev 5)))),
  .set (.arr .spRates 3) (.add (.rd (.arr .spRates 3)) (.mul (.num 2 0) (.sub (.rd (.arr .fwd 5)) (.rd (.arr .rev 5))))),
  .set (.arr .spRates 4) (.sub (.rd (.arr .spRates 4)) (.sub (.rd (.arr .fwd 5)) (.rd (.arr .rev 5))))]

/-- utilities/mechanisms/yao/lib/src/spec_rates.c:59-68 -/
def spec6 : List CStmt := [
  .set (.arr .spRates 8) (.sub (.rd (.arr .spRates 8)) (.sub (.rd (.arr .fwd 6)) (.rd (.arr .rev 6)))),
  .set (.arr .spRates 1) (.add (.rd (.arr .spRates 1)) (.sub (.rd (.arr .fwd 6)) (.rd (.arr .rev 6)))),
  .set (.arr .spRates 4) (.add (.rd (.arr .spRates 4)) (.sub (.rd (.arr .fwd 6)) (.rd (.arr .rev 6)))),
  .set (.arr .spRates 5) (.sub (.rd (.arr .spRates 5)) (.sub (.rd (.arr .fwd 6)) (.rd (.arr .rev 6))))]

/-- utilities/mechanisms/yao/lib/src/spec_rates.c:69-78 -/
def spec7 : List CStmt := [
  .set (.arr .spRates 8) (.add (.rd (.arr .spRates 8)) (.sub (.rd (.arr .fwd 7)) (.rd (.arr .rev 7)))),
  .set (.arr .spRates 3) (.sub (.rd (.arr .spRates 3)) (.sub (.rd (.arr .fwd 7)) (.rd (.arr .rev 7)))),
  .set (.arr .spRates 4) (.sub (.rd (.arr .spRates 4)) (.sub (.rd (.arr .fwd 7)) (.rd (.arr .rev 7)))),
  .set (.arr .spRates 6) (.add (.rd (.arr .spRates 6)) (.sub (.rd (.arr .fwd 7)) (.rd (.arr .rev 7))))]

/-- utilities/mechanisms/yao/lib/src/spec_rates.c:79-88 -/
def spec8 : List CStmt := [
  .set (.arr .spRates 1) (.sub (.rd (.arr .spRates 1)) (.sub (.rd (.arr .fwd 8)) (.rd (.arr .rev 8)))),
  .set (.arr .spRates 2) (.add (.rd (.arr .spRates 2)) (.sub (.rd (.arr .fwd 8)) (.rd (.arr .rev 8)))),
  .set (.arr .spRates 4) (.sub (.rd (.arr .spRates 4)) (.sub (.rd (.arr .fwd 8)) (.rd (.arr .rev 8)))),
  .set (.arr .spRates 6) (.add (.rd (.arr .spRates 6)) (.sub (.rd (.arr .fwd 8)) (.rd (.arr .rev 8))))]

/-- utilities/mechanisms/yao/lib/src/spec_rates.c:89-98 -/
def spec9 : List CStmt := [
  .set (.arr .spRates 8) (.add (.rd (.arr .spRates 8)) (.sub (.rd (.arr .fwd 9)) (.rd (.arr .rev 9)))),
  .set (.arr .spRates 2) (.sub (.rd (.arr .spRates 2)) (.sub (.rd (.arr .fwd 9)) (.rd (.arr .rev 9)))),
  .set (.arr .spRates 3) (.add (.rd (.arr .spRates 3)) (.sub (.rd (.arr .fwd 9)) (.rd (.arr .rev 9)))),
  .set (.arr .spRates 4) (.sub (.rd (.arr .spRates 4)) (.sub (.rd (.arr .fwd 9)) (.rd (.arr .rev 9))))]

/-- utilities/mechanisms/yao/lib/src/spec_rates.c:99-106 -/
def spec10 : List CStmt := [
  .set (.arr .spRates 8) (.add (.rd (.arr .spRates 8)) (.sub (.rd (.arr .fwd 10)) (.rd (.arr .rev 10)))),
  .set (.arr .spRates 4) (.sub (.rd (.arr .spRates 4)) (.mul (.num 2 0) (.sub (.rd (.arr .fwd 10)) (.rd (.arr .rev 10))))),
  .set (.arr .spRates 7) (.sub (.rd (.arr .fwd 10)) (.rd (.arr .rev 10)))]

/-- utilities/mechanisms/yao/lib/src/spec_rates.c:107-114 -/
def spec11 : List CStmt := [
  .set (.arr .spRates 8) (.add (.rd (.arr .spRates 8)) (.sub (.rd (.arr .fwd 11)) (.rd (.arr .rev 11)))),
  .set (.arr .spRates 4) (.sub (.rd (.arr .spRates 4)) (.mul (.num 2 0) (.sub (.rd (.arr .fwd 11)) (.rd (.arr .rev 11))))),
  .set (.arr .spRates 7) (.add (.rd (.arr .spRates 7)) (.sub (.rd (.arr .fwd 11)) (.rd (.arr .rev 11))))]

/-- utilities/mechanisms/yao/lib/src/spec_rates.c:115-124 -/
def spec12 : List CStmt := [
  .set (.arr .spRates 1) (.sub (.rd (.arr .spRates 1)) (.sub (.rd (.arr .fwd 12)) (.rd (.arr .rev 12)))),
  .set (.arr .spRates 3) (.add (.rd (.arr .spRates 3)) (.sub (.rd (.arr .fwd 12)) (.rd (.arr .rev 12)))),
  .set (.arr .spRates 6) (.add (.rd (.arr .spRates 6)) (.sub (.rd (.arr .fwd 12)) (.rd (.arr .rev 12)))),
  .set (.arr .spRates 7) (.sub (.rd (.arr .spRates 7)) (.sub (.rd (.arr .fwd 12)) (.rd (.arr .rev 12))))]

/-- utilities/mechanisms/yao/lib/src/spec_rates.c:125-134 -/
def spec13 : List CStmt := [
  .set (.arr .spRates 1) (.sub (.rd (.arr .spRates 1)) (.sub (.rd (.arr .fwd 13)) (.rd (.arr .rev 13)))),
  .set (.arr .spRates 4) (.add (.rd (.arr .spRates 4)) (.sub (.rd (.arr .fwd 13)) (.rd (.arr .rev 13)))),
  .set (.arr .spRates 5) (.add (.rd (.arr .spRates 5)) (.sub (.rd (.arr .fwd 13)) (.rd (.arr .rev 13)))),
  .set (.arr .spRates 7) (.sub (.rd (.arr .spRates 7)) (.sub (.rd (.arr .fwd 13)) (.rd (.arr .rev 13))))]

/-- utilities/mechanisms/yao/lib/src/spec_rates.c:135-144 -/
def spec14 : List CStmt := [
  .set (.arr .spRates 2) (.sub (.rd (.arr .spRates 2)) (.sub (.rd (.arr .fwd 14)) (.rd (.arr .rev 14)))),
  .set (.arr .spRates 3) (.add (.rd (.arr .spRates 3)) (.sub (.rd (.arr .fwd 14)) (.rd (.arr .rev 14)))),
  .set (.arr .spRates 4) (.add (.rd (.arr .spRates 4)) (.sub (.rd (.arr .fwd 14)) (.rd (.arr .rev 14)))),
  .set (.arr .spRates 7) (.sub (.rd (.arr .spRates 7)) (.sub (.rd (.arr .fwd 14)) (.rd (.arr .rev 14))))]

/-- utilities/mechanisms/yao/lib/src/spec_rates.c:145-154 -/
def spec15 : List CStmt := [
  .set (.arr .spRates 3) (.sub (.rd (.arr .spRates 3)) (.sub (.rd (.arr .fwd 15)) (.rd (.arr .rev 15)))),
  .set (.arr .spRates 4) (.add (.rd (.arr .spRates 4)) (.sub (.rd (.arr .fwd 15)) (.rd (.arr .rev 15)))),
  .set (.arr .spRates 6) (.add (.rd (.arr .spRates 6)) (.sub (.rd (.arr .fwd 15)) (.rd (.arr .rev 15)))),
  .set (.arr .spRates 7) (.sub (.rd (.arr .spRates 7)) (.sub (.rd (.arr .fwd 15)) (.rd (.arr .rev 15))))]

/-- utilities/mechanisms/yao/lib/src/spec_rates.c:155-164 -/
def spec16 : List CStmt := [
  .set (.arr .spRates 3) (.sub (.rd (.arr .spRates 3)) (.sub (.rd (.arr .fwd 16)) (.rd (.arr .rev 16)))),
  .set (.arr .spRates 4) (.add (.rd (.arr .spRates 4)) (.sub (.rd (.arr .fwd 16)) (.rd (.arr .rev 16)))),
  .set (.arr .spRates 6) (.add (.rd (.arr .spRates 6)) (.sub (.rd (.arr .fwd 16)) (.rd (.arr .rev 16)))),
  .set (.arr .spRates 7) (.sub (.rd (.arr .spRates 7)) (.sub (.rd (.arr .fwd 16)) (.rd (.arr .rev 16))))]

/-- utilities/mechanisms/yao/lib/src/spec_rates.c:165-170 -/
def spec17 : List CStmt := [
  .set (.arr .spRates 3) (.sub (.rd (.arr .spRates 3)) (.mul (.mul (.num 2 0) (.sub (.rd (.arr .fwd 17)) (.rd (.arr .rev 17)))) (.rd (.arr .presMod 1)))),
  .set (.arr .spRates 7) (.add (.rd (.arr .spRates 7)) (.mul (.sub (.rd (.arr .fwd 17)) (.rd (.arr .rev 17))) (.rd (.arr .presMod 1))))]

/-- utilities/mechanisms/yao/lib/src/spec_rates.c:171-176 -/
def spec18 : List CStmt := [
  .set (.arr .spRates 1) (.sub (.rd (.arr .spRates 1)) (.mul (.mul (.num 2 0) (.sub (.rd (.arr .fwd 18)) (.rd (.arr .rev 18)))) (.rd (.arr .presMod 2)))),
  .set (.arr .spRates 5) (.add (.rd (.arr .spRates 5)) (.mul (.sub (.rd (.arr .fwd 18)) (.rd (.arr .rev 18))) (.rd (.arr .presMod 2))))]

/-- utilities/mechanisms/yao/lib/src/spec_rates.c:177-184 -/
def spec19 : List CStmt := [
  .set (.arr .spRates 1) (.sub (.rd (.arr .spRates 1)) (.mul (.sub (.rd (.arr .fwd 19)) (.rd (.arr .rev 19))) (.rd (.arr .presMod 3)))),
  .set (.arr .spRates 3) (.sub (.rd (.arr .spRates 3)) (.mul (.sub (.rd (.arr .fwd 19)) (.rd (.arr .rev 19))) (.rd (.arr .presMod 3)))),
  .set (.arr .spRates 6) (.add (.rd (.arr .spRates 6)) (.mul (.sub (.rd (.arr .fwd 19)) (.rd (.arr .rev 19))) (.rd (.arr .presMod 3))))]

/-- utilities/mechanisms/yao/lib/src/spec_rates.c:185-190 -/
def spec20 : List CStmt := [
  .set (.arr .spRates 8) (.add (.rd (.arr .spRates 8)) (.mul (.sub (.rd (.arr .fwd 20)) (.rd (.arr .rev 20))) (.rd (.arr .presMod 4)))),
  .set (.arr .spRates 2) (.sub (.rd (.arr .spRates 2)) (.mul (.mul (.num 2 0) (.sub (.rd (.arr .fwd 20)) (.rd (.arr .rev 20)))) (.rd (.arr .presMod 4))))]

/-- utilities/mechanisms/yao/lib/src/spec_rates.c:191-196 -/
def spec21 : List CStmt := [
  .set (.arr .spRates 1) (.sub (.rd (.arr .spRates 1)) (.mul (.num 2 0) (.sub (.rd (.arr .fwd 21)) (.rd (.arr .rev 21))))),
  .set (.arr .spRates 5) (.add (.rd (.arr .spRates 5)) (.sub (.rd (.arr .fwd 21)) (.rd (.arr .rev 21))))]

/-- utilities/mechanisms/yao/lib/src/spec_rates.c:197-202 -/
def spec22 : List CStmt := [
  .set (.arr .spRates 1) (.sub (.rd (.arr .spRates 1)) (.mul (.num 2 0) (.sub (.rd (.arr .fwd 22)) (.rd (.arr .rev 22))))),
  .set (.arr .spRates 5) (.add (.rd (.arr .spRates 5)) (.sub (.rd (.arr .fwd 22)) (.rd (.arr .rev 22))))]

/-- utilities/mechanisms/yao/lib/src/spec_rates.c:203-208 -/
def spec23 : List CStmt := [
  .set (.arr .spRates 1) (.sub (.rd (.arr .spRates 1)) (.mul (.num 2 0) (.sub (.rd (.arr .fwd 23)) (.rd (.arr .rev 23))))),
  .set (.arr .spRates 5) (.add (.rd (.arr .spRates 5)) (.sub (.rd (.arr .fwd 23)) (.rd (.arr .rev 23))))]

/-- utilities/mechanisms/yao/lib/src/spec_rates.c:209-216 -/
def spec24 : List CStmt := [
  .set (.arr .spRates 1) (.sub (.rd (.arr .spRates 1)) (.mul (.sub (.rd (.arr .fwd 24)) (.rd (.arr .rev 24))) (.rd (.arr .presMod 5)))),
  .set (.arr .spRates 2) (.sub (.rd (.arr .spRates 2)) (.mul (.sub (.rd (.arr .fwd 24)) (.rd (.arr .rev 24))) (.rd (.arr .presMod 5)))),
  .set (.arr .spRates 3) (.add (.rd (.arr .spRates 3)) (.mul (.sub (.rd (.arr .fwd 24)) (.rd (.arr .rev 24))) (.rd (.arr .presMod 5))))]

/-- utilities/mechanisms/yao/lib/src/spec_rates.c:217-226 -/
def spec25 : List CStmt := [
  .set (.arr .spRates 16) (.neg (.sub (.rd (.arr .fwd 25)) (.rd (.arr .rev 25)))),
  .set (.arr .spRates 1) (.add (.rd (.arr .spRates 1)) (.sub (.rd (.arr .fwd 25)) (.rd (.arr .rev 25)))),
  .set (.arr .spRates 3) (.sub (.rd (.arr .spRates 3)) (.sub (.rd (.arr .fwd 25)) (.rd (.arr .rev 25)))),
  .set (.arr .spRates 17) (.sub (.rd (.arr .fwd 25)) (.rd (.arr .rev 25)))]

/-- utilities/mechanisms/yao/lib/src/spec_rates.c:227-236 -/
def spec26 : List CStmt := [
  .set (.arr .spRates 16) (.sub (.rd (.arr .spRates 16)) (.sub (.rd (.arr .fwd 26)) (.rd (.arr .rev 26)))),
  .set (.arr .spRates 1) (.add (.rd (.arr .spRates 1)) (.sub (.rd (.arr .fwd 26)) (.rd (.arr .rev 26)))),
  .set (.arr .spRates 3) (.sub (.rd (.arr .spRates 3)) (.sub (.rd (.arr .fwd 26)) (.rd (.arr .rev 26)))),
  .set (.arr .spRates 17) (.add (.rd (.arr .spRates 17)) (.sub (.rd (.arr .fwd 26)) (.rd (.arr .rev 26))))]

/-- utilities/mechanisms/yao/lib/src/spec_rates.c:237-246 -/
def spec27 : List CStmt := [
  .set (.arr .spRates 16) (.sub (.rd (.arr .spRates 16)) (.sub (.rd (.arr .fwd 27)) (.rd (.arr .rev 27)))),
  .set (.arr .spRates 17) (.add (.rd (.arr .spRates 17)) (.sub (.rd (.arr .fwd 27)) (.rd (.arr .rev 27)))),
  .set (.arr .spRates 3) (.add (.rd (.arr .spRates 3)) (.sub (.rd (.arr .fwd 27)) (.rd (.arr .rev 27)))),
  .set (.arr .spRates 4) (.sub (.rd (.arr .spRates 4)) (.sub (.rd (.arr .fwd 27)) (.rd (.arr .rev 27))))]

/-- utilities/mechanisms/yao/lib/src/spec_rates.c:247-254 -/
def spec28 : List CStmt := [
  .set (.arr .spRates 16) (.sub (.rd (.arr .spRates 16)) (.mul (.sub (.rd (.arr .fwd 28)) (.rd (.arr .rev 28))) (.rd (.arr .presMod 6)))),
  .set (.arr .spRates 17) (.add (.rd (.arr .spRates 17)) (.mul (.sub (.rd (.arr .fwd 28)) (.rd (.arr .rev 28))) (.rd (.arr .presMod 6)))),
  .set (.arr .spRates 2) (.sub (.rd (.arr .spRates 2)) (.mul (.sub (.rd (.arr .fwd 28)) (.rd (.arr .rev 28))) (.rd (.arr .presMod 6))))]

/-- utilities/mechanisms/yao/lib/src/spec_rates.c:255-264 -/
def spec29 : List CStmt := [
  .set (.arr .spRates 16) (.sub (.rd (.arr .spRates 16)) (.sub (.rd (.arr .fwd 29)) (.rd (.arr .rev 29)))),
  .set (.arr .spRates 8) (.sub (.rd (.arr .spRates 8)) (.sub (.rd (.arr .fwd 29)) (.rd (.arr .rev 29)))),
  .set (.arr .spRates 2) (.add (.rd (.arr .spRates 2)) (.sub (.rd (.arr .fwd 29)) (.rd (.arr .rev 29)))),
  .set (.arr .spRates 17) (.add (.rd (.arr .spRates 17)) (.sub (.rd (.arr .fwd 29)) (.rd (.arr .rev 29))))]

/-- utilities/mechanisms/yao/lib/src/spec_rates.c:265-272 -/
def spec30 : List CStmt := [
  .set (.arr .spRates 16) (.add (.rd (.arr .spRates 16)) (.mul (.sub (.rd (.arr .fwd 30)) (.rd (.arr .rev 30))) (.rd (.arr .presMod 7)))),
  .set (.arr .spRates 1) (.add (.rd (.arr .spRates 1)) (.mul (.sub (.rd (.arr .fwd 30)) (.rd (.arr .rev 30))) (.rd (.arr .presMod 7)))),
  .set (.arr .spRates 13) (.mul (.neg (.sub (.rd (.arr .fwd 30)) (.rd (.arr .rev 30)))) (.rd (.arr .presMod 7)))]

/-- utilities/mechanisms/yao/lib/src/spec_rates.c:273-282 -/
def spec31 : List CStmt := [
  .set (.arr .spRates 16) (.add (.rd (.arr .spRates 16)) (.sub (.rd (.arr .fwd 31)) (.rd (.arr .rev 31)))),
  .set (.arr .spRates 1) (.sub (.rd (.arr .spRates 1)) (.sub (.rd (.arr .fwd 31)) (.rd (.arr .rev 31)))),
  .set (.arr .spRates 13) (.sub (.rd (.arr .spRates 13)) (.sub (.rd (.arr .fwd 31)) (.rd (.arr .rev 31)))),
  .set (.arr .spRates 5) (.add (.rd (.arr .spRates 5)) (.sub (.rd (.arr .fwd 31)) (.rd (.arr .rev 31))))]

/-- utilities/mechanisms/yao/lib/src/spec_rates.c:283-292 -/
def spec32 : List CStmt := [
  .set (.arr .spRates 16) (.add (.rd (.arr .spRates 16)) (.sub (.rd (.arr .fwd 32)) (.rd (.arr .rev 32)))),
  .set (.arr .spRates 2) (.sub (.rd (.arr .spRates 2)) (.sub (.rd (.arr .fwd 32)) (.rd (.arr .rev 32)))),
  .set (.arr .spRates 3) (.add (.rd (.arr .spRates 3)) (.sub (.rd (.arr .fwd 32)) (.rd (.arr .rev 32)))),
  .set (.arr .spRates 13) (.sub (.rd (.arr .spRates 13)) (.sub (.rd (.arr .fwd 32)) (.rd (.arr .rev 32))))]

/-- utilities/mechanisms/yao/lib/src/spec_rates.c:293-302 -/
def spec33 : List CStmt := [
  .set (.arr .spRates 1) (.add (.rd (.arr .spRates 1)) (.sub (.rd (.arr .fwd 33)) (.rd (.arr .rev 33)))),
  .set (.arr .spRates 2) (.sub (.rd (.arr .spRates 2)) (.sub (.rd (.arr .fwd 33)) (.rd (.arr .rev 33)))),
  .set (.arr .spRates 13) (.sub (.rd (.arr .spRates 13)) (.sub (.rd (.arr .fwd 33)) (.rd (.arr .rev 33)))),
  .set (.arr .spRates 17) (.add (.rd (.arr .spRates 17)) (.sub (.rd (.arr .fwd 33)) (.rd (.arr .rev 33))))]

/-- utilities/mechanisms/yao/lib/src/spec_rates.c:303-312 -/
def spec34 : List CStmt := [
  .set (.arr .spRates 16) (.add (.rd (.arr .spRates 16)) (.sub (.rd (.arr .fwd 34)) (.rd (.arr .rev 34)))),
  .set (.arr .spRates 3) (.sub (.rd (.arr .spRates 3)) (.sub (.rd (.arr .fwd 34)) (.rd (.arr .rev 34)))),
  .set (.arr .spRates 13) (.sub (.rd (.arr .spRates 13)) (.sub (.rd (.arr .fwd 34)) (.rd (.arr .rev 34)))),
  .set (.arr .spRates 6) (.add (.rd (.arr .spRates 6)) (.sub (.rd (.arr .fwd 34)) (.rd (.arr .rev 34))))]

/-- utilities/mechanisms/yao/lib/src/spec_rates.c:313-322 -/
def spec35 : List CStmt := [
  .set (.arr .spRates 8) (.sub (.rd (.arr .spRates 8)) (.sub (.rd (.arr .fwd 35)) (.rd (.arr .rev 35)))),
  .set (.arr .spRates 16) (.add (.rd (.arr .spRates 16)) (.sub (.rd (.arr .fwd 35)) (.rd (.arr .rev 35)))),
  .set (.arr .spRates 4) (.add (.rd (.arr .spRates 4)) (.sub (.rd (.arr .fwd 35)) (.rd (.arr .rev 35)))),
  .set (.arr .spRates 13) (.sub (.rd (.arr .spRates 13)) (.sub (.rd (.arr .fwd 35)) (.rd (.arr .rev 35))))]

/-- utilities/mechanisms/yao/lib/src/spec_rates.c:323-330 -/
def spec36 : List CStmt := [
  .set (.arr .spRates 16) (.add (.rd (.arr .spRates 16)) (.sub (.rd (.arr .fwd 36)) (.rd (.arr .rev 36)))),
  .set (.arr .spRates 1) (.add (.rd (.arr .spRates 1)) (.sub (.rd (.arr .fwd 36)) (.rd (.arr .rev 36)))),
  .set (.arr .spRates 13) (.sub (.rd (.arr .spRates 13)) (.sub (.rd (.arr .fwd 36)) (.rd (.arr .rev 36))))]

/-- utilities/mechanisms/yao/lib/src/spec_rates.c:331-338 -/
def spec37 : List CStmt := [
  .set (.arr .spRates 16) (.sub (.rd (.arr .spRates 16)) (.mul (.sub (.rd (.arr .fwd 37)) (.rd (.arr .rev 37))) (.rd (.arr .presMod 8)))),
  .set (.arr .spRates 5) (.sub (.rd (.arr .spRates 5)) (.mul (.sub (.rd (.arr .fwd 37)) (.rd (.arr .rev 37))) (.rd (.arr .presMod 8)))),
  .set (.arr .spRates 14) (.mul (.sub (.rd (.arr .fwd 37)) (.rd (.arr .rev 37))) (.rd (.arr .presMod 8)))]

/-- utilities/mechanisms/yao/lib/src/spec_rates.c:339-346 -/
def spec38 : List CStmt := [
  .set (.arr .spRates 1) (.sub (.rd (.arr .spRates 1)) (.mul (.sub (.rd (.arr .fwd 38)) (.rd (.arr .rev 38))) (.rd (.arr .presMod 9)))),
  .set (.arr .spRates 13) (.sub (.rd (.arr .spRates 13)) (.mul (.sub (.rd (.arr .fwd 38)) (.rd (.arr .rev 38))) (.rd (.arr .presMod 9)))),
  .set (.arr .spRates 14) (.add (.rd (.arr .spRates 14)) (.mul (.sub (.rd (.arr .fwd 38)) (.rd (.arr .rev 38))) (.rd (.arr .presMod 9))))]

/-- utilities/mechanisms/yao/lib/src/spec_rates.c:347-354 -/
def spec39 : List CStmt := [
  .set (.arr .spRates 1) (.sub (.rd (.arr .spRates 1)) (.mul (.sub (.rd (.arr .fwd 39)) (.rd (.arr .rev 39))) (.rd (.arr .presMod 10)))),
  .set (.arr .spRates 11) (.mul (.sub (.rd (.arr .fwd 39)) (.rd (.arr .rev 39))) (.rd (.arr .presMod 10))),
  .set (.arr .spRates 9) (.mul (.neg (.sub (.rd (.arr .fwd 39)) (.rd (.arr .rev 39)))) (.rd (.arr .presMod 10)))]

/-- utilities/mechanisms/yao/lib/src/spec_rates.c:355-364 -/
def spec40 : List CStmt := [
  .set (.arr .spRates 9) (.sub (.rd (.arr .spRates 9)) (.sub (.rd (.arr .fwd 40)) (.rd (.arr .rev 40)))),
  .set (.arr .spRates 2) (.sub (.rd (.arr .spRates 2)) (.sub (.rd (.arr .fwd 40)) (.rd (.arr .rev 40)))),
  .set (.arr .spRates 13) (.add (.rd (.arr .spRates 13)) (.sub (.rd (.arr .fwd 40)) (.rd (.arr .rev 40)))),
  .set (.arr .spRates 1) (.add (.rd (.arr .spRates 1)) (.sub (.rd (.arr .fwd 40)) (.rd (.arr .rev 40))))]

/-- utilities/mechanisms/yao/lib/src/spec_rates.c:365-374 -/
def spec41 : List CStmt := [
  .set (.arr .spRates 9) (.sub (.rd (.arr .spRates 9)) (.sub (.rd (.arr .fwd 41)) (.rd (.arr .rev 41)))),
  .set (.arr .spRates 3) (.sub (.rd (.arr .spRates 3)) (.sub (.rd (.arr .fwd 41)) (.rd (.arr .rev 41)))),
  .set (.arr .spRates 14) (.add (.rd (.arr .spRates 14)) (.sub (.rd (.arr .fwd 41)) (.rd (.arr .rev 41)))),
  .set (.arr .spRates 1) (.add (.rd (.arr .spRates 1)) (.sub (.rd (.arr .fwd 41)) (.rd (.arr .rev 41))))]

/-- utilities/mechanisms/yao/lib/src/spec_rates.c:375-384 -/
def spec42 : List CStmt := [
  .set (.arr .spRates 9) (.sub (.rd (.arr .spRates 9)) (.sub (.rd (.arr .fwd 42)) (.rd (.arr .rev 42)))),
  .set (.arr .spRates 11) (.add (.rd (.arr .spRates 11)) (.sub (.rd (.arr .fwd 42)) (.rd (.arr .rev 42)))),
  .set (.arr .spRates 5) (.sub (.rd (.arr .spRates 5)) (.sub (.rd (.arr .fwd 42)) (.rd (.arr .rev 42)))),
  .set (.arr .spRates 1) (.add (.rd (.arr .spRates 1)) (.sub (.rd (.arr .fwd 42)) (.rd (.arr .rev 42))))]

/-- utilities/mechanisms/yao/lib/src/spec_rates.c:385-394 -/
def spec43 : List CStmt := [
  .set (.arr .spRates 8) (.sub (.rd (.arr .spRates 8)) (.sub (.rd (.arr .fwd 43)) (.rd (.arr .rev 43)))),
  .set (.arr .spRates 9) (.sub (.rd (.arr .spRates 9)) (.sub (.rd (.arr .fwd 43)) (.rd (.arr .rev 43)))),
  .set (.arr .spRates 3) (.add (.rd (.arr .spRates 3)) (.sub (.rd (.arr .fwd 43)) (.rd (.arr .rev 43)))),
  .set (.arr .spRates 13) (.add (.rd (.arr .spRates 13)) (.sub (.rd (.arr .fwd 43)) (.rd (.arr .rev 43))))]

/-- utilities/mechanisms/yao/lib/src/spec_rates.c:395-404 -/
def spec44 : List CStmt := [
  .set (.arr .spRates 8) (.sub (.rd (.arr .spRates 8)) (.sub (.rd (.arr .fwd 44)) (.rd (.arr .rev 44)))),
  .set (.arr .spRates 9) (.sub (.rd (.arr .spRates 9)) (.sub (.rd (.arr .fwd 44)) (.rd (.arr .rev 44)))),
  .set (.arr .spRates 17) (.add (.rd (.arr .spRates 17)) (.sub (.rd (.arr .fwd 44)) (.rd (.arr .rev 44)))),
  .set (.arr .spRates 1) (.add (.rd (.arr .spRates 1)) (.mul (.num 2 0) (.sub (.rd (.arr .fwd 44)) (.rd (.arr .rev 44)))))]

/-- utilities/mechanisms/yao/lib/src/spec_rates.c:405-414 -/
def spec45 : List CStmt := [
  .set (.arr .spRates 9) (.sub (.rd (.arr .spRates 9)) (.sub (.rd (.arr .fwd 45)) (.rd (.arr .rev 45)))),
  .set (.arr .spRates 3) (.add (.rd (.arr .spRates 3)) (.sub (.rd (.arr .fwd 45)) (.rd (.arr .rev 45)))),
  .set (.arr .spRates 4) (.sub (.rd (.arr .spRates 4)) (.sub (.rd (.arr .fwd 45)) (.rd (.arr .rev 45)))),
  .set (.arr .spRates 14) (.add (.rd (.arr .spRates 14)) (.sub (.rd (.arr .fwd 45)) (.rd (.arr .rev 45))))]

/-- utilities/mechanisms/yao/lib/src/spec_rates.c:415-422 -/
def spec46 : List CStmt := [
  .set (.arr .spRates 9) (.sub (.rd (.arr .spRates 9)) (.mul (.num 2 0) (.sub (.rd (.arr .fwd 46)) (.rd (.arr .rev 46))))),
  .set (.arr .spRates 18) (.sub (.rd (.arr .fwd 46)) (.rd (.arr .rev 46))),
  .set (.arr .spRates 5) (.add (.rd (.arr .spRates 5)) (.sub (.rd (.arr .fwd 46)) (.rd (.arr .rev 46))))]

/-- utilities/mechanisms/yao/lib/src/spec_rates.c:423-428 -/
def spec47 : List CStmt := [
  .set (.arr .spRates 9) (.add (.rd (.arr .spRates 9)) (.sub (.rd (.arr .fwd 47)) (.rd (.arr .rev 47)))),
  .set (.arr .spRates 10) (.neg (.sub (.rd (.arr .fwd 47)) (.rd (.arr .rev 47))))]

/-- utilities/mechanisms/yao/lib/src/spec_rates.c:429-434 -/
def spec48 : List CStmt := [
  .set (.arr .spRates 9) (.add (.rd (.arr .spRates 9)) (.sub (.rd (.arr .fwd 48)) (.rd (.arr .rev 48)))),
  .set (.arr .spRates 10) (.sub (.rd (.arr .spRates 10)) (.sub (.rd (.arr .fwd 48)) (.rd (.arr .rev 48))))]

/-- utilities/mechanisms/yao/lib/src/spec_rates.c:435-444 -/
def spec49 : List CStmt := [
  .set (.arr .spRates 16) (.add (.rd (.arr .spRates 16)) (.sub (.rd (.arr .fwd 49)) (.rd (.arr .rev 49)))),
  .set (.arr .spRates 10) (.sub (.rd (.arr .spRates 10)) (.sub (.rd (.arr .fwd 49)) (.rd (.arr .rev 49)))),
  .set (.arr .spRates 2) (.sub (.rd (.arr .spRates 2)) (.sub (.rd (.arr .fwd 49)) (.rd (.arr .rev 49)))),
  .set (.arr .spRates 5) (.add (.rd (.arr .spRates 5)) (.sub (.rd (.arr .fwd 49)) (.rd (.arr .rev 49))))]

/-- utilities/mechanisms/yao/lib/src/spec_rates.c:445-454 -/
def spec50 : List CStmt := [
  .set (.arr .spRates 1) (.add (.rd (.arr .spRates 1)) (.sub (.rd (.arr .fwd 50)) (.rd (.arr .rev 50)))),
  .set (.arr .spRates 10) (.sub (.rd (.arr .spRates 10)) (.sub (.rd (.arr .fwd 50)) (.rd (.arr .rev 50)))),
  .set (.arr .spRates 2) (.sub (.rd (.arr .spRates 2)) (.sub (.rd (.arr .fwd 50)) (.rd (.arr .rev 50)))),
  .set (.arr .spRates 13) (.add (.rd (.arr .spRates 13)) (.sub (.rd (.arr .fwd 50)) (.rd (.arr .rev 50))))]

/-- utilities/mechanisms/yao/lib/src/spec_rates.c:455-464 -/
def spec51 : List CStmt := [
  .set (.arr .spRates 1) (.add (.rd (.arr .spRates 1)) (.sub (.rd (.arr .fwd 51)) (.rd (.arr .rev 51)))),
  .set (.arr .spRates 10) (.sub (.rd (.arr .spRates 10)) (.sub (.rd (.arr .fwd 51)) (.rd (.arr .rev 51)))),
  .set (.arr .spRates 3) (.sub (.rd (.arr .spRates 3)) (.sub (.rd (.arr .fwd 51)) (.rd (.arr .rev 51)))),
  .set (.arr .spRates 14) (.add (.rd (.arr .spRates 14)) (.sub (.rd (.arr .fwd 51)) (.rd (.arr .rev 51))))]

/-- utilities/mechanisms/yao/lib/src/spec_rates.c:465-474 -/
def spec52 : List CStmt := [
  .set (.arr .spRates 1) (.add (.rd (.arr .spRates 1)) (.sub (.rd (.arr .fwd 52)) (.rd (.arr .rev 52)))),
  .set (.arr .spRates 10) (.sub (.rd (.arr .spRates 10)) (.sub (.rd (.arr .fwd 52)) (.rd (.arr .rev 52)))),
  .set (.arr .spRates 11) (.add (.rd (.arr .spRates 11)) (.sub (.rd (.arr .fwd 52)) (.rd (.arr .rev 52)))),
  .set (.arr .spRates 5) (.sub (.rd (.arr .spRates 5)) (.sub (.rd (.arr .fwd 52)) (.rd (.arr .rev 52))))]

/-- utilities/mechanisms/yao/lib/src/spec_rates.c:475-486 -/
def spec53 : List CStmt := [
  .set (.arr .spRates 8) (.sub (.rd (.arr .spRates 8)) (.sub (.rd (.arr .fwd 53)) (.rd (.arr .rev 53)))),
  .set (.arr .spRates 1) (.add (.rd (.arr .spRates 1)) (.sub (.rd (.arr .fwd 53)) (.rd (.arr .rev 53)))),
  .set (.arr .spRates 10) (.sub (.rd (.arr .spRates 10)) (.sub (.rd (.arr .fwd 53)) (.rd (.arr .rev 53)))),
  .set (.arr .spRates 3) (.add (.rd (.arr .spRates 3)) (.sub (.rd (.arr .fwd 53)) (.rd (.arr .rev 53)))),
  .set (.arr .spRates 16) (.add (.rd (.arr .spRates 16)) (.sub (.rd (.arr .fwd 53)) (.rd (.arr .rev 53))))]

/-- utilities/mechanisms/yao/lib/src/spec_rates.c:487-496 -/
def spec54 : List CStmt := [
  .set (.arr .spRates 8) (.sub (.rd (.arr .spRates 8)) (.sub (.rd (.arr .fwd 54)) (.rd (.arr .rev 54)))),
  .set (.arr .spRates 16) (.add (.rd (.arr .spRates 16)) (.sub (.rd (.arr .fwd 54)) (.rd (.arr .rev 54)))),
  .set (.arr .spRates 10) (.sub (.rd (.arr .spRates 10)) (.sub (.rd (.arr .fwd 54)) (.rd (.arr .rev 54)))),
  .set (.arr .spRates 6) (.add (.rd (.arr .spRates 6)) (.sub (.rd (.arr .fwd 54)) (.rd (.arr .rev 54))))]

/-- utilities/mechanisms/yao/lib/src/spec_rates.c:497-502 -/
def spec55 : List CStmt := [
  .set (.arr .spRates 9) (.add (.rd (.arr .spRates 9)) (.sub (.rd (.arr .fwd 55)) (.rd (.arr .rev 55)))),
  .set (.arr .spRates 10) (.sub (.rd (.arr .spRates 10)) (.sub (.rd (.arr .fwd 55)) (.rd (.arr .rev 55))))]

/-- utilities/mechanisms/yao/lib/src/spec_rates.c:503-508 -/
def spec56 : List CStmt := [
  .set (.arr .spRates 9) (.add (.rd (.arr .spRates 9)) (.sub (.rd (.arr .fwd 56)) (.rd (.arr .rev 56)))),
  .set (.arr .spRates 10) (.sub (.rd (.arr .spRates 10)) (.sub (.rd (.arr .fwd 56)) (.rd (.arr .rev 56))))]

/-- utilities/mechanisms/yao/lib/src/spec_rates.c:509-514 -/
def spec57 : List CStmt := [
  .set (.arr .spRates 10) (.sub (.rd (.arr .spRates 10)) (.sub (.rd (.arr .fwd 57)) (.rd (.arr .rev 57)))),
  .set (.arr .spRates 9) (.add (.rd (.arr .spRates 9)) (.sub (.rd (.arr .fwd 57)) (.rd (.arr .rev 57))))]

/-- utilities/mechanisms/yao/lib/src/spec_rates.c:515-524 -/
def spec58 : List CStmt := [
  .set (.arr .spRates 16) (.add (.rd (.arr .spRates 16)) (.sub (.rd (.arr .fwd 58)) (.rd (.arr .rev 58)))),
  .set (.arr .spRates 17) (.sub (.rd (.arr .spRates 17)) (.sub (.rd (.arr .fwd 58)) (.rd (.arr .rev 58)))),
  .set (.arr .spRates 10) (.sub (.rd (.arr .spRates 10)) (.sub (.rd (.arr .fwd 58)) (.rd (.arr .rev 58)))),
  .set (.arr .spRates 14) (.add (.rd (.arr .spRates 14)) (.sub (.rd (.arr .fwd 58)) (.rd (.arr .rev 58))))]

/-- utilities/mechanisms/yao/lib/src/spec_rates.c:525-532 -/
def spec59 : List CStmt := [
  .set (.arr .spRates 1) (.sub (.rd (.arr .spRates 1)) (.mul (.sub (.rd (.arr .fwd 59)) (.rd (.arr .rev 59))) (.rd (.arr .presMod 11)))),
  .set (.arr .spRates 14) (.sub (.rd (.arr .spRates 14)) (.mul (.sub (.rd (.arr .fwd 59)) (.rd (.arr .rev 59))) (.rd (.arr .presMod 11)))),
  .set (.arr .spRates 15) (.mul (.sub (.rd (.arr .fwd 59)) (.rd (.arr .rev 59))) (.rd (.arr .presMod 11)))]

/-- utilities/mechanisms/yao/lib/src/spec_rates.c:533-542 -/
def spec60 : List CStmt := [
  .set (.arr .spRates 1) (.sub (.rd (.arr .spRates 1)) (.sub (.rd (.arr .fwd 60)) (.rd (.arr .rev 60)))),
  .set (.arr .spRates 5) (.add (.rd (.arr .spRates 5)) (.sub (.rd (.arr .fwd 60)) (.rd (.arr .rev 60)))),
  .set (.arr .spRates 14) (.sub (.rd (.arr .spRates 14)) (.sub (.rd (.arr .fwd 60)) (.rd (.arr .rev 60)))),
  .set (.arr .spRates 13) (.add (.rd (.arr .spRates 13)) (.sub (.rd (.arr .fwd 60)) (.rd (.arr .rev 60))))]

/-- utilities/mechanisms/yao/lib/src/spec_rates.c:543-552 -/
def spec61 : List CStmt := [
  .set (.arr .spRates 2) (.sub (.rd (.arr .spRates 2)) (.sub (.rd (.arr .fwd 61)) (.rd (.arr .rev 61)))),
  .set (.arr .spRates 3) (.add (.rd (.arr .spRates 3)) (.sub (.rd (.arr .fwd 61)) (.rd (.arr .rev 61)))),
  .set (.arr .spRates 13) (.add (.rd (.arr .spRates 13)) (.sub (.rd (.arr .fwd 61)) (.rd (.arr .rev 61)))),
  .set (.arr .spRates 14) (.sub (.rd (.arr .spRates 14)) (.sub (.rd (.arr .fwd 61)) (.rd (.arr .rev 61))))]

/-- utilities/mechanisms/yao/lib/src/spec_rates.c:553-562 -/
def spec62 : List CStmt := [
  .set (.arr .spRates 3) (.sub (.rd (.arr .spRates 3)) (.sub (.rd (.arr .fwd 62)) (.rd (.arr .rev 62)))),
  .set (.arr .spRates 6) (.add (.rd (.arr .spRates 6)) (.sub (.rd (.arr .fwd 62)) (.rd (.arr .rev 62)))),
  .set (.arr .spRates 14) (.sub (.rd (.arr .spRates 14)) (.sub (.rd (.arr .fwd 62)) (.rd (.arr .rev 62)))),
  .set (.arr .spRates 13) (.add (.rd (.arr .spRates 13)) (.sub (.rd (.arr .fwd 62)) (.rd (.arr .rev 62))))]

/-- utilities/mechanisms/yao/lib/src/spec_rates.c:563-572 -/
def spec63 : List CStmt := [
  .set (.arr .spRates 8) (.sub (.rd (.arr .spRates 8)) (.sub (.rd (.arr .fwd 63)) (.rd (.arr .rev 63)))),
  .set (.arr .spRates 4) (.add (.rd (.arr .spRates 4)) (.sub (.rd (.arr .fwd 63)) (.rd (.arr .rev 63)))),
  .set (.arr .spRates 13) (.add (.rd (.arr .spRates 13)) (.sub (.rd (.arr .fwd 63)) (.rd (.arr .rev 63)))),
  .set (.arr .spRates 14) (.sub (.rd (.arr .spRates 14)) (.sub (.rd (.arr .fwd 63)) (.rd (.arr .rev 63))))]

/-- utilities/mechanisms/yao/lib/src/spec_rates.c:573-582 -/
def spec64 : List CStmt := [
  .set (.arr .spRates 4) (.sub (.rd (.arr .spRates 4)) (.sub (.rd (.arr .fwd 64)) (.rd (.arr .rev 64)))),
  .set (.arr .spRates 13) (.add (.rd (.arr .spRates 13)) (.sub (.rd (.arr .fwd 64)) (.rd (.arr .rev 64)))),
  .set (.arr .spRates 14) (.sub (.rd (.arr .spRates 14)) (.sub (.rd (.arr .fwd 64)) (.rd (.arr .rev 64)))),
  .set (.arr .spRates 7) (.add (.rd (.arr .spRates 7)) (.sub (.rd (.arr .fwd 64)) (.rd (.arr .rev 64))))]

/-- utilities/mechanisms/yao/lib/src/spec_rates.c:583-590 -/
def spec65 : List CStmt := [
  .set (.arr .spRates 1) (.sub (.rd (.arr .spRates 1)) (.mul (.sub (.rd (.arr .fwd 65)) (.rd (.arr .rev 65))) (.rd (.arr .presMod 12)))),
  .set (.arr .spRates 11) (.sub (.rd (.arr .spRates 11)) (.mul (.sub (.rd (.arr .fwd 65)) (.rd (.arr .rev 65))) (.rd (.arr .presMod 12)))),
  .set (.arr .spRates 12) (.mul (.sub (.rd (.arr .fwd 65)) (.rd (.arr .rev 65))) (.rd (.arr .presMod 12)))]

/-- utilities/mechanisms/yao/lib/src/spec_rates.c:591-600 -/
def spec66 : List CStmt := [
  .set (.arr .spRates 1) (.add (.rd (.arr .spRates 1)) (.sub (.rd (.arr .fwd 66)) (.rd (.arr .rev 66)))),
  .set (.arr .spRates 2) (.sub (.rd (.arr .spRates 2)) (.sub (.rd (.arr .fwd 66)) (.rd (.arr .rev 66)))),
  .set (.arr .spRates 11) (.sub (.rd (.arr .spRates 11)) (.sub (.rd (.arr .fwd 66)) (.rd (.arr .rev 66)))),
  .set (.arr .spRates 14) (.add (.rd (.arr .spRates 14)) (.sub (.rd (.arr .fwd 66)) (.rd (.arr .rev 66))))]

/-- utilities/mechanisms/yao/lib/src/spec_rates.c:601-610 -/
def spec67 : List CStmt := [
  .set (.arr .spRates 3) (.sub (.rd (.arr .spRates 3)) (.sub (.rd (.arr .fwd 67)) (.rd (.arr .rev 67)))),
  .set (.arr .spRates 9) (.add (.rd (.arr .spRates 9)) (.sub (.rd (.arr .fwd 67)) (.rd (.arr .rev 67)))),
  .set (.arr .spRates 11) (.sub (.rd (.arr .spRates 11)) (.sub (.rd (.arr .fwd 67)) (.rd (.arr .rev 67)))),
  .set (.arr .spRates 6) (.add (.rd (.arr .spRates 6)) (.sub (.rd (.arr .fwd 67)) (.rd (.arr .rev 67))))]

/-- utilities/mechanisms/yao/lib/src/spec_rates.c:611-620 -/
def spec68 : List CStmt := [
  .set (.arr .spRates 3) (.sub (.rd (.arr .spRates 3)) (.sub (.rd (.arr .fwd 68)) (.rd (.arr .rev 68)))),
  .set (.arr .spRates 10) (.add (.rd (.arr .spRates 10)) (.sub (.rd (.arr .fwd 68)) (.rd (.arr .rev 68)))),
  .set (.arr .spRates 11) (.sub (.rd (.arr .spRates 11)) (.sub (.rd (.arr .fwd 68)) (.rd (.arr .rev 68)))),
  .set (.arr .spRates 6) (.add (.rd (.arr .spRates 6)) (.sub (.rd (.arr .fwd 68)) (.rd (.arr .rev 68))))]

/-- utilities/mechanisms/yao/lib/src/spec_rates.c:621-630 -/
def spec69 : List CStmt := [
  .set (.arr .spRates 8) (.sub (.rd (.arr .spRates 8)) (.sub (.rd (.arr .fwd 69)) (.rd (.arr .rev 69)))),
  .set (.arr .spRates 2) (.add (.rd (.arr .spRates 2)) (.sub (.rd (.arr .fwd 69)) (.rd (.arr .rev 69)))),
  .set (.arr .spRates 11) (.sub (.rd (.arr .spRates 11)) (.sub (.rd (.arr .fwd 69)) (.rd (.arr .rev 69)))),
  .set (.arr .spRates 15) (.add (.rd (.arr .spRates 15)) (.sub (.rd (.arr .fwd 69)) (.rd (.arr .rev 69))))]

/-- utilities/mechanisms/yao/lib/src/spec_rates.c:631-640 -/
def spec70 : List CStmt := [
  .set (.arr .spRates 8) (.sub (.rd (.arr .spRates 8)) (.sub (.rd (.arr .fwd 70)) (.rd (.arr .rev 70)))),
  .set (.arr .spRates 3) (.add (.rd (.arr .spRates 3)) (.sub (.rd (.arr .fwd 70)) (.rd (.arr .rev 70)))),
  .set (.arr .spRates 11) (.sub (.rd (.arr .spRates 11)) (.sub (.rd (.arr .fwd 70)) (.rd (.arr .rev 70)))),
  .set (.arr .spRates 14) (.add (.rd (.arr .spRates 14)) (.sub (.rd (.arr .fwd 70)) (.rd (.arr .rev 70))))]

/-- utilities/mechanisms/yao/lib/src/spec_rates.c:641-650 -/
def spec71 : List CStmt := [
  .set (.arr .spRates 8) (.add (.rd (.arr .spRates 8)) (.sub (.rd (.arr .fwd 71)) (.rd (.arr .rev 71)))),
  .set (.arr .spRates 12) (.add (.rd (.arr .spRates 12)) (.sub (.rd (.arr .fwd 71)) (.rd (.arr .rev 71)))),
  .set (.arr .spRates 11) (.sub (.rd (.arr .spRates 11)) (.sub (.rd (.arr .fwd 71)) (.rd (.arr .rev 71)))),
  .set (.arr .spRates 4) (.sub (.rd (.arr .spRates 4)) (.sub (.rd (.arr .fwd 71)) (.rd (.arr .rev 71))))]

/-- utilities/mechanisms/yao/lib/src/spec_rates.c:651-660 -/
def spec72 : List CStmt := [
  .set (.arr .spRates 3) (.add (.rd (.arr .spRates 3)) (.sub (.rd (.arr .fwd 72)) (.rd (.arr .rev 72)))),
  .set (.arr .spRates 11) (.sub (.rd (.arr .spRates 11)) (.sub (.rd (.arr .fwd 72)) (.rd (.arr .rev 72)))),
  .set (.arr .spRates 4) (.sub (.rd (.arr .spRates 4)) (.sub (.rd (.arr .fwd 72)) (.rd (.arr .rev 72)))),
  .set (.arr .spRates 15) (.add (.rd (.arr .spRates 15)) (.sub (.rd (.arr .fwd 72)) (.rd (.arr .rev 72))))]

/-- utilities/mechanisms/yao/lib/src/spec_rates.c:661-670 -/
def spec73 : List CStmt := [
  .set (.arr .spRates 4) (.add (.rd (.arr .spRates 4)) (.sub (.rd (.arr .fwd 73)) (.rd (.arr .rev 73)))),
  .set (.arr .spRates 11) (.sub (.rd (.arr .spRates 11)) (.sub (.rd (.arr .fwd 73)) (.rd (.arr .rev 73)))),
  .set (.arr .spRates 12) (.add (.rd (.arr .spRates 12)) (.sub (.rd (.arr .fwd 73)) (.rd (.arr .rev 73)))),
  .set (.arr .spRates 7) (.sub (.rd (.arr .spRates 7)) (.sub (.rd (.arr .fwd 73)) (.rd (.arr .rev 73))))]

/-- utilities/mechanisms/yao/lib/src/spec_rates.c:671-680 -/
def spec74 : List CStmt := [
  .set (.arr .spRates 16) (.add (.rd (.arr .spRates 16)) (.sub (.rd (.arr .fwd 74)) (.rd (.arr .rev 74)))),
  .set (.arr .spRates 11) (.sub (.rd (.arr .spRates 11)) (.sub (.rd (.arr .fwd 74)) (.rd (.arr .rev 74)))),
  .set (.arr .spRates 12) (.add (.rd (.arr .spRates 12)) (.sub (.rd (.arr .fwd 74)) (.rd (.arr .rev 74)))),
  .set (.arr .spRates 13) (.sub (.rd (.arr .spRates 13)) (.sub (.rd (.arr .fwd 74)) (.rd (.arr .rev 74))))]

/-- utilities/mechanisms/yao/lib/src/spec_rates.c:681-690 -/
def spec75 : List CStmt := [
  .set (.arr .spRates 11) (.sub (.rd (.arr .spRates 11)) (.sub (.rd (.arr .fwd 75)) (.rd (.arr .rev 75)))),
  .set (.arr .spRates 12) (.add (.rd (.arr .spRates 12)) (.sub (.rd (.arr .fwd 75)) (.rd (.arr .rev 75)))),
  .set (.arr .spRates 13) (.add (.rd (.arr .spRates 13)) (.sub (.rd (.arr .fwd 75)) (.rd (.arr .rev 75)))),
  .set (.arr .spRates 14) (.sub (.rd (.arr .spRates 14)) (.sub (.rd (.arr .fwd 75)) (.rd (.arr .rev 75))))]

/-- utilities/mechanisms/yao/lib/src/spec_rates.c:691-700 -/
def spec76 : List CStmt := [
  .set (.arr .spRates 9) (.sub (.rd (.arr .spRates 9)) (.sub (.rd (.arr .fwd 76)) (.rd (.arr .rev 76)))),
  .set (.arr .spRates 11) (.sub (.rd (.arr .spRates 11)) (.sub (.rd (.arr .fwd 76)) (.rd (.arr .rev 76)))),
  .set (.arr .spRates 20) (.sub (.rd (.arr .fwd 76)) (.rd (.arr .rev 76))),
  .set (.arr .spRates 1) (.add (.rd (.arr .spRates 1)) (.sub (.rd (.arr .fwd 76)) (.rd (.arr .rev 76))))]

/-- utilities/mechanisms/yao/lib/src/spec_rates.c:701-710 -/
def spec77 : List CStmt := [
  .set (.arr .spRates 1) (.add (.rd (.arr .spRates 1)) (.sub (.rd (.arr .fwd 77)) (.rd (.arr .rev 77)))),
  .set (.arr .spRates 10) (.sub (.rd (.arr .spRates 10)) (.sub (.rd (.arr .fwd 77)) (.rd (.arr .rev 77)))),
  .set (.arr .spRates 11) (.sub (.rd (.arr .spRates 11)) (.sub (.rd (.arr .fwd 77)) (.rd (.arr .rev 77)))),
  .set (.arr .spRates 20) (.add (.rd (.arr .spRates 20)) (.sub (.rd (.arr .fwd 77)) (.rd (.arr .rev 77))))]

/-- utilities/mechanisms/yao/lib/src/spec_rates.c:711-716 -/
def spec78 : List CStmt := [
  .set (.arr .spRates 11) (.sub (.rd (.arr .spRates 11)) (.mul (.mul (.num 2 0) (.sub (.rd (.arr .fwd 78)) (.rd (.arr .rev 78)))) (.rd (.arr .presMod 13)))),
  .set (.arr .spRates 22) (.mul (.sub (.rd (.arr .fwd 78)) (.rd (.arr .rev 78))) (.rd (.arr .presMod 13)))]

/-- utilities/mechanisms/yao/lib/src/spec_rates.c:717-724 -/
def spec79 : List CStmt := [
  .set (.arr .spRates 1) (.add (.rd (.arr .spRates 1)) (.sub (.rd (.arr .fwd 79)) (.rd (.arr .rev 79)))),
  .set (.arr .spRates 11) (.sub (.rd (.arr .spRates 11)) (.mul (.num 2 0) (.sub (.rd (.arr .fwd 79)) (.rd (.arr .rev 79))))),
  .set (.arr .spRates 21) (.sub (.rd (.arr .fwd 79)) (.rd (.arr .rev 79)))]

/-- utilities/mechanisms/yao/lib/src/spec_rates.c:725-734 -/
def spec80 : List CStmt := [
  .set (.arr .spRates 1) (.sub (.rd (.arr .spRates 1)) (.sub (.rd (.arr .fwd 80)) (.rd (.arr .rev 80)))),
  .set (.arr .spRates 5) (.add (.rd (.arr .spRates 5)) (.sub (.rd (.arr .fwd 80)) (.rd (.arr .rev 80)))),
  .set (.arr .spRates 14) (.add (.rd (.arr .spRates 14)) (.sub (.rd (.arr .fwd 80)) (.rd (.arr .rev 80)))),
  .set (.arr .spRates 15) (.sub (.rd (.arr .spRates 15)) (.sub (.rd (.arr .fwd 80)) (.rd (.arr .rev 80))))]

/-- utilities/mechanisms/yao/lib/src/spec_rates.c:735-744 -/
def spec81 : List CStmt := [
  .set (.arr .spRates 3) (.add (.rd (.arr .spRates 3)) (.sub (.rd (.arr .fwd 81)) (.rd (.arr .rev 81)))),
  .set (.arr .spRates 1) (.sub (.rd (.arr .spRates 1)) (.sub (.rd (.arr .fwd 81)) (.rd (.arr .rev 81)))),
  .set (.arr .spRates 11) (.add (.rd (.arr .spRates 11)) (.sub (.rd (.arr .fwd 81)) (.rd (.arr .rev 81)))),
  .set (.arr .spRates 15) (.sub (.rd (.arr .spRates 15)) (.sub (.rd (.arr .fwd 81)) (.rd (.arr .rev 81))))]

/-- utilities/mechanisms/yao/lib/src/spec_rates.c:745-754 -/
def spec82 : List CStmt := [
  .set (.arr .spRates 1) (.sub (.rd (.arr .spRates 1)) (.sub (.rd (.arr .fwd 82)) (.rd (.arr .rev 82)))),
  .set (.arr .spRates 10) (.add (.rd (.arr .spRates 10)) (.sub (.rd (.arr .fwd 82)) (.rd (.arr .rev 82)))),
  .set (.arr .spRates 6) (.add (.rd (.arr .spRates 6)) (.sub (.rd (.arr .fwd 82)) (.rd (.arr .rev 82)))),
  .set (.arr .spRates 15) (.sub (.rd (.arr .spRates 15)) (.sub (.rd (.arr .fwd 82)) (.rd (.arr .rev 82))))]

/-- utilities/mechanisms/yao/lib/src/spec_rates.c:755-764 -/
def spec83 : List CStmt := [
  .set (.arr .spRates 2) (.sub (.rd (.arr .spRates 2)) (.sub (.rd (.arr .fwd 83)) (.rd (.arr .rev 83)))),
  .set (.arr .spRates 3) (.add (.rd (.arr .spRates 3)) (.sub (.rd (.arr .fwd 83)) (.rd (.arr .rev 83)))),
  .set (.arr .spRates 14) (.add (.rd (.arr .spRates 14)) (.sub (.rd (.arr .fwd 83)) (.rd (.arr .rev 83)))),
  .set (.arr .spRates 15) (.sub (.rd (.arr .spRates 15)) (.sub (.rd (.arr .fwd 83)) (.rd (.arr .rev 83))))]

/-- utilities/mechanisms/yao/lib/src/spec_rates.c:765-774 -/
def spec84 : List CStmt := [
  .set (.arr .spRates 3) (.sub (.rd (.arr .spRates 3)) (.sub (.rd (.arr .fwd 84)) (.rd (.arr .rev 84)))),
  .set (.arr .spRates 6) (.add (.rd (.arr .spRates 6)) (.sub (.rd (.arr .fwd 84)) (.rd (.arr .rev 84)))),
  .set (.arr .spRates 14) (.add (.rd (.arr .spRates 14)) (.sub (.rd (.arr .fwd 84)) (.rd (.arr .rev 84)))),
  .set (.arr .spRates 15) (.sub (.rd (.arr .spRates 15)) (.sub (.rd (.arr .fwd 84)) (.rd (.arr .rev 84))))]

/-- utilities/mechanisms/yao/lib/src/spec_rates.c:775-784 -/
def spec85 : List CStmt := [
  .set (.arr .spRates 8) (.sub (.rd (.arr .spRates 8)) (.sub (.rd (.arr .fwd 85)) (.rd (.arr .rev 85)))),
  .set (.arr .spRates 4) (.add (.rd (.arr .spRates 4)) (.sub (.rd (.arr .fwd 85)) (.rd (.arr .rev 85)))),
  .set (.arr .spRates 14) (.add (.rd (.arr .spRates 14)) (.sub (.rd (.arr .fwd 85)) (.rd (.arr .rev 85)))),
  .set (.arr .spRates 15) (.sub (.rd (.arr .spRates 15)) (.sub (.rd (.arr .fwd 85)) (.rd (.arr .rev 85))))]

/-- utilities/mechanisms/yao/lib/src/spec_rates.c:785-794 -/
def spec86 : List CStmt := [
  .set (.arr .spRates 1) (.sub (.rd (.arr .spRates 1)) (.sub (.rd (.arr .fwd 86)) (.rd (.arr .rev 86)))),
  .set (.arr .spRates 11) (.add (.rd (.arr .spRates 11)) (.sub (.rd (.arr .fwd 86)) (.rd (.arr .rev 86)))),
  .set (.arr .spRates 12) (.sub (.rd (.arr .spRates 12)) (.sub (.rd (.arr .fwd 86)) (.rd (.arr .rev 86)))),
  .set (.arr .spRates 5) (.add (.rd (.arr .spRates 5)) (.sub (.rd (.arr .fwd 86)) (.rd (.arr .rev 86))))]

/-- utilities/mechanisms/yao/lib/src/spec_rates.c:795-804 -/
def spec87 : List CStmt := [
  .set (.arr .spRates 3) (.add (.rd (.arr .spRates 3)) (.sub (.rd (.arr .fwd 87)) (.rd (.arr .rev 87)))),
  .set (.arr .spRates 2) (.sub (.rd (.arr .spRates 2)) (.sub (.rd (.arr .fwd 87)) (.rd (.arr .rev 87)))),
  .set (.arr .spRates 11) (.add (.rd (.arr .spRates 11)) (.sub (.rd (.arr .fwd 87)) (.rd (.arr .rev 87)))),
  .set (.arr .spRates 12) (.sub (.rd (.arr .spRates 12)) (.sub (.rd (.arr .fwd 87)) (.rd (.arr .rev 87))))]

/-- utilities/mechanisms/yao/lib/src/spec_rates.c:805-814 -/
def spec88 : List CStmt := [
  .set (.arr .spRates 11) (.add (.rd (.arr .spRates 11)) (.sub (.rd (.arr .fwd 88)) (.rd (.arr .rev 88)))),
  .set (.arr .spRates 3) (.sub (.rd (.arr .spRates 3)) (.sub (.rd (.arr .fwd 88)) (.rd (.arr .rev 88)))),
  .set (.arr .spRates 12) (.sub (.rd (.arr .spRates 12)) (.sub (.rd (.arr .fwd 88)) (.rd (.arr .rev 88)))),
  .set (.arr .spRates 6) (.add (.rd (.arr .spRates 6)) (.sub (.rd (.arr .fwd 88)) (.rd (.arr .rev 88))))]

/-- utilities/mechanisms/yao/lib/src/spec_rates.c:815-822 -/
def spec89 : List CStmt := [
  .set (.arr .spRates 9) (.sub (.rd (.arr .spRates 9)) (.sub (.rd (.arr .fwd 89)) (.rd (.arr .rev 89)))),
  .set (.arr .spRates 11) (.add (.rd (.arr .spRates 11)) (.mul (.num 2 0) (.sub (.rd (.arr .fwd 89)) (.rd (.arr .rev 89))))),
  .set (.arr .spRates 12) (.sub (.rd (.arr .spRates 12)) (.sub (.rd (.arr .fwd 89)) (.rd (.arr .rev 89))))]

/-- utilities/mechanisms/yao/lib/src/spec_rates.c:823-830 -/
def spec90 : List CStmt := [
  .set (.arr .spRates 10) (.sub (.rd (.arr .spRates 10)) (.sub (.rd (.arr .fwd 90)) (.rd (.arr .rev 90)))),
  .set (.arr .spRates 11) (.add (.rd (.arr .spRates 11)) (.mul (.num 2 0) (.sub (.rd (.arr .fwd 90)) (.rd (.arr .rev 90))))),
  .set (.arr .spRates 12) (.sub (.rd (.arr .spRates 12)) (.sub (.rd (.arr .fwd 90)) (.rd (.arr .rev 90))))]

/-- utilities/mechanisms/yao/lib/src/spec_rates.c:831-838 -/
def spec91 : List CStmt := [
  .set (.arr .spRates 1) (.add (.rd (.arr .spRates 1)) (.mul (.sub (.rd (.arr .fwd 91)) (.rd (.arr .rev 91))) (.rd (.arr .presMod 14)))),
  .set (.arr .spRates 18) (.add (.rd (.arr .spRates 18)) (.mul (.sub (.rd (.arr .fwd 91)) (.rd (.arr .rev 91))) (.rd (.arr .presMod 14)))),
  .set (.arr .spRates 19) (.mul (.neg (.sub (.rd (.arr .fwd 91)) (.rd (.arr .rev 91)))) (.rd (.arr .presMod 14)))]

/-- utilities/mechanisms/yao/lib/src/spec_rates.c:839-848 -/
def spec92 : List CStmt := [
  .set (.arr .spRates 16) (.add (.rd (.arr .spRates 16)) (.sub (.rd (.arr .fwd 92)) (.rd (.arr .rev 92)))),
  .set (.arr .spRates 9) (.add (.rd (.arr .spRates 9)) (.sub (.rd (.arr .fwd 92)) (.rd (.arr .rev 92)))),
  .set (.arr .spRates 18) (.sub (.rd (.arr .spRates 18)) (.sub (.rd (.arr .fwd 92)) (.rd (.arr .rev 92)))),
  .set (.arr .spRates 2) (.sub (.rd (.arr .spRates 2)) (.sub (.rd (.arr .fwd 92)) (.rd (.arr .rev 92))))]

/-- utilities/mechanisms/yao/lib/src/spec_rates.c:849-858 -/
def spec93 : List CStmt := [
  .set (.arr .spRates 11) (.add (.rd (.arr .spRates 11)) (.sub (.rd (.arr .fwd 93)) (.rd (.arr .rev 93)))),
  .set (.arr .spRates 16) (.add (.rd (.arr .spRates 16)) (.sub (.rd (.arr .fwd 93)) (.rd (.arr .rev 93)))),
  .set (.arr .spRates 18) (.sub (.rd (.arr .spRates 18)) (.sub (.rd (.arr .fwd 93)) (.rd (.arr .rev 93)))),
  .set (.arr .spRates 3) (.sub (.rd (.arr .spRates 3)) (.sub (.rd (.arr .fwd 93)) (.rd (.arr .rev 93))))]

/-- utilities/mechanisms/yao/lib/src/spec_rates.c:859-868 -/
def spec94 : List CStmt := [
  .set (.arr .spRates 16) (.add (.rd (.arr .spRates 16)) (.sub (.rd (.arr .fwd 94)) (.rd (.arr .rev 94)))),
  .set (.arr .spRates 18) (.sub (.rd (.arr .spRates 18)) (.sub (.rd (.arr .fwd 94)) (.rd (.arr .rev 94)))),
  .set (.arr .spRates 19) (.add (.rd (.arr .spRates 19)) (.sub (.rd (.arr .fwd 94)) (.rd (.arr .rev 94)))),
  .set (.arr .spRates 13) (.sub (.rd (.arr .spRates 13)) (.sub (.rd (.arr .fwd 94)) (.rd (.arr .rev 94))))]

/-- utilities/mechanisms/yao/lib/src/spec_rates.c:869-876 -/
def spec95 : List CStmt := [
  .set (.arr .spRates 24) (.sub (.rd (.arr .fwd 95)) (.rd (.arr .rev 95))),
  .set (.arr .spRates 18) (.sub (.rd (.arr .spRates 18)) (.sub (.rd (.arr .fwd 95)) (.rd (.arr .rev 95)))),
  .set (.arr .spRates 11) (.sub (.rd (.arr .spRates 11)) (.sub (.rd (.arr .fwd 95)) (.rd (.arr .rev 95))))]

/-- utilities/mechanisms/yao/lib/src/spec_rates.c:877-884 -/
def spec96 : List CStmt := [
  .set (.arr .spRates 1) (.sub (.rd (.arr .spRates 1)) (.mul (.sub (.rd (.arr .fwd 96)) (.rd (.arr .rev 96))) (.rd (.arr .presMod 15)))),
  .set (.arr .spRates 19) (.sub (.rd (.arr .spRates 19)) (.mul (.sub (.rd (.arr .fwd 96)) (.rd (.arr .rev 96))) (.rd (.arr .presMod 15)))),
  .set (.arr .spRates 20) (.add (.rd (.arr .spRates 20)) (.mul (.sub (.rd (.arr .fwd 96)) (.rd (.arr .rev 96))) (.rd (.arr .presMod 15))))]

/-- utilities/mechanisms/yao/lib/src/spec_rates.c:885-894 -/
def spec97 : List CStmt := [
  .set (.arr .spRates 1) (.sub (.rd (.arr .spRates 1)) (.sub (.rd (.arr .fwd 97)) (.rd (.arr .rev 97)))),
  .set (.arr .spRates 18) (.add (.rd (.arr .spRates 18)) (.sub (.rd (.arr .fwd 97)) (.rd (.arr .rev 97)))),
  .set (.arr .spRates 19) (.sub (.rd (.arr .spRates 19)) (.sub (.rd (.arr .fwd 97)) (.rd (.arr .rev 97)))),
  .set (.arr .spRates 5) (.add (.rd (.arr .spRates 5)) (.sub (.rd (.arr .fwd 97)) (.rd (.arr .rev 97))))]

/-- utilities/mechanisms/yao/lib/src/spec_rates.c:895-904 -/
def spec98 : List CStmt := [
  .set (.arr .spRates 11) (.add (.rd (.arr .spRates 11)) (.sub (.rd (.arr .fwd 98)) (.rd (.arr .rev 98)))),
  .set (.arr .spRates 16) (.add (.rd (.arr .spRates 16)) (.sub (.rd (.arr .fwd 98)) (.rd (.arr .rev 98)))),
  .set (.arr .spRates 2) (.sub (.rd (.arr .spRates 2)) (.sub (.rd (.arr .fwd 98)) (.rd (.arr .rev 98)))),
  .set (.arr .spRates 19) (.sub (.rd (.arr .spRates 19)) (.sub (.rd (.arr .fwd 98)) (.rd (.arr .rev 98))))]

/-- utilities/mechanisms/yao/lib/src/spec_rates.c:905-914 -/
def spec99 : List CStmt := [
  .set (.arr .spRates 3) (.sub (.rd (.arr .spRates 3)) (.sub (.rd (.arr .fwd 99)) (.rd (.arr .rev 99)))),
  .set (.arr .spRates 18) (.add (.rd (.arr .spRates 18)) (.sub (.rd (.arr .fwd 99)) (.rd (.arr .rev 99)))),
  .set (.arr .spRates 19) (.sub (.rd (.arr .spRates 19)) (.sub (.rd (.arr .fwd 99)) (.rd (.arr .rev 99)))),
  .set (.arr .spRates 6) (.add (.rd (.arr .spRates 6)) (.sub (.rd (.arr .fwd 99)) (.rd (.arr .rev 99))))]

/-- utilities/mechanisms/yao/lib/src/spec_rates.c:915-924 -/
def spec100 : List CStmt := [
  .set (.arr .spRates 8) (.sub (.rd (.arr .spRates 8)) (.sub (.rd (.arr .fwd 100)) (.rd (.arr .rev 100)))),
  .set (.arr .spRates 18) (.add (.rd (.arr .spRates 18)) (.sub (.rd (.arr .fwd 100)) (.rd (.arr .rev 100)))),
  .set (.arr .spRates 19) (.sub (.rd (.arr .spRates 19)) (.sub (.rd (.arr .fwd 100)) (.rd (.arr .rev 100)))),
  .set (.arr .spRates 4) (.add (.rd (.arr .spRates 4)) (.sub (.rd (.arr .fwd 100)) (.rd (.arr .rev 100))))]

/-- utilities/mechanisms/yao/lib/src/spec_rates.c:925-934 -/
def spec101 : List CStmt := [
  .set (.arr .spRates 8) (.sub (.rd (.arr .spRates 8)) (.sub (.rd (.arr .fwd 101)) (.rd (.arr .rev 101)))),
  .set (.arr .spRates 2) (.add (.rd (.arr .spRates 2)) (.sub (.rd (.arr .fwd 101)) (.rd (.arr .rev 101)))),
  .set (.arr .spRates 19) (.sub (.rd (.arr .spRates 19)) (.sub (.rd (.arr .fwd 101)) (.rd (.arr .rev 101)))),
  .set (.arr .spRates 23) (.sub (.rd (.arr .fwd 101)) (.rd (.arr .rev 101)))]

/-- utilities/mechanisms/yao/lib/src/spec_rates.c:935-944 -/
def spec102 : List CStmt := [
  .set (.arr .spRates 8) (.sub (.rd (.arr .spRates 8)) (.sub (.rd (.arr .fwd 102)) (.rd (.arr .rev 102)))),
  .set (.arr .spRates 19) (.sub (.rd (.arr .spRates 19)) (.sub (.rd (.arr .fwd 102)) (.rd (.arr .rev 102)))),
  .set (.arr .spRates 13) (.add (.rd (.arr .spRates 13)) (.sub (.rd (.arr .fwd 102)) (.rd (.arr .rev 102)))),
  .set (.arr .spRates 14) (.add (.rd (.arr .spRates 14)) (.sub (.rd (.arr .fwd 102)) (.rd (.arr .rev 102))))]

/-- utilities/mechanisms/yao/lib/src/spec_rates.c:945-954 -/
def spec103 : List CStmt := [
  .set (.arr .spRates 3) (.add (.rd (.arr .spRates 3)) (.sub (.rd (.arr .fwd 103)) (.rd (.arr .rev 103)))),
  .set (.arr .spRates 19) (.sub (.rd (.arr .spRates 19)) (.sub (.rd (.arr .fwd 103)) (.rd (.arr .rev 103)))),
  .set (.arr .spRates 4) (.sub (.rd (.arr .spRates 4)) (.sub (.rd (.arr .fwd 103)) (.rd (.arr .rev 103)))),
  .set (.arr .spRates 23) (.add (.rd (.arr .spRates 23)) (.sub (.rd (.arr .fwd 103)) (.rd (.arr .rev 103))))]

/-- utilities/mechanisms/yao/lib/src/spec_rates.c:955-964 -/
def spec104 : List CStmt := [
  .set (.arr .spRates 4) (.add (.rd (.arr .spRates 4)) (.sub (.rd (.arr .fwd 104)) (.rd (.arr .rev 104)))),
  .set (.arr .spRates 19) (.sub (.rd (.arr .spRates 19)) (.sub (.rd (.arr .fwd 104)) (.rd (.arr .rev 104)))),
  .set (.arr .spRates 20) (.add (.rd (.arr .spRates 20)) (.sub (.rd (.arr .fwd 104)) (.rd (.arr .rev 104)))),
  .set (.arr .spRates 7) (.sub (.rd (.arr .spRates 7)) (.sub (.rd (.arr .fwd 104)) (.rd (.arr .rev 104))))]

/-- utilities/mechanisms/yao/lib/src/spec_rates.c:965-974 -/
def spec105 : List CStmt := [
  .set (.arr .spRates 16) (.add (.rd (.arr .spRates 16)) (.sub (.rd (.arr .fwd 105)) (.rd (.arr .rev 105)))),
  .set (.arr .spRates 19) (.sub (.rd (.arr .spRates 19)) (.sub (.rd (.arr .fwd 105)) (.rd (.arr .rev 105)))),
  .set (.arr .spRates 20) (.add (.rd (.arr .spRates 20)) (.sub (.rd (.arr .fwd 105)) (.rd (.arr .rev 105)))),
  .set (.arr .spRates 13) (.sub (.rd (.arr .spRates 13)) (.sub (.rd (.arr .fwd 105)) (.rd (.arr .rev 105))))]

/-- utilities/mechanisms/yao/lib/src/spec_rates.c:975-982 -/
def spec106 : List CStmt := [
  .set (.arr .spRates 27) (.sub (.rd (.arr .fwd 106)) (.rd (.arr .rev 106))),
  .set (.arr .spRates 19) (.sub (.rd (.arr .spRates 19)) (.sub (.rd (.arr .fwd 106)) (.rd (.arr .rev 106)))),
  .set (.arr .spRates 13) (.sub (.rd (.arr .spRates 13)) (.sub (.rd (.arr .fwd 106)) (.rd (.arr .rev 106))))]

/-- utilities/mechanisms/yao/lib/src/spec_rates.c:983-992 -/
def spec107 : List CStmt := [
  .set (.arr .spRates 19) (.sub (.rd (.arr .spRates 19)) (.sub (.rd (.arr .fwd 107)) (.rd (.arr .rev 107)))),
  .set (.arr .spRates 18) (.add (.rd (.arr .spRates 18)) (.sub (.rd (.arr .fwd 107)) (.rd (.arr .rev 107)))),
  .set (.arr .spRates 11) (.sub (.rd (.arr .spRates 11)) (.sub (.rd (.arr .fwd 107)) (.rd (.arr .rev 107)))),
  .set (.arr .spRates 12) (.add (.rd (.arr .spRates 12)) (.sub (.rd (.arr .fwd 107)) (.rd (.arr .rev 107))))]

/-- utilities/mechanisms/yao/lib/src/spec_rates.c:993-1000 -/
def spec108 : List CStmt := [
  .set (.arr .spRates 19) (.sub (.rd (.arr .spRates 19)) (.mul (.sub (.rd (.arr .fwd 108)) (.rd (.arr .rev 108))) (.rd (.arr .presMod 16)))),
  .set (.arr .spRates 25) (.mul (.sub (.rd (.arr .fwd 108)) (.rd (.arr .rev 108))) (.rd (.arr .presMod 16))),
  .set (.arr .spRates 11) (.sub (.rd (.arr .spRates 11)) (.mul (.sub (.rd (.arr .fwd 108)) (.rd (.arr .rev 108))) (.rd (.arr .presMod 16))))]

/-- utilities/mechanisms/yao/lib/src/spec_rates.c:1001-1010 -/
def spec109 : List CStmt := [
  .set (.arr .spRates 19) (.sub (.rd (.arr .spRates 19)) (.sub (.rd (.arr .fwd 109)) (.rd (.arr .rev 109)))),
  .set (.arr .spRates 1) (.add (.rd (.arr .spRates 1)) (.sub (.rd (.arr .fwd 109)) (.rd (.arr .rev 109)))),
  .set (.arr .spRates 11) (.sub (.rd (.arr .spRates 11)) (.sub (.rd (.arr .fwd 109)) (.rd (.arr .rev 109)))),
  .set (.arr .spRates 24) (.add (.rd (.arr .spRates 24)) (.sub (.rd (.arr .fwd 109)) (.rd (.arr .rev 109))))]

/-- utilities/mechanisms/yao/lib/src/spec_rates.c:1011-1018 -/
def spec110 : List CStmt := [
  .set (.arr .spRates 18) (.add (.rd (.arr .spRates 18)) (.sub (.rd (.arr .fwd 110)) (.rd (.arr .rev 110)))),
  .set (.arr .spRates 19) (.sub (.rd (.arr .spRates 19)) (.mul (.num 2 0) (.sub (.rd (.arr .fwd 110)) (.rd (.arr .rev 110))))),
  .set (.arr .spRates 20) (.add (.rd (.arr .spRates 20)) (.sub (.rd (.arr .fwd 110)) (.rd (.arr .rev 110))))]

/-- utilities/mechanisms/yao/lib/src/spec_rates.c:1019-1026 -/
def spec111 : List CStmt := [
  .set (.arr .spRates 16) (.add (.rd (.arr .spRates 16)) (.sub (.rd (.arr .fwd 111)) (.rd (.arr .rev 111)))),
  .set (.arr .spRates 11) (.add (.rd (.arr .spRates 11)) (.sub (.rd (.arr .fwd 111)) (.rd (.arr .rev 111)))),
  .set (.arr .spRates 23) (.sub (.rd (.arr .spRates 23)) (.sub (.rd (.arr .fwd 111)) (.rd (.arr .rev 111))))]

/-- utilities/mechanisms/yao/lib/src/spec_rates.c:1027-1036 -/
def spec112 : List CStmt := [
  .set (.arr .spRates 1) (.sub (.rd (.arr .spRates 1)) (.sub (.rd (.arr .fwd 112)) (.rd (.arr .rev 112)))),
  .set (.arr .spRates 11) (.add (.rd (.arr .spRates 11)) (.sub (.rd (.arr .fwd 112)) (.rd (.arr .rev 112)))),
  .set (.arr .spRates 13) (.add (.rd (.arr .spRates 13)) (.sub (.rd (.arr .fwd 112)) (.rd (.arr .rev 112)))),
  .set (.arr .spRates 23) (.sub (.rd (.arr .spRates 23)) (.sub (.rd (.arr .fwd 112)) (.rd (.arr .rev 112))))]

/-- utilities/mechanisms/yao/lib/src/spec_rates.c:1037-1048 -/
def spec113 : List CStmt := [
  .set (.arr .spRates 8) (.sub (.rd (.arr .spRates 8)) (.sub (.rd (.arr .fwd 113)) (.rd (.arr .rev 113)))),
  .set (.arr .spRates 16) (.add (.rd (.arr .spRates 16)) (.sub (.rd (.arr .fwd 113)) (.rd (.arr .rev 113)))),
  .set (.arr .spRates 3) (.add (.rd (.arr .spRates 3)) (.sub (.rd (.arr .fwd 113)) (.rd (.arr .rev 113)))),
  .set (.arr .spRates 14) (.add (.rd (.arr .spRates 14)) (.sub (.rd (.arr .fwd 113)) (.rd (.arr .rev 113)))),
  .set (.arr .spRates 23) (.sub (.rd (.arr .spRates 23)) (.sub (.rd (.arr .fwd 113)) (.rd (.arr .rev 113))))]

/-- utilities/mechanisms/yao/lib/src/spec_rates.c:1049-1056 -/
def spec114 : List CStmt := [
  .set (.arr .spRates 1) (.sub (.rd (.arr .spRates 1)) (.mul (.sub (.rd (.arr .fwd 114)) (.rd (.arr .rev 114))) (.rd (.arr .presMod 17)))),
  .set (.arr .spRates 20) (.sub (.rd (.arr .spRates 20)) (.mul (.sub (.rd (.arr .fwd 114)) (.rd (.arr .rev 114))) (.rd (.arr .presMod 17)))),
  .set (.arr .spRates 21) (.add (.rd (.arr .spRates 21)) (.mul (.sub (.rd (.arr .fwd 114)) (.rd (.arr .rev 114))) (.rd (.arr .presMod 17))))]

/-- utilities/mechanisms/yao/lib/src/spec_rates.c:1057-1066 -/
def spec115 : List CStmt := [
  .set (.arr .spRates 1) (.sub (.rd (.arr .spRates 1)) (.sub (.rd (.arr .fwd 115)) (.rd (.arr .rev 115)))),
  .set (.arr .spRates 19) (.add (.rd (.arr .spRates 19)) (.sub (.rd (.arr .fwd 115)) (.rd (.arr .rev 115)))),
  .set (.arr .spRates 20) (.sub (.rd (.arr .spRates 20)) (.sub (.rd (.arr .fwd 115)) (.rd (.arr .rev 115)))),
  .set (.arr .spRates 5) (.add (.rd (.arr .spRates 5)) (.sub (.rd (.arr .fwd 115)) (.rd (.arr .rev 115))))]

/-- utilities/mechanisms/yao/lib/src/spec_rates.c:1067-1076 -/
def spec116 : List CStmt := [
  .set (.arr .spRates 3) (.add (.rd (.arr .spRates 3)) (.sub (.rd (.arr .fwd 116)) (.rd (.arr .rev 116)))),
  .set (.arr .spRates 2) (.sub (.rd (.arr .spRates 2)) (.sub (.rd (.arr .fwd 116)) (.rd (.arr .rev 116)))),
  .set (.arr .spRates 19) (.add (.rd (.arr .spRates 19)) (.sub (.rd (.arr .fwd 116)) (.rd (.arr .rev 116)))),
  .set (.arr .spRates 20) (.sub (.rd (.arr .spRates 20)) (.sub (.rd (.arr .fwd 116)) (.rd (.arr .rev 116))))]

/-- utilities/mechanisms/yao/lib/src/spec_rates.c:1077-1086 -/
def spec117 : List CStmt := [
  .set (.arr .spRates 2) (.sub (.rd (.arr .spRates 2)) (.sub (.rd (.arr .fwd 117)) (.rd (.arr .rev 117)))),
  .set (.arr .spRates 11) (.add (.rd (.arr .spRates 11)) (.sub (.rd (.arr .fwd 117)) (.rd (.arr .rev 117)))),
  .set (.arr .spRates 20) (.sub (.rd (.arr .spRates 20)) (.sub (.rd (.arr .fwd 117)) (.rd (.arr .rev 117)))),
  .set (.arr .spRates 13) (.add (.rd (.arr .spRates 13)) (.sub (.rd (.arr .fwd 117)) (.rd (.arr .rev 117))))]

/-- utilities/mechanisms/yao/lib/src/spec_rates.c:1087-1096 -/
def spec118 : List CStmt := [
  .set (.arr .spRates 9) (.add (.rd (.arr .spRates 9)) (.sub (.rd (.arr .fwd 118)) (.rd (.arr .rev 118)))),
  .set (.arr .spRates 2) (.sub (.rd (.arr .spRates 2)) (.sub (.rd (.arr .fwd 118)) (.rd (.arr .rev 118)))),
  .set (.arr .spRates 20) (.sub (.rd (.arr .spRates 20)) (.sub (.rd (.arr .fwd 118)) (.rd (.arr .rev 118)))),
  .set (.arr .spRates 14) (.add (.rd (.arr .spRates 14)) (.sub (.rd (.arr .fwd 118)) (.rd (.arr .rev 118))))]

/-- utilities/mechanisms/yao/lib/src/spec_rates.c:1097-1106 -/
def spec119 : List CStmt := [
  .set (.arr .spRates 19) (.add (.rd (.arr .spRates 19)) (.sub (.rd (.arr .fwd 119)) (.rd (.arr .rev 119)))),
  .set (.arr .spRates 3) (.sub (.rd (.arr .spRates 3)) (.sub (.rd (.arr .fwd 119)) (.rd (.arr .rev 119)))),
  .set (.arr .spRates 20) (.sub (.rd (.arr .spRates 20)) (.sub (.rd (.arr .fwd 119)) (.rd (.arr .rev 119)))),
  .set (.arr .spRates 6) (.add (.rd (.arr .spRates 6)) (.sub (.rd (.arr .fwd 119)) (.rd (.arr .rev 119))))]

/-- utilities/mechanisms/yao/lib/src/spec_rates.c:1107-1116 -/
def spec120 : List CStmt := [
  .set (.arr .spRates 16) (.add (.rd (.arr .spRates 16)) (.sub (.rd (.arr .fwd 120)) (.rd (.arr .rev 120)))),
  .set (.arr .spRates 20) (.sub (.rd (.arr .spRates 20)) (.sub (.rd (.arr .fwd 120)) (.rd (.arr .rev 120)))),
  .set (.arr .spRates 13) (.sub (.rd (.arr .spRates 13)) (.sub (.rd (.arr .fwd 120)) (.rd (.arr .rev 120)))),
  .set (.arr .spRates 21) (.add (.rd (.arr .spRates 21)) (.sub (.rd (.arr .fwd 120)) (.rd (.arr .rev 120))))]

/-- utilities/mechanisms/yao/lib/src/spec_rates.c:1117-1126 -/
def spec121 : List CStmt := [
  .set (.arr .spRates 24) (.add (.rd (.arr .spRates 24)) (.sub (.rd (.arr .fwd 121)) (.rd (.arr .rev 121)))),
  .set (.arr .spRates 9) (.sub (.rd (.arr .spRates 9)) (.sub (.rd (.arr .fwd 121)) (.rd (.arr .rev 121)))),
  .set (.arr .spRates 20) (.sub (.rd (.arr .spRates 20)) (.sub (.rd (.arr .fwd 121)) (.rd (.arr .rev 121)))),
  .set (.arr .spRates 1) (.add (.rd (.arr .spRates 1)) (.sub (.rd (.arr .fwd 121)) (.rd (.arr .rev 121))))]

/-- utilities/mechanisms/yao/lib/src/spec_rates.c:1127-1136 -/
def spec122 : List CStmt := [
  .set (.arr .spRates 24) (.add (.rd (.arr .spRates 24)) (.sub (.rd (.arr .fwd 122)) (.rd (.arr .rev 122)))),
  .set (.arr .spRates 1) (.add (.rd (.arr .spRates 1)) (.sub (.rd (.arr .fwd 122)) (.rd (.arr .rev 122)))),
  .set (.arr .spRates 10) (.sub (.rd (.arr .spRates 10)) (.sub (.rd (.arr .fwd 122)) (.rd (.arr .rev 122)))),
  .set (.arr .spRates 20) (.sub (.rd (.arr .spRates 20)) (.sub (.rd (.arr .fwd 122)) (.rd (.arr .rev 122))))]

/-- utilities/mechanisms/yao/lib/src/spec_rates.c:1137-1146 -/
def spec123 : List CStmt := [
  .set (.arr .spRates 19) (.add (.rd (.arr .spRates 19)) (.sub (.rd (.arr .fwd 123)) (.rd (.arr .rev 123)))),
  .set (.arr .spRates 12) (.add (.rd (.arr .spRates 12)) (.sub (.rd (.arr .fwd 123)) (.rd (.arr .rev 123)))),
  .set (.arr .spRates 11) (.sub (.rd (.arr .spRates 11)) (.sub (.rd (.arr .fwd 123)) (.rd (.arr .rev 123)))),
  .set (.arr .spRates 20) (.sub (.rd (.arr .spRates 20)) (.sub (.rd (.arr .fwd 123)) (.rd (.arr .rev 123))))]

/-- utilities/mechanisms/yao/lib/src/spec_rates.c:1147-1154 -/
def spec124 : List CStmt := [
  .set (.arr .spRates 26) (.neg (.sub (.rd (.arr .fwd 124)) (.rd (.arr .rev 124)))),
  .set (.arr .spRates 11) (.add (.rd (.arr .spRates 11)) (.sub (.rd (.arr .fwd 124)) (.rd (.arr .rev 124)))),
  .set (.arr .spRates 20) (.add (.rd (.arr .spRates 20)) (.sub (.rd (.arr .fwd 124)) (.rd (.arr .rev 124))))]

/-- utilities/mechanisms/yao/lib/src/spec_rates.c:1155-1164 -/
def spec125 : List CStmt := [
  .set (.arr .spRates 8) (.sub (.rd (.arr .spRates 8)) (.sub (.rd (.arr .fwd 125)) (.rd (.arr .rev 125)))),
  .set (.arr .spRates 4) (.add (.rd (.arr .spRates 4)) (.sub (.rd (.arr .fwd 125)) (.rd (.arr .rev 125)))),
  .set (.arr .spRates 19) (.add (.rd (.arr .spRates 19)) (.sub (.rd (.arr .fwd 125)) (.rd (.arr .rev 125)))),
  .set (.arr .spRates 20) (.sub (.rd (.arr .spRates 20)) (.sub (.rd (.arr .fwd 125)) (.rd (.arr .rev 125))))]

/-- utilities/mechanisms/yao/lib/src/spec_rates.c:1165-1172 -/
def spec126 : List CStmt := [
  .set (.arr .spRates 28) (.sub (.rd (.arr .fwd 126)) (.rd (.arr .rev 126))),
  .set (.arr .spRates 19) (.sub (.rd (.arr .spRates 19)) (.sub (.rd (.arr .fwd 126)) (.rd (.arr .rev 126)))),
  .set (.arr .spRates 20) (.sub (.rd (.arr .spRates 20)) (.sub (.rd (.arr .fwd 126)) (.rd (.arr .rev 126))))]

/-- utilities/mechanisms/yao/lib/src/spec_rates.c:1173-1180 -/
def spec127 : List CStmt := [
  .set (.arr .spRates 1) (.sub (.rd (.arr .spRates 1)) (.mul (.sub (.rd (.arr .fwd 127)) (.rd (.arr .rev 127))) (.rd (.arr .presMod 18)))),
  .set (.arr .spRates 21) (.sub (.rd (.arr .spRates 21)) (.mul (.sub (.rd (.arr .fwd 127)) (.rd (.arr .rev 127))) (.rd (.arr .presMod 18)))),
  .set (.arr .spRates 22) (.add (.rd (.arr .spRates 22)) (.mul (.sub (.rd (.arr .fwd 127)) (.rd (.arr .rev 127))) (.rd (.arr .presMod 18))))]

/-- utilities/mechanisms/yao/lib/src/spec_rates.c:1181-1190 -/
def spec128 : List CStmt := [
  .set (.arr .spRates 1) (.sub (.rd (.arr .spRates 1)) (.sub (.rd (.arr .fwd 128)) (.rd (.arr .rev 128)))),
  .set (.arr .spRates 20) (.add (.rd (.arr .spRates 20)) (.sub (.rd (.arr .fwd 128)) (.rd (.arr .rev 128)))),
  .set (.arr .spRates 21) (.sub (.rd (.arr .spRates 21)) (.sub (.rd (.arr .fwd 128)) (.rd (.arr .rev 128)))),
  .set (.arr .spRates 5) (.add (.rd (.arr .spRates 5)) (.sub (.rd (.arr .fwd 128)) (.rd (.arr .rev 128))))]

/-- utilities/mechanisms/yao/lib/src/spec_rates.c:1191-1200 -/
def spec129 : List CStmt := [
  .set (.arr .spRates 2) (.sub (.rd (.arr .spRates 2)) (.sub (.rd (.arr .fwd 129)) (.rd (.arr .rev 129)))),
  .set (.arr .spRates 11) (.add (.rd (.arr .spRates 11)) (.sub (.rd (.arr .fwd 129)) (.rd (.arr .rev 129)))),
  .set (.arr .spRates 21) (.sub (.rd (.arr .spRates 21)) (.sub (.rd (.arr .fwd 129)) (.rd (.arr .rev 129)))),
  .set (.arr .spRates 14) (.add (.rd (.arr .spRates 14)) (.sub (.rd (.arr .fwd 129)) (.rd (.arr .rev 129))))]

/-- utilities/mechanisms/yao/lib/src/spec_rates.c:1201-1210 -/
def spec130 : List CStmt := [
  .set (.arr .spRates 8) (.sub (.rd (.arr .spRates 8)) (.sub (.rd (.arr .fwd 130)) (.rd (.arr .rev 130)))),
  .set (.arr .spRates 4) (.add (.rd (.arr .spRates 4)) (.sub (.rd (.arr .fwd 130)) (.rd (.arr .rev 130)))),
  .set (.arr .spRates 20) (.add (.rd (.arr .spRates 20)) (.sub (.rd (.arr .fwd 130)) (.rd (.arr .rev 130)))),
  .set (.arr .spRates 21) (.sub (.rd (.arr .spRates 21)) (.sub (.rd (.arr .fwd 130)) (.rd (.arr .rev 130))))]

/-- utilities/mechanisms/yao/lib/src/spec_rates.c:1211-1220 -/
def spec131 : List CStmt := [
  .set (.arr .spRates 8) (.add (.rd (.arr .spRates 8)) (.sub (.rd (.arr .fwd 131)) (.rd (.arr .rev 131)))),
  .set (.arr .spRates 4) (.sub (.rd (.arr .spRates 4)) (.sub (.rd (.arr .fwd 131)) (.rd (.arr .rev 131)))),
  .set (.arr .spRates 21) (.sub (.rd (.arr .spRates 21)) (.sub (.rd (.arr .fwd 131)) (.rd (.arr .rev 131)))),
  .set (.arr .spRates 22) (.add (.rd (.arr .spRates 22)) (.sub (.rd (.arr .fwd 131)) (.rd (.arr .rev 131))))]

/-- utilities/mechanisms/yao/lib/src/spec_rates.c:1221-1230 -/
def spec132 : List CStmt := [
  .set (.arr .spRates 20) (.add (.rd (.arr .spRates 20)) (.sub (.rd (.arr .fwd 132)) (.rd (.arr .rev 132)))),
  .set (.arr .spRates 4) (.sub (.rd (.arr .spRates 4)) (.sub (.rd (.arr .fwd 132)) (.rd (.arr .rev 132)))),
  .set (.arr .spRates 21) (.sub (.rd (.arr .spRates 21)) (.sub (.rd (.arr .fwd 132)) (.rd (.arr .rev 132)))),
  .set (.arr .spRates 7) (.add (.rd (.arr .spRates 7)) (.sub (.rd (.arr .fwd 132)) (.rd (.arr .rev 132))))]

/-- utilities/mechanisms/yao/lib/src/spec_rates.c:1231-1242 -/
def spec133 : List CStmt := [
  .set (.arr .spRates 3) (.add (.rd (.arr .spRates 3)) (.sub (.rd (.arr .fwd 133)) (.rd (.arr .rev 133)))),
  .set (.arr .spRates 11) (.add (.rd (.arr .spRates 11)) (.sub (.rd (.arr .fwd 133)) (.rd (.arr .rev 133)))),
  .set (.arr .spRates 4) (.sub (.rd (.arr .spRates 4)) (.sub (.rd (.arr .fwd 133)) (.rd (.arr .rev 133)))),
  .set (.arr .spRates 21) (.sub (.rd (.arr .spRates 21)) (.sub (.rd (.arr .fwd 133)) (.rd (.arr .rev 133)))),
  .set (.arr .spRates 14) (.add (.rd (.arr .spRates 14)) (.sub (.rd (.arr .fwd 133)) (.rd (.arr .rev 133))))]

/-- utilities/mechanisms/yao/lib/src/spec_rates.c:1243-1252 -/
def spec134 : List CStmt := [
  .set (.arr .spRates 4) (.add (.rd (.arr .spRates 4)) (.sub (.rd (.arr .fwd 134)) (.rd (.arr .rev 134)))),
  .set (.arr .spRates 21) (.sub (.rd (.arr .spRates 21)) (.sub (.rd (.arr .fwd 134)) (.rd (.arr .rev 134)))),
  .set (.arr .spRates 22) (.add (.rd (.arr .spRates 22)) (.sub (.rd (.arr .fwd 134)) (.rd (.arr .rev 134)))),
  .set (.arr .spRates 7) (.sub (.rd (.arr .spRates 7)) (.sub (.rd (.arr .fwd 134)) (.rd (.arr .rev 134))))]

/-- utilities/mechanisms/yao/lib/src/spec_rates.c:1253-1260 -/
def spec135 : List CStmt := [
  .set (.arr .spRates 19) (.sub (.rd (.arr .spRates 19)) (.mul (.sub (.rd (.arr .fwd 135)) (.rd (.arr .rev 135))) (.rd (.arr .presMod 19)))),
  .set (.arr .spRates 21) (.sub (.rd (.arr .spRates 21)) (.mul (.sub (.rd (.arr .fwd 135)) (.rd (.arr .rev 135))) (.rd (.arr .presMod 19)))),
  .set (.arr .spRates 29) (.mul (.sub (.rd (.arr .fwd 135)) (.rd (.arr .rev 135))) (.rd (.arr .presMod 19)))]

/-- utilities/mechanisms/yao/lib/src/spec_rates.c:1261-1270 -/
def spec136 : List CStmt := [
  .set (.arr .spRates 11) (.add (.rd (.arr .spRates 11)) (.sub (.rd (.arr .fwd 136)) (.rd (.arr .rev 136)))),
  .set (.arr .spRates 24) (.add (.rd (.arr .spRates 24)) (.sub (.rd (.arr .fwd 136)) (.rd (.arr .rev 136)))),
  .set (.arr .spRates 19) (.sub (.rd (.arr .spRates 19)) (.sub (.rd (.arr .fwd 136)) (.rd (.arr .rev 136)))),
  .set (.arr .spRates 21) (.sub (.rd (.arr .spRates 21)) (.sub (.rd (.arr .fwd 136)) (.rd (.arr .rev 136))))]

/-- utilities/mechanisms/yao/lib/src/spec_rates.c:1271-1280 -/
def spec137 : List CStmt := [
  .set (.arr .spRates 1) (.sub (.rd (.arr .spRates 1)) (.sub (.rd (.arr .fwd 137)) (.rd (.arr .rev 137)))),
  .set (.arr .spRates 5) (.add (.rd (.arr .spRates 5)) (.sub (.rd (.arr .fwd 137)) (.rd (.arr .rev 137)))),
  .set (.arr .spRates 22) (.sub (.rd (.arr .spRates 22)) (.sub (.rd (.arr .fwd 137)) (.rd (.arr .rev 137)))),
  .set (.arr .spRates 21) (.add (.rd (.arr .spRates 21)) (.sub (.rd (.arr .fwd 137)) (.rd (.arr .rev 137))))]

/-- utilities/mechanisms/yao/lib/src/spec_rates.c:1281-1290 -/
def spec138 : List CStmt := [
  .set (.arr .spRates 2) (.sub (.rd (.arr .spRates 2)) (.sub (.rd (.arr .fwd 138)) (.rd (.arr .rev 138)))),
  .set (.arr .spRates 3) (.add (.rd (.arr .spRates 3)) (.sub (.rd (.arr .fwd 138)) (.rd (.arr .rev 138)))),
  .set (.arr .spRates 21) (.add (.rd (.arr .spRates 21)) (.sub (.rd (.arr .fwd 138)) (.rd (.arr .rev 138)))),
  .set (.arr .spRates 22) (.sub (.rd (.arr .spRates 22)) (.sub (.rd (.arr .fwd 138)) (.rd (.arr .rev 138))))]

/-- utilities/mechanisms/yao/lib/src/spec_rates.c:1291-1300 -/
def spec139 : List CStmt := [
  .set (.arr .spRates 6) (.add (.rd (.arr .spRates 6)) (.sub (.rd (.arr .fwd 139)) (.rd (.arr .rev 139)))),
  .set (.arr .spRates 3) (.sub (.rd (.arr .spRates 3)) (.sub (.rd (.arr .fwd 139)) (.rd (.arr .rev 139)))),
  .set (.arr .spRates 21) (.add (.rd (.arr .spRates 21)) (.sub (.rd (.arr .fwd 139)) (.rd (.arr .rev 139)))),
  .set (.arr .spRates 22) (.sub (.rd (.arr .spRates 22)) (.sub (.rd (.arr .fwd 139)) (.rd (.arr .rev 139))))]

/-- utilities/mechanisms/yao/lib/src/spec_rates.c:1301-1310 -/
def spec140 : List CStmt := [
  .set (.arr .spRates 10) (.sub (.rd (.arr .spRates 10)) (.sub (.rd (.arr .fwd 140)) (.rd (.arr .rev 140)))),
  .set (.arr .spRates 11) (.add (.rd (.arr .spRates 11)) (.sub (.rd (.arr .fwd 140)) (.rd (.arr .rev 140)))),
  .set (.arr .spRates 21) (.add (.rd (.arr .spRates 21)) (.sub (.rd (.arr .fwd 140)) (.rd (.arr .rev 140)))),
  .set (.arr .spRates 22) (.sub (.rd (.arr .spRates 22)) (.sub (.rd (.arr .fwd 140)) (.rd (.arr .rev 140))))]

/-- utilities/mechanisms/yao/lib/src/spec_rates.c:1311-1320 -/
def spec141 : List CStmt := [
  .set (.arr .spRates 11) (.sub (.rd (.arr .spRates 11)) (.sub (.rd (.arr .fwd 141)) (.rd (.arr .rev 141)))),
  .set (.arr .spRates 12) (.add (.rd (.arr .spRates 12)) (.sub (.rd (.arr .fwd 141)) (.rd (.arr .rev 141)))),
  .set (.arr .spRates 21) (.add (.rd (.arr .spRates 21)) (.sub (.rd (.arr .fwd 141)) (.rd (.arr .rev 141)))),
  .set (.arr .spRates 22) (.sub (.rd (.arr .spRates 22)) (.sub (.rd (.arr .fwd 141)) (.rd (.arr .rev 141))))]

/-- utilities/mechanisms/yao/lib/src/spec_rates.c:1321-1328 -/
def spec142 : List CStmt := [
  .set (.arr .spRates 24) (.sub (.rd (.arr .spRates 24)) (.mul (.sub (.rd (.arr .fwd 142)) (.rd (.arr .rev 142))) (.rd (.arr .presMod 20)))),
  .set (.arr .spRates 1) (.sub (.rd (.arr .spRates 1)) (.mul (.sub (.rd (.arr .fwd 142)) (.rd (.arr .rev 142))) (.rd (.arr .presMod 20)))),
  .set (.arr .spRates 25) (.add (.rd (.arr .spRates 25)) (.mul (.sub (.rd (.arr .fwd 142)) (.rd (.arr .rev 142))) (.rd (.arr .presMod 20))))]

/-- utilities/mechanisms/yao/lib/src/spec_rates.c:1329-1338 -/
def spec143 : List CStmt := [
  .set (.arr .spRates 24) (.sub (.rd (.arr .spRates 24)) (.sub (.rd (.arr .fwd 143)) (.rd (.arr .rev 143)))),
  .set (.arr .spRates 1) (.add (.rd (.arr .spRates 1)) (.sub (.rd (.arr .fwd 143)) (.rd (.arr .rev 143)))),
  .set (.arr .spRates 2) (.sub (.rd (.arr .spRates 2)) (.sub (.rd (.arr .fwd 143)) (.rd (.arr .rev 143)))),
  .set (.arr .spRates 27) (.add (.rd (.arr .spRates 27)) (.sub (.rd (.arr .fwd 143)) (.rd (.arr .rev 143))))]

/-- utilities/mechanisms/yao/lib/src/spec_rates.c:1339-1348 -/
def spec144 : List CStmt := [
  .set (.arr .spRates 24) (.sub (.rd (.arr .spRates 24)) (.sub (.rd (.arr .fwd 144)) (.rd (.arr .rev 144)))),
  .set (.arr .spRates 1) (.add (.rd (.arr .spRates 1)) (.mul (.num 2 0) (.sub (.rd (.arr .fwd 144)) (.rd (.arr .rev 144))))),
  .set (.arr .spRates 3) (.sub (.rd (.arr .spRates 3)) (.sub (.rd (.arr .fwd 144)) (.rd (.arr .rev 144)))),
  .set (.arr .spRates 27) (.add (.rd (.arr .spRates 27)) (.sub (.rd (.arr .fwd 144)) (.rd (.arr .rev 144))))]

/-- utilities/mechanisms/yao/lib/src/spec_rates.c:1349-1358 -/
def spec145 : List CStmt := [
  .set (.arr .spRates 24) (.sub (.rd (.arr .spRates 24)) (.sub (.rd (.arr .fwd 145)) (.rd (.arr .rev 145)))),
  .set (.arr .spRates 8) (.sub (.rd (.arr .spRates 8)) (.sub (.rd (.arr .fwd 145)) (.rd (.arr .rev 145)))),
  .set (.arr .spRates 27) (.add (.rd (.arr .spRates 27)) (.sub (.rd (.arr .fwd 145)) (.rd (.arr .rev 145)))),
  .set (.arr .spRates 3) (.add (.rd (.arr .spRates 3)) (.sub (.rd (.arr .fwd 145)) (.rd (.arr .rev 145))))]

/-- utilities/mechanisms/yao/lib/src/spec_rates.c:1359-1368 -/
def spec146 : List CStmt := [
  .set (.arr .spRates 24) (.sub (.rd (.arr .spRates 24)) (.sub (.rd (.arr .fwd 146)) (.rd (.arr .rev 146)))),
  .set (.arr .spRates 25) (.add (.rd (.arr .spRates 25)) (.sub (.rd (.arr .fwd 146)) (.rd (.arr .rev 146)))),
  .set (.arr .spRates 4) (.sub (.rd (.arr .spRates 4)) (.sub (.rd (.arr .fwd 146)) (.rd (.arr .rev 146)))),
  .set (.arr .spRates 8) (.add (.rd (.arr .spRates 8)) (.sub (.rd (.arr .fwd 146)) (.rd (.arr .rev 146))))]

/-- utilities/mechanisms/yao/lib/src/spec_rates.c:1369-1380 -/
def spec147 : List CStmt := [
  .set (.arr .spRates 24) (.sub (.rd (.arr .spRates 24)) (.sub (.rd (.arr .fwd 147)) (.rd (.arr .rev 147)))),
  .set (.arr .spRates 3) (.add (.rd (.arr .spRates 3)) (.sub (.rd (.arr .fwd 147)) (.rd (.arr .rev 147)))),
  .set (.arr .spRates 19) (.add (.rd (.arr .spRates 19)) (.sub (.rd (.arr .fwd 147)) (.rd (.arr .rev 147)))),
  .set (.arr .spRates 4) (.sub (.rd (.arr .spRates 4)) (.sub (.rd (.arr .fwd 147)) (.rd (.arr .rev 147)))),
  .set (.arr .spRates 14) (.add (.rd (.arr .spRates 14)) (.sub (.rd (.arr .fwd 147)) (.rd (.arr .rev 147))))]

/-- utilities/mechanisms/yao/lib/src/spec_rates.c:1381-1390 -/
def spec148 : List CStmt := [
  .set (.arr .spRates 24) (.sub (.rd (.arr .spRates 24)) (.sub (.rd (.arr .fwd 148)) (.rd (.arr .rev 148)))),
  .set (.arr .spRates 25) (.add (.rd (.arr .spRates 25)) (.sub (.rd (.arr .fwd 148)) (.rd (.arr .rev 148)))),
  .set (.arr .spRates 13) (.sub (.rd (.arr .spRates 13)) (.sub (.rd (.arr .fwd 148)) (.rd (.arr .rev 148)))),
  .set (.arr .spRates 16) (.add (.rd (.arr .spRates 16)) (.sub (.rd (.arr .fwd 148)) (.rd (.arr .rev 148))))]

/-- utilities/mechanisms/yao/lib/src/spec_rates.c:1391-1398 -/
def spec149 : List CStmt := [
  .set (.arr .spRates 24) (.sub (.rd (.arr .spRates 24)) (.mul (.sub (.rd (.arr .fwd 149)) (.rd (.arr .rev 149))) (.rd (.arr .presMod 21)))),
  .set (.arr .spRates 11) (.sub (.rd (.arr .spRates 11)) (.mul (.sub (.rd (.arr .fwd 149)) (.rd (.arr .rev 149))) (.rd (.arr .presMod 21)))),
  .set (.arr .spRates 29) (.add (.rd (.arr .spRates 29)) (.mul (.sub (.rd (.arr .fwd 149)) (.rd (.arr .rev 149))) (.rd (.arr .presMod 21))))]

/-- utilities/mechanisms/yao/lib/src/spec_rates.c:1399-1406 -/
def spec150 : List CStmt := [
  .set (.arr .spRates 25) (.sub (.rd (.arr .spRates 25)) (.mul (.sub (.rd (.arr .fwd 150)) (.rd (.arr .rev 150))) (.rd (.arr .presMod 22)))),
  .set (.arr .spRates 26) (.add (.rd (.arr .spRates 26)) (.mul (.sub (.rd (.arr .fwd 150)) (.rd (.arr .rev 150))) (.rd (.arr .presMod 22)))),
  .set (.arr .spRates 1) (.sub (.rd (.arr .spRates 1)) (.mul (.sub (.rd (.arr .fwd 150)) (.rd (.arr .rev 150))) (.rd (.arr .presMod 22))))]

/-- utilities/mechanisms/yao/lib/src/spec_rates.c:1407-1416 -/
def spec151 : List CStmt := [
  .set (.arr .spRates 25) (.sub (.rd (.arr .spRates 25)) (.sub (.rd (.arr .fwd 151)) (.rd (.arr .rev 151)))),
  .set (.arr .spRates 11) (.add (.rd (.arr .spRates 11)) (.sub (.rd (.arr .fwd 151)) (.rd (.arr .rev 151)))),
  .set (.arr .spRates 20) (.add (.rd (.arr .spRates 20)) (.sub (.rd (.arr .fwd 151)) (.rd (.arr .rev 151)))),
  .set (.arr .spRates 1) (.sub (.rd (.arr .spRates 1)) (.sub (.rd (.arr .fwd 151)) (.rd (.arr .rev 151))))]

/-- utilities/mechanisms/yao/lib/src/spec_rates.c:1417-1426 -/
def spec152 : List CStmt := [
  .set (.arr .spRates 24) (.add (.rd (.arr .spRates 24)) (.sub (.rd (.arr .fwd 152)) (.rd (.arr .rev 152)))),
  .set (.arr .spRates 25) (.sub (.rd (.arr .spRates 25)) (.sub (.rd (.arr .fwd 152)) (.rd (.arr .rev 152)))),
  .set (.arr .spRates 5) (.add (.rd (.arr .spRates 5)) (.sub (.rd (.arr .fwd 152)) (.rd (.arr .rev 152)))),
  .set (.arr .spRates 1) (.sub (.rd (.arr .spRates 1)) (.sub (.rd (.arr .fwd 152)) (.rd (.arr .rev 152))))]

/-- utilities/mechanisms/yao/lib/src/spec_rates.c:1427-1436 -/
def spec153 : List CStmt := [
  .set (.arr .spRates 25) (.sub (.rd (.arr .spRates 25)) (.sub (.rd (.arr .fwd 153)) (.rd (.arr .rev 153)))),
  .set (.arr .spRates 2) (.sub (.rd (.arr .spRates 2)) (.sub (.rd (.arr .fwd 153)) (.rd (.arr .rev 153)))),
  .set (.arr .spRates 27) (.add (.rd (.arr .spRates 27)) (.sub (.rd (.arr .fwd 153)) (.rd (.arr .rev 153)))),
  .set (.arr .spRates 1) (.add (.rd (.arr .spRates 1)) (.mul (.num 2 0) (.sub (.rd (.arr .fwd 153)) (.rd (.arr .rev 153)))))]

/-- utilities/mechanisms/yao/lib/src/spec_rates.c:1437-1446 -/
def spec154 : List CStmt := [
  .set (.arr .spRates 25) (.sub (.rd (.arr .spRates 25)) (.sub (.rd (.arr .fwd 154)) (.rd (.arr .rev 154)))),
  .set (.arr .spRates 2) (.sub (.rd (.arr .spRates 2)) (.sub (.rd (.arr .fwd 154)) (.rd (.arr .rev 154)))),
  .set (.arr .spRates 21) (.add (.rd (.arr .spRates 21)) (.sub (.rd (.arr .fwd 154)) (.rd (.arr .rev 154)))),
  .set (.arr .spRates 13) (.add (.rd (.arr .spRates 13)) (.sub (.rd (.arr .fwd 154)) (.rd (.arr .rev 154))))]

/-- utilities/mechanisms/yao/lib/src/spec_rates.c:1447-1456 -/
def spec155 : List CStmt := [
  .set (.arr .spRates 24) (.add (.rd (.arr .spRates 24)) (.sub (.rd (.arr .fwd 155)) (.rd (.arr .rev 155)))),
  .set (.arr .spRates 25) (.sub (.rd (.arr .spRates 25)) (.sub (.rd (.arr .fwd 155)) (.rd (.arr .rev 155)))),
  .set (.arr .spRates 2) (.sub (.rd (.arr .spRates 2)) (.sub (.rd (.arr .fwd 155)) (.rd (.arr .rev 155)))),
  .set (.arr .spRates 3) (.add (.rd (.arr .spRates 3)) (.sub (.rd (.arr .fwd 155)) (.rd (.arr .rev 155))))]

/-- utilities/mechanisms/yao/lib/src/spec_rates.c:1457-1466 -/
def spec156 : List CStmt := [
  .set (.arr .spRates 24) (.add (.rd (.arr .spRates 24)) (.sub (.rd (.arr .fwd 156)) (.rd (.arr .rev 156)))),
  .set (.arr .spRates 25) (.sub (.rd (.arr .spRates 25)) (.sub (.rd (.arr .fwd 156)) (.rd (.arr .rev 156)))),
  .set (.arr .spRates 3) (.sub (.rd (.arr .spRates 3)) (.sub (.rd (.arr .fwd 156)) (.rd (.arr .rev 156)))),
  .set (.arr .spRates 6) (.add (.rd (.arr .spRates 6)) (.sub (.rd (.arr .fwd 156)) (.rd (.arr .rev 156))))]

/-- utilities/mechanisms/yao/lib/src/spec_rates.c:1467-1476 -/
def spec157 : List CStmt := [
  .set (.arr .spRates 24) (.add (.rd (.arr .spRates 24)) (.sub (.rd (.arr .fwd 157)) (.rd (.arr .rev 157)))),
  .set (.arr .spRates 25) (.sub (.rd (.arr .spRates 25)) (.sub (.rd (.arr .fwd 157)) (.rd (.arr .rev 157)))),
  .set (.arr .spRates 4) (.sub (.rd (.arr .spRates 4)) (.sub (.rd (.arr .fwd 157)) (.rd (.arr .rev 157)))),
  .set (.arr .spRates 7) (.add (.rd (.arr .spRates 7)) (.sub (.rd (.arr .fwd 157)) (.rd (.arr .rev 157))))]

/-- utilities/mechanisms/yao/lib/src/spec_rates.c:1477-1486 -/
def spec158 : List CStmt := [
  .set (.arr .spRates 24) (.add (.rd (.arr .spRates 24)) (.sub (.rd (.arr .fwd 158)) (.rd (.arr .rev 158)))),
  .set (.arr .spRates 25) (.sub (.rd (.arr .spRates 25)) (.sub (.rd (.arr .fwd 158)) (.rd (.arr .rev 158)))),
  .set (.arr .spRates 11) (.sub (.rd (.arr .spRates 11)) (.sub (.rd (.arr .fwd 158)) (.rd (.arr .rev 158)))),
  .set (.arr .spRates 12) (.add (.rd (.arr .spRates 12)) (.sub (.rd (.arr .fwd 158)) (.rd (.arr .rev 158))))]

/-- utilities/mechanisms/yao/lib/src/spec_rates.c:1487-1496 -/
def spec159 : List CStmt := [
  .set (.arr .spRates 1) (.sub (.rd (.arr .spRates 1)) (.sub (.rd (.arr .fwd 159)) (.rd (.arr .rev 159)))),
  .set (.arr .spRates 27) (.sub (.rd (.arr .spRates 27)) (.sub (.rd (.arr .fwd 159)) (.rd (.arr .rev 159)))),
  .set (.arr .spRates 20) (.add (.rd (.arr .spRates 20)) (.sub (.rd (.arr .fwd 159)) (.rd (.arr .rev 159)))),
  .set (.arr .spRates 13) (.add (.rd (.arr .spRates 13)) (.sub (.rd (.arr .fwd 159)) (.rd (.arr .rev 159))))]

/-- utilities/mechanisms/yao/lib/src/spec_rates.c:1497-1508 -/
def spec160 : List CStmt := [
  .set (.arr .spRates 19) (.add (.rd (.arr .spRates 19)) (.sub (.rd (.arr .fwd 160)) (.rd (.arr .rev 160)))),
  .set (.arr .spRates 16) (.add (.rd (.arr .spRates 16)) (.sub (.rd (.arr .fwd 160)) (.rd (.arr .rev 160)))),
  .set (.arr .spRates 2) (.sub (.rd (.arr .spRates 2)) (.sub (.rd (.arr .fwd 160)) (.rd (.arr .rev 160)))),
  .set (.arr .spRates 27) (.sub (.rd (.arr .spRates 27)) (.sub (.rd (.arr .fwd 160)) (.rd (.arr .rev 160)))),
  .set (.arr .spRates 3) (.add (.rd (.arr .spRates 3)) (.sub (.rd (.arr .fwd 160)) (.rd (.arr .rev 160))))]

/-- utilities/mechanisms/yao/lib/src/spec_rates.c:1509-1520 -/
def spec161 : List CStmt := [
  .set (.arr .spRates 3) (.sub (.rd (.arr .spRates 3)) (.sub (.rd (.arr .fwd 161)) (.rd (.arr .rev 161)))),
  .set (.arr .spRates 19) (.add (.rd (.arr .spRates 19)) (.sub (.rd (.arr .fwd 161)) (.rd (.arr .rev 161)))),
  .set (.arr .spRates 27) (.sub (.rd (.arr .spRates 27)) (.sub (.rd (.arr .fwd 161)) (.rd (.arr .rev 161)))),
  .set (.arr .spRates 6) (.add (.rd (.arr .spRates 6)) (.sub (.rd (.arr .fwd 161)) (.rd (.arr .rev 161)))),
  .set (.arr .spRates 16) (.add (.rd (.arr .spRates 16)) (.sub (.rd (.arr .fwd 161)) (.rd (.arr .rev 161))))]

/-- utilities/mechanisms/yao/lib/src/spec_rates.c:1521-1530 -/
def spec162 : List CStmt := [
  .set (.arr .spRates 1) (.sub (.rd (.arr .spRates 1)) (.sub (.rd (.arr .fwd 162)) (.rd (.arr .rev 162)))),
  .set (.arr .spRates 26) (.sub (.rd (.arr .spRates 26)) (.sub (.rd (.arr .fwd 162)) (.rd (.arr .rev 162)))),
  .set (.arr .spRates 11) (.add (.rd (.arr .spRates 11)) (.sub (.rd (.arr .fwd 162)) (.rd (.arr .rev 162)))),
  .set (.arr .spRates 21) (.add (.rd (.arr .spRates 21)) (.sub (.rd (.arr .fwd 162)) (.rd (.arr .rev 162))))]

/-- utilities/mechanisms/yao/lib/src/spec_rates.c:1531-1540 -/
def spec163 : List CStmt := [
  .set (.arr .spRates 1) (.sub (.rd (.arr .spRates 1)) (.sub (.rd (.arr .fwd 163)) (.rd (.arr .rev 163)))),
  .set (.arr .spRates 26) (.sub (.rd (.arr .spRates 26)) (.sub (.rd (.arr .fwd 163)) (.rd (.arr .rev 163)))),
  .set (.arr .spRates 5) (.add (.rd (.arr .spRates 5)) (.sub (.rd (.arr .fwd 163)) (.rd (.arr .rev 163)))),
  .set (.arr .spRates 25) (.add (.rd (.arr .spRates 25)) (.sub (.rd (.arr .fwd 163)) (.rd (.arr .rev 163))))]

/-- utilities/mechanisms/yao/lib/src/spec_rates.c:1541-1550 -/
def spec164 : List CStmt := [
  .set (.arr .spRates 26) (.sub (.rd (.arr .spRates 26)) (.sub (.rd (.arr .fwd 164)) (.rd (.arr .rev 164)))),
  .set (.arr .spRates 2) (.sub (.rd (.arr .spRates 2)) (.sub (.rd (.arr .fwd 164)) (.rd (.arr .rev 164)))),
  .set (.arr .spRates 14) (.add (.rd (.arr .spRates 14)) (.sub (.rd (.arr .fwd 164)) (.rd (.arr .rev 164)))),
  .set (.arr .spRates 21) (.add (.rd (.arr .spRates 21)) (.sub (.rd (.arr .fwd 164)) (.rd (.arr .rev 164))))]

/-- utilities/mechanisms/yao/lib/src/spec_rates.c:1551-1560 -/
def spec165 : List CStmt := [
  .set (.arr .spRates 25) (.add (.rd (.arr .spRates 25)) (.sub (.rd (.arr .fwd 165)) (.rd (.arr .rev 165)))),
  .set (.arr .spRates 26) (.sub (.rd (.arr .spRates 26)) (.sub (.rd (.arr .fwd 165)) (.rd (.arr .rev 165)))),
  .set (.arr .spRates 3) (.sub (.rd (.arr .spRates 3)) (.sub (.rd (.arr .fwd 165)) (.rd (.arr .rev 165)))),
  .set (.arr .spRates 6) (.add (.rd (.arr .spRates 6)) (.sub (.rd (.arr .fwd 165)) (.rd (.arr .rev 165))))]

/-- utilities/mechanisms/yao/lib/src/spec_rates.c:1561-1570 -/
def spec166 : List CStmt := [
  .set (.arr .spRates 8) (.sub (.rd (.arr .spRates 8)) (.sub (.rd (.arr .fwd 166)) (.rd (.arr .rev 166)))),
  .set (.arr .spRates 25) (.add (.rd (.arr .spRates 25)) (.sub (.rd (.arr .fwd 166)) (.rd (.arr .rev 166)))),
  .set (.arr .spRates 26) (.sub (.rd (.arr .spRates 26)) (.sub (.rd (.arr .fwd 166)) (.rd (.arr .rev 166)))),
  .set (.arr .spRates 4) (.add (.rd (.arr .spRates 4)) (.sub (.rd (.arr .fwd 166)) (.rd (.arr .rev 166))))]

/-- utilities/mechanisms/yao/lib/src/spec_rates.c:1571-1582 -/
def spec167 : List CStmt := [
  .set (.arr .spRates 26) (.sub (.rd (.arr .spRates 26)) (.sub (.rd (.arr .fwd 167)) (.rd (.arr .rev 167)))),
  .set (.arr .spRates 3) (.add (.rd (.arr .spRates 3)) (.sub (.rd (.arr .fwd 167)) (.rd (.arr .rev 167)))),
  .set (.arr .spRates 4) (.sub (.rd (.arr .spRates 4)) (.sub (.rd (.arr .fwd 167)) (.rd (.arr .rev 167)))),
  .set (.arr .spRates 21) (.add (.rd (.arr .spRates 21)) (.sub (.rd (.arr .fwd 167)) (.rd (.arr .rev 167)))),
  .set (.arr .spRates 14) (.add (.rd (.arr .spRates 14)) (.sub (.rd (.arr .fwd 167)) (.rd (.arr .rev 167))))]

/-- utilities/mechanisms/yao/lib/src/spec_rates.c:1583-1592 -/
def spec168 : List CStmt := [
  .set (.arr .spRates 25) (.add (.rd (.arr .spRates 25)) (.sub (.rd (.arr .fwd 168)) (.rd (.arr .rev 168)))),
  .set (.arr .spRates 26) (.sub (.rd (.arr .spRates 26)) (.sub (.rd (.arr .fwd 168)) (.rd (.arr .rev 168)))),
  .set (.arr .spRates 11) (.sub (.rd (.arr .spRates 11)) (.sub (.rd (.arr .fwd 168)) (.rd (.arr .rev 168)))),
  .set (.arr .spRates 12) (.add (.rd (.arr .spRates 12)) (.sub (.rd (.arr .fwd 168)) (.rd (.arr .rev 168))))]

/-- utilities/mechanisms/yao/lib/src/spec_rates.c:1593-1600 -/
def spec169 : List CStmt := [
  .set (.arr .spRates 1) (.sub (.rd (.arr .spRates 1)) (.mul (.sub (.rd (.arr .fwd 169)) (.rd (.arr .rev 169))) (.rd (.arr .presMod 23)))),
  .set (.arr .spRates 28) (.sub (.rd (.arr .spRates 28)) (.mul (.sub (.rd (.arr .fwd 169)) (.rd (.arr .rev 169))) (.rd (.arr .presMod 23)))),
  .set (.arr .spRates 29) (.add (.rd (.arr .spRates 29)) (.mul (.sub (.rd (.arr .fwd 169)) (.rd (.arr .rev 169))) (.rd (.arr .presMod 23))))]

/-- utilities/mechanisms/yao/lib/src/spec_rates.c:1601-1610 -/
def spec170 : List CStmt := [
  .set (.arr .spRates 24) (.add (.rd (.arr .spRates 24)) (.sub (.rd (.arr .fwd 170)) (.rd (.arr .rev 170)))),
  .set (.arr .spRates 1) (.sub (.rd (.arr .spRates 1)) (.sub (.rd (.arr .fwd 170)) (.rd (.arr .rev 170)))),
  .set (.arr .spRates 11) (.add (.rd (.arr .spRates 11)) (.sub (.rd (.arr .fwd 170)) (.rd (.arr .rev 170)))),
  .set (.arr .spRates 28) (.sub (.rd (.arr .spRates 28)) (.sub (.rd (.arr .fwd 170)) (.rd (.arr .rev 170))))]

/-- utilities/mechanisms/yao/lib/src/spec_rates.c:1611-1622 -/
def spec171 : List CStmt := [
  .set (.arr .spRates 24) (.add (.rd (.arr .spRates 24)) (.sub (.rd (.arr .fwd 171)) (.rd (.arr .rev 171)))),
  .set (.arr .spRates 28) (.sub (.rd (.arr .spRates 28)) (.sub (.rd (.arr .fwd 171)) (.rd (.arr .rev 171)))),
  .set (.arr .spRates 3) (.add (.rd (.arr .spRates 3)) (.sub (.rd (.arr .fwd 171)) (.rd (.arr .rev 171)))),
  .set (.arr .spRates 4) (.sub (.rd (.arr .spRates 4)) (.sub (.rd (.arr .fwd 171)) (.rd (.arr .rev 171)))),
  .set (.arr .spRates 14) (.add (.rd (.arr .spRates 14)) (.sub (.rd (.arr .fwd 171)) (.rd (.arr .rev 171))))]

/-- utilities/mechanisms/yao/lib/src/spec_rates.c:1623-1632 -/
def spec172 : List CStmt := [
  .set (.arr .spRates 16) (.add (.rd (.arr .spRates 16)) (.sub (.rd (.arr .fwd 172)) (.rd (.arr .rev 172)))),
  .set (.arr .spRates 28) (.sub (.rd (.arr .spRates 28)) (.sub (.rd (.arr .fwd 172)) (.rd (.arr .rev 172)))),
  .set (.arr .spRates 13) (.sub (.rd (.arr .spRates 13)) (.sub (.rd (.arr .fwd 172)) (.rd (.arr .rev 172)))),
  .set (.arr .spRates 29) (.add (.rd (.arr .spRates 29)) (.sub (.rd (.arr .fwd 172)) (.rd (.arr .rev 172))))]

/-- utilities/mechanisms/yao/lib/src/spec_rates.c:1633-1640 -/
def spec173 : List CStmt := [
  .set (.arr .spRates 1) (.sub (.rd (.arr .spRates 1)) (.mul (.sub (.rd (.arr .fwd 173)) (.rd (.arr .rev 173))) (.rd (.arr .presMod 24)))),
  .set (.arr .spRates 29) (.sub (.rd (.arr .spRates 29)) (.mul (.sub (.rd (.arr .fwd 173)) (.rd (.arr .rev 173))) (.rd (.arr .presMod 24)))),
  .set (.arr .spRates 30) (.mul (.sub (.rd (.arr .fwd 173)) (.rd (.arr .rev 173))) (.rd (.arr .presMod 24)))]

/-- utilities/mechanisms/yao/lib/src/spec_rates.c:1641-1650 -/
def spec174 : List CStmt := [
  .set (.arr .spRates 1) (.sub (.rd (.arr .spRates 1)) (.sub (.rd (.arr .fwd 174)) (.rd (.arr .rev 174)))),
  .set (.arr .spRates 20) (.add (.rd (.arr .spRates 20)) (.sub (.rd (.arr .fwd 174)) (.rd (.arr .rev 174)))),
  .set (.arr .spRates 29) (.sub (.rd (.arr .spRates 29)) (.sub (.rd (.arr .fwd 174)) (.rd (.arr .rev 174)))),
  .set (.arr .spRates 21) (.add (.rd (.arr .spRates 21)) (.sub (.rd (.arr .fwd 174)) (.rd (.arr .rev 174))))]

/-- utilities/mechanisms/yao/lib/src/spec_rates.c:1651-1660 -/
def spec175 : List CStmt := [
  .set (.arr .spRates 1) (.sub (.rd (.arr .spRates 1)) (.sub (.rd (.arr .fwd 175)) (.rd (.arr .rev 175)))),
  .set (.arr .spRates 11) (.add (.rd (.arr .spRates 11)) (.sub (.rd (.arr .fwd 175)) (.rd (.arr .rev 175)))),
  .set (.arr .spRates 29) (.sub (.rd (.arr .spRates 29)) (.sub (.rd (.arr .fwd 175)) (.rd (.arr .rev 175)))),
  .set (.arr .spRates 25) (.add (.rd (.arr .spRates 25)) (.sub (.rd (.arr .fwd 175)) (.rd (.arr .rev 175))))]

/-- utilities/mechanisms/yao/lib/src/spec_rates.c:1661-1670 -/
def spec176 : List CStmt := [
  .set (.arr .spRates 1) (.sub (.rd (.arr .spRates 1)) (.sub (.rd (.arr .fwd 176)) (.rd (.arr .rev 176)))),
  .set (.arr .spRates 28) (.add (.rd (.arr .spRates 28)) (.sub (.rd (.arr .fwd 176)) (.rd (.arr .rev 176)))),
  .set (.arr .spRates 29) (.sub (.rd (.arr .spRates 29)) (.sub (.rd (.arr .fwd 176)) (.rd (.arr .rev 176)))),
  .set (.arr .spRates 5) (.add (.rd (.arr .spRates 5)) (.sub (.rd (.arr .fwd 176)) (.rd (.arr .rev 176))))]

/-- utilities/mechanisms/yao/lib/src/spec_rates.c:1671-1680 -/
def spec177 : List CStmt := [
  .set (.arr .spRates 2) (.sub (.rd (.arr .spRates 2)) (.sub (.rd (.arr .fwd 177)) (.rd (.arr .rev 177)))),
  .set (.arr .spRates 26) (.add (.rd (.arr .spRates 26)) (.sub (.rd (.arr .fwd 177)) (.rd (.arr .rev 177)))),
  .set (.arr .spRates 29) (.sub (.rd (.arr .spRates 29)) (.sub (.rd (.arr .fwd 177)) (.rd (.arr .rev 177)))),
  .set (.arr .spRates 13) (.add (.rd (.arr .spRates 13)) (.sub (.rd (.arr .fwd 177)) (.rd (.arr .rev 177))))]

/-- utilities/mechanisms/yao/lib/src/spec_rates.c:1681-1690 -/
def spec178 : List CStmt := [
  .set (.arr .spRates 2) (.sub (.rd (.arr .spRates 2)) (.sub (.rd (.arr .fwd 178)) (.rd (.arr .rev 178)))),
  .set (.arr .spRates 3) (.add (.rd (.arr .spRates 3)) (.sub (.rd (.arr .fwd 178)) (.rd (.arr .rev 178)))),
  .set (.arr .spRates 28) (.add (.rd (.arr .spRates 28)) (.sub (.rd (.arr .fwd 178)) (.rd (.arr .rev 178)))),
  .set (.arr .spRates 29) (.sub (.rd (.arr .spRates 29)) (.sub (.rd (.arr .fwd 178)) (.rd (.arr .rev 178))))]

/-- utilities/mechanisms/yao/lib/src/spec_rates.c:1691-1700 -/
def spec179 : List CStmt := [
  .set (.arr .spRates 2) (.sub (.rd (.arr .spRates 2)) (.sub (.rd (.arr .fwd 179)) (.rd (.arr .rev 179)))),
  .set (.arr .spRates 3) (.add (.rd (.arr .spRates 3)) (.sub (.rd (.arr .fwd 179)) (.rd (.arr .rev 179)))),
  .set (.arr .spRates 28) (.add (.rd (.arr .spRates 28)) (.sub (.rd (.arr .fwd 179)) (.rd (.arr .rev 179)))),
  .set (.arr .spRates 29) (.sub (.rd (.arr .spRates 29)) (.sub (.rd (.arr .fwd 179)) (.rd (.arr .rev 179))))]

/-- utilities/mechanisms/yao/lib/src/spec_rates.c:1701-1710 -/
def spec180 : List CStmt := [
  .set (.arr .spRates 3) (.sub (.rd (.arr .spRates 3)) (.sub (.rd (.arr .fwd 180)) (.rd (.arr .rev 180)))),
  .set (.arr .spRates 28) (.add (.rd (.arr .spRates 28)) (.sub (.rd (.arr .fwd 180)) (.rd (.arr .rev 180)))),
  .set (.arr .spRates 29) (.sub (.rd (.arr .spRates 29)) (.sub (.rd (.arr .fwd 180)) (.rd (.arr .rev 180)))),
  .set (.arr .spRates 6) (.add (.rd (.arr .spRates 6)) (.sub (.rd (.arr .fwd 180)) (.rd (.arr .rev 180))))]

/-- utilities/mechanisms/yao/lib/src/spec_rates.c:1711-1720 -/
def spec181 : List CStmt := [
  .set (.arr .spRates 8) (.sub (.rd (.arr .spRates 8)) (.sub (.rd (.arr .fwd 181)) (.rd (.arr .rev 181)))),
  .set (.arr .spRates 28) (.add (.rd (.arr .spRates 28)) (.sub (.rd (.arr .fwd 181)) (.rd (.arr .rev 181)))),
  .set (.arr .spRates 4) (.add (.rd (.arr .spRates 4)) (.sub (.rd (.arr .fwd 181)) (.rd (.arr .rev 181)))),
  .set (.arr .spRates 29) (.sub (.rd (.arr .spRates 29)) (.sub (.rd (.arr .fwd 181)) (.rd (.arr .rev 181))))]

/-- utilities/mechanisms/yao/lib/src/spec_rates.c:1721-1730 -/
def spec182 : List CStmt := [
  .set (.arr .spRates 28) (.add (.rd (.arr .spRates 28)) (.sub (.rd (.arr .fwd 182)) (.rd (.arr .rev 182)))),
  .set (.arr .spRates 4) (.sub (.rd (.arr .spRates 4)) (.sub (.rd (.arr .fwd 182)) (.rd (.arr .rev 182)))),
  .set (.arr .spRates 29) (.sub (.rd (.arr .spRates 29)) (.sub (.rd (.arr .fwd 182)) (.rd (.arr .rev 182)))),
  .set (.arr .spRates 7) (.add (.rd (.arr .spRates 7)) (.sub (.rd (.arr .fwd 182)) (.rd (.arr .rev 182))))]

/-- utilities/mechanisms/yao/lib/src/spec_rates.c:1731-1740 -/
def spec183 : List CStmt := [
  .set (.arr .spRates 28) (.add (.rd (.arr .spRates 28)) (.sub (.rd (.arr .fwd 183)) (.rd (.arr .rev 183)))),
  .set (.arr .spRates 11) (.sub (.rd (.arr .spRates 11)) (.sub (.rd (.arr .fwd 183)) (.rd (.arr .rev 183)))),
  .set (.arr .spRates 12) (.add (.rd (.arr .spRates 12)) (.sub (.rd (.arr .fwd 183)) (.rd (.arr .rev 183)))),
  .set (.arr .spRates 29) (.sub (.rd (.arr .spRates 29)) (.sub (.rd (.arr .fwd 183)) (.rd (.arr .rev 183))))]

/-- utilities/mechanisms/yao/lib/src/spec_rates.c:1741-1748 -/
def spec184 : List CStmt := [
  .set (.arr .spRates 1) (.sub (.rd (.arr .spRates 1)) (.sub (.rd (.arr .fwd 184)) (.rd (.arr .rev 184)))),
  .set (.arr .spRates 21) (.add (.rd (.arr .spRates 21)) (.mul (.num 2 0) (.sub (.rd (.arr .fwd 184)) (.rd (.arr .rev 184))))),
  .set (.arr .spRates 30) (.sub (.rd (.arr .spRates 30)) (.sub (.rd (.arr .fwd 184)) (.rd (.arr .rev 184))))]

/-- utilities/mechanisms/yao/lib/src/spec_rates.c:1749-1758 -/
def spec185 : List CStmt := [
  .set (.arr .spRates 1) (.sub (.rd (.arr .spRates 1)) (.sub (.rd (.arr .fwd 185)) (.rd (.arr .rev 185)))),
  .set (.arr .spRates 5) (.add (.rd (.arr .spRates 5)) (.sub (.rd (.arr .fwd 185)) (.rd (.arr .rev 185)))),
  .set (.arr .spRates 30) (.sub (.rd (.arr .spRates 30)) (.sub (.rd (.arr .fwd 185)) (.rd (.arr .rev 185)))),
  .set (.arr .spRates 29) (.add (.rd (.arr .spRates 29)) (.sub (.rd (.arr .fwd 185)) (.rd (.arr .rev 185))))]

/-- utilities/mechanisms/yao/lib/src/spec_rates.c:1759-1768 -/
def spec186 : List CStmt := [
  .set (.arr .spRates 2) (.sub (.rd (.arr .spRates 2)) (.sub (.rd (.arr .fwd 186)) (.rd (.arr .rev 186)))),
  .set (.arr .spRates 26) (.add (.rd (.arr .spRates 26)) (.sub (.rd (.arr .fwd 186)) (.rd (.arr .rev 186)))),
  .set (.arr .spRates 14) (.add (.rd (.arr .spRates 14)) (.sub (.rd (.arr .fwd 186)) (.rd (.arr .rev 186)))),
  .set (.arr .spRates 30) (.sub (.rd (.arr .spRates 30)) (.sub (.rd (.arr .fwd 186)) (.rd (.arr .rev 186))))]

/-- utilities/mechanisms/yao/lib/src/spec_rates.c:1769-1778 -/
def spec187 : List CStmt := [
  .set (.arr .spRates 3) (.sub (.rd (.arr .spRates 3)) (.sub (.rd (.arr .fwd 187)) (.rd (.arr .rev 187)))),
  .set (.arr .spRates 6) (.add (.rd (.arr .spRates 6)) (.sub (.rd (.arr .fwd 187)) (.rd (.arr .rev 187)))),
  .set (.arr .spRates 30) (.sub (.rd (.arr .spRates 30)) (.sub (.rd (.arr .fwd 187)) (.rd (.arr .rev 187)))),
  .set (.arr .spRates 29) (.add (.rd (.arr .spRates 29)) (.sub (.rd (.arr .fwd 187)) (.rd (.arr .rev 187))))]

/-- utilities/mechanisms/yao/lib/src/spec_rates.c:1779-1788 -/
def spec188 : List CStmt := [
  .set (.arr .spRates 8) (.sub (.rd (.arr .spRates 8)) (.sub (.rd (.arr .fwd 188)) (.rd (.arr .rev 188)))),
  .set (.arr .spRates 4) (.add (.rd (.arr .spRates 4)) (.sub (.rd (.arr .fwd 188)) (.rd (.arr .rev 188)))),
  .set (.arr .spRates 29) (.add (.rd (.arr .spRates 29)) (.sub (.rd (.arr .fwd 188)) (.rd (.arr .rev 188)))),
  .set (.arr .spRates 30) (.sub (.rd (.arr .spRates 30)) (.sub (.rd (.arr .fwd 188)) (.rd (.arr .rev 188))))]

/-- utilities/mechanisms/yao/lib/src/spec_rates.c:1789-1800 -/
def spec189 : List CStmt := [
  .set (.arr .spRates 26) (.add (.rd (.arr .spRates 26)) (.sub (.rd (.arr .fwd 189)) (.rd (.arr .rev 189)))),
  .set (.arr .spRates 3) (.add (.rd (.arr .spRates 3)) (.sub (.rd (.arr .fwd 189)) (.rd (.arr .rev 189)))),
  .set (.arr .spRates 4) (.sub (.rd (.arr .spRates 4)) (.sub (.rd (.arr .fwd 189)) (.rd (.arr .rev 189)))),
  .set (.arr .spRates 14) (.add (.rd (.arr .spRates 14)) (.sub (.rd (.arr .fwd 189)) (.rd (.arr .rev 189)))),
  .set (.arr .spRates 30) (.sub (.rd (.arr .spRates 30)) (.sub (.rd (.arr .fwd 189)) (.rd (.arr .rev 189))))]

/-- utilities/mechanisms/yao/lib/src/spec_rates.c:1801-1810 -/
def spec190 : List CStmt := [
  .set (.arr .spRates 11) (.sub (.rd (.arr .spRates 11)) (.sub (.rd (.arr .fwd 190)) (.rd (.arr .rev 190)))),
  .set (.arr .spRates 12) (.add (.rd (.arr .spRates 12)) (.sub (.rd (.arr .fwd 190)) (.rd (.arr .rev 190)))),
  .set (.arr .spRates 29) (.add (.rd (.arr .spRates 29)) (.sub (.rd (.arr .fwd 190)) (.rd (.arr .rev 190)))),
  .set (.arr .spRates 30) (.sub (.rd (.arr .spRates 30)) (.sub (.rd (.arr .fwd 190)) (.rd (.arr .rev 190))))]

/-- utilities/mechanisms/yao/lib/src/spec_rates.c:1811-1818 -/
def spec191 : List CStmt := [
  .set (.arr .spRates 24) (.add (.rd (.arr .spRates 24)) (.rd (.arr .fwd 191))),
  .set (.arr .spRates 20) (.add (.rd (.arr .spRates 20)) (.rd (.arr .fwd 191))),
  .set (.arr .spRates 31) (.neg (.rd (.arr .fwd 191)))]

/-- utilities/mechanisms/yao/lib/src/spec_rates.c:1819-1826 -/
def spec192 : List CStmt := [
  .set (.arr .spRates 25) (.add (.rd (.arr .spRates 25)) (.rd (.arr .fwd 192))),
  .set (.arr .spRates 19) (.add (.rd (.arr .spRates 19)) (.rd (.arr .fwd 192))),
  .set (.arr .spRates 31) (.sub (.rd (.arr .spRates 31)) (.rd (.arr .fwd 192)))]

/-- utilities/mechanisms/yao/lib/src/spec_rates.c:1827-1834 -/
def spec193 : List CStmt := [
  .set (.arr .spRates 32) (.mul (.neg (.sub (.rd (.arr .fwd 193)) (.rd (.arr .rev 191)))) (.rd (.arr .presMod 25))),
  .set (.arr .spRates 1) (.sub (.rd (.arr .spRates 1)) (.mul (.sub (.rd (.arr .fwd 193)) (.rd (.arr .rev 191))) (.rd (.arr .presMod 25)))),
  .set (.arr .spRates 33) (.mul (.sub (.rd (.arr .fwd 193)) (.rd (.arr .rev 191))) (.rd (.arr .presMod 25)))]

/-- utilities/mechanisms/yao/lib/src/spec_rates.c:1835-1844 -/
def spec194 : List CStmt := [
  .set (.arr .spRates 32) (.sub (.rd (.arr .spRates 32)) (.sub (.rd (.arr .fwd 194)) (.rd (.arr .rev 192)))),
  .set (.arr .spRates 1) (.sub (.rd (.arr .spRates 1)) (.sub (.rd (.arr .fwd 194)) (.rd (.arr .rev 192)))),
  .set (.arr .spRates 26) (.add (.rd (.arr .spRates 26)) (.sub (.rd (.arr .fwd 194)) (.rd (.arr .rev 192)))),
  .set (.arr .spRates 20) (.add (.rd (.arr .spRates 20)) (.sub (.rd (.arr .fwd 194)) (.rd (.arr .rev 192))))]

/-- utilities/mechanisms/yao/lib/src/spec_rates.c:1845-1854 -/
def spec195 : List CStmt := [
  .set (.arr .spRates 32) (.sub (.rd (.arr .spRates 32)) (.sub (.rd (.arr .fwd 195)) (.rd (.arr .rev 193)))),
  .set (.arr .spRates 1) (.sub (.rd (.arr .spRates 1)) (.sub (.rd (.arr .fwd 195)) (.rd (.arr .rev 193)))),
  .set (.arr .spRates 21) (.add (.rd (.arr .spRates 21)) (.sub (.rd (.arr .fwd 195)) (.rd (.arr .rev 193)))),
  .set (.arr .spRates 25) (.add (.rd (.arr .spRates 25)) (.sub (.rd (.arr .fwd 195)) (.rd (.arr .rev 193))))]

/-- utilities/mechanisms/yao/lib/src/spec_rates.c:1855-1862 -/
def spec196 : List CStmt := [
  .set (.arr .spRates 33) (.add (.rd (.arr .spRates 33)) (.sub (.rd (.arr .fwd 196)) (.rd (.arr .rev 194)))),
  .set (.arr .spRates 26) (.sub (.rd (.arr .spRates 26)) (.sub (.rd (.arr .fwd 196)) (.rd (.arr .rev 194)))),
  .set (.arr .spRates 20) (.sub (.rd (.arr .spRates 20)) (.sub (.rd (.arr .fwd 196)) (.rd (.arr .rev 194))))]

/-- utilities/mechanisms/yao/lib/src/spec_rates.c:1863-1870 -/
def spec197 : List CStmt := [
  .set (.arr .spRates 1) (.sub (.rd (.arr .spRates 1)) (.mul (.sub (.rd (.arr .fwd 197)) (.rd (.arr .rev 195))) (.rd (.arr .presMod 26)))),
  .set (.arr .spRates 34) (.mul (.neg (.sub (.rd (.arr .fwd 197)) (.rd (.arr .rev 195)))) (.rd (.arr .presMod 26))),
  .set (.arr .spRates 35) (.mul (.sub (.rd (.arr .fwd 197)) (.rd (.arr .rev 195))) (.rd (.arr .presMod 26)))]

/-- utilities/mechanisms/yao/lib/src/spec_rates.c:1871-1880 -/
def spec198 : List CStmt := [
  .set (.arr .spRates 1) (.sub (.rd (.arr .spRates 1)) (.sub (.rd (.arr .fwd 198)) (.rd (.arr .rev 196)))),
  .set (.arr .spRates 34) (.sub (.rd (.arr .spRates 34)) (.sub (.rd (.arr .fwd 198)) (.rd (.arr .rev 196)))),
  .set (.arr .spRates 20) (.add (.rd (.arr .spRates 20)) (.sub (.rd (.arr .fwd 198)) (.rd (.arr .rev 196)))),
  .set (.arr .spRates 30) (.add (.rd (.arr .spRates 30)) (.sub (.rd (.arr .fwd 198)) (.rd (.arr .rev 196))))]

/-- utilities/mechanisms/yao/lib/src/spec_rates.c:1881-1890 -/
def spec199 : List CStmt := [
  .set (.arr .spRates 1) (.sub (.rd (.arr .spRates 1)) (.sub (.rd (.arr .fwd 199)) (.rd (.arr .rev 197)))),
  .set (.arr .spRates 34) (.sub (.rd (.arr .spRates 34)) (.sub (.rd (.arr .fwd 199)) (.rd (.arr .rev 197)))),
  .set (.arr .spRates 26) (.add (.rd (.arr .spRates 26)) (.sub (.rd (.arr .fwd 199)) (.rd (.arr .rev 197)))),
  .set (.arr .spRates 25) (.add (.rd (.arr .spRates 25)) (.sub (.rd (.arr .fwd 199)) (.rd (.arr .rev 197))))]

/-- utilities/mechanisms/yao/lib/src/spec_rates.c:1891-1898 -/
def spec200 : List CStmt := [
  .set (.arr .spRates 35) (.add (.rd (.arr .spRates 35)) (.sub (.rd (.arr .fwd 200)) (.rd (.arr .rev 198)))),
  .set (.arr .spRates 20) (.sub (.rd (.arr .spRates 20)) (.sub (.rd (.arr .fwd 200)) (.rd (.arr .rev 198)))),
  .set (.arr .spRates 30) (.sub (.rd (.arr .spRates 30)) (.sub (.rd (.arr .fwd 200)) (.rd (.arr .rev 198))))]

/-- utilities/mechanisms/yao/lib/src/spec_rates.c:1899-1906 -/
def spec201 : List CStmt := [
  .set (.arr .spRates 1) (.sub (.rd (.arr .spRates 1)) (.mul (.sub (.rd (.arr .fwd 201)) (.rd (.arr .rev 199))) (.rd (.arr .presMod 27)))),
  .set (.arr .spRates 36) (.mul (.neg (.sub (.rd (.arr .fwd 201)) (.rd (.arr .rev 199)))) (.rd (.arr .presMod 27))),
  .set (.arr .spRates 37) (.mul (.sub (.rd (.arr .fwd 201)) (.rd (.arr .rev 199))) (.rd (.arr .presMod 27)))]

/-- utilities/mechanisms/yao/lib/src/spec_rates.c:1907-1916 -/
def spec202 : List CStmt := [
  .set (.arr .spRates 1) (.sub (.rd (.arr .spRates 1)) (.sub (.rd (.arr .fwd 202)) (.rd (.arr .rev 200)))),
  .set (.arr .spRates 36) (.sub (.rd (.arr .spRates 36)) (.sub (.rd (.arr .fwd 202)) (.rd (.arr .rev 200)))),
  .set (.arr .spRates 20) (.add (.rd (.arr .spRates 20)) (.sub (.rd (.arr .fwd 202)) (.rd (.arr .rev 200)))),
  .set (.arr .spRates 33) (.add (.rd (.arr .spRates 33)) (.sub (.rd (.arr .fwd 202)) (.rd (.arr .rev 200))))]

/-- utilities/mechanisms/yao/lib/src/spec_rates.c:1917-1926 -/
def spec203 : List CStmt := [
  .set (.arr .spRates 1) (.sub (.rd (.arr .spRates 1)) (.sub (.rd (.arr .fwd 203)) (.rd (.arr .rev 201)))),
  .set (.arr .spRates 36) (.sub (.rd (.arr .spRates 36)) (.sub (.rd (.arr .fwd 203)) (.rd (.arr .rev 201)))),
  .set (.arr .spRates 30) (.add (.rd (.arr .spRates 30)) (.sub (.rd (.arr .fwd 203)) (.rd (.arr .rev 201)))),
  .set (.arr .spRates 25) (.add (.rd (.arr .spRates 25)) (.sub (.rd (.arr .fwd 203)) (.rd (.arr .rev 201))))]

/-- utilities/mechanisms/yao/lib/src/spec_rates.c:1927-1934 -/
def spec204 : List CStmt := [
  .set (.arr .spRates 33) (.sub (.rd (.arr .spRates 33)) (.sub (.rd (.arr .fwd 204)) (.rd (.arr .rev 202)))),
  .set (.arr .spRates 20) (.sub (.rd (.arr .spRates 20)) (.sub (.rd (.arr .fwd 204)) (.rd (.arr .rev 202)))),
  .set (.arr .spRates 37) (.add (.rd (.arr .spRates 37)) (.sub (.rd (.arr .fwd 204)) (.rd (.arr .rev 202))))]

/-- utilities/mechanisms/yao/lib/src/spec_rates.c:1935-1942 -/
def spec205 : List CStmt := [
  .set (.arr .spRates 1) (.sub (.rd (.arr .spRates 1)) (.mul (.sub (.rd (.arr .fwd 205)) (.rd (.arr .rev 203))) (.rd (.arr .presMod 28)))),
  .set (.arr .spRates 38) (.mul (.neg (.sub (.rd (.arr .fwd 205)) (.rd (.arr .rev 203)))) (.rd (.arr .presMod 28))),
  .set (.arr .spRates 39) (.mul (.sub (.rd (.arr .fwd 205)) (.rd (.arr .rev 203))) (.rd (.arr .presMod 28)))]

/-- utilities/mechanisms/yao/lib/src/spec_rates.c:1943-1952 -/
def spec206 : List CStmt := [
  .set (.arr .spRates 1) (.sub (.rd (.arr .spRates 1)) (.sub (.rd (.arr .fwd 206)) (.rd (.arr .rev 204)))),
  .set (.arr .spRates 35) (.add (.rd (.arr .spRates 35)) (.sub (.rd (.arr .fwd 206)) (.rd (.arr .rev 204)))),
  .set (.arr .spRates 20) (.add (.rd (.arr .spRates 20)) (.sub (.rd (.arr .fwd 206)) (.rd (.arr .rev 204)))),
  .set (.arr .spRates 38) (.sub (.rd (.arr .spRates 38)) (.sub (.rd (.arr .fwd 206)) (.rd (.arr .rev 204))))]

/-- utilities/mechanisms/yao/lib/src/spec_rates.c:1953-1962 -/
def spec207 : List CStmt := [
  .set (.arr .spRates 1) (.sub (.rd (.arr .spRates 1)) (.sub (.rd (.arr .fwd 207)) (.rd (.arr .rev 205)))),
  .set (.arr .spRates 33) (.add (.rd (.arr .spRates 33)) (.sub (.rd (.arr .fwd 207)) (.rd (.arr .rev 205)))),
  .set (.arr .spRates 38) (.sub (.rd (.arr .spRates 38)) (.sub (.rd (.arr .fwd 207)) (.rd (.arr .rev 205)))),
  .set (.arr .spRates 25) (.add (.rd (.arr .spRates 25)) (.sub (.rd (.arr .fwd 207)) (.rd (.arr .rev 205))))]

/-- utilities/mechanisms/yao/lib/src/spec_rates.c:1963-1970 -/
def spec208 : List CStmt := [
  .set (.arr .spRates 35) (.sub (.rd (.arr .spRates 35)) (.sub (.rd (.arr .fwd 208)) (.rd (.arr .rev 206)))),
  .set (.arr .spRates 20) (.sub (.rd (.arr .spRates 20)) (.sub (.rd (.arr .fwd 208)) (.rd (.arr .rev 206)))),
  .set (.arr .spRates 39) (.add (.rd (.arr .spRates 39)) (.sub (.rd (.arr .fwd 208)) (.rd (.arr .rev 206))))]

/-- utilities/mechanisms/yao/lib/src/spec_rates.c:1971-1978 -/
def spec209 : List CStmt := [
  .set (.arr .spRates 40) (.mul (.neg (.sub (.rd (.arr .fwd 209)) (.rd (.arr .rev 207)))) (.rd (.arr .presMod 29))),
  .set (.arr .spRates 1) (.sub (.rd (.arr .spRates 1)) (.mul (.sub (.rd (.arr .fwd 209)) (.rd (.arr .rev 207))) (.rd (.arr .presMod 29)))),
  .set (.arr .spRates 41) (.mul (.sub (.rd (.arr .fwd 209)) (.rd (.arr .rev 207))) (.rd (.arr .presMod 29)))]

/-- utilities/mechanisms/yao/lib/src/spec_rates.c:1979-1988 -/
def spec210 : List CStmt := [
  .set (.arr .spRates 40) (.sub (.rd (.arr .spRates 40)) (.sub (.rd (.arr .fwd 210)) (.rd (.arr .rev 208)))),
  .set (.arr .spRates 1) (.sub (.rd (.arr .spRates 1)) (.sub (.rd (.arr .fwd 210)) (.rd (.arr .rev 208)))),
  .set (.arr .spRates 20) (.add (.rd (.arr .spRates 20)) (.sub (.rd (.arr .fwd 210)) (.rd (.arr .rev 208)))),
  .set (.arr .spRates 37) (.add (.rd (.arr .spRates 37)) (.sub (.rd (.arr .fwd 210)) (.rd (.arr .rev 208))))]

/-- utilities/mechanisms/yao/lib/src/spec_rates.c:1989-1998 -/
def spec211 : List CStmt := [
  .set (.arr .spRates 40) (.sub (.rd (.arr .spRates 40)) (.sub (.rd (.arr .fwd 211)) (.rd (.arr .rev 209)))),
  .set (.arr .spRates 1) (.sub (.rd (.arr .spRates 1)) (.sub (.rd (.arr .fwd 211)) (.rd (.arr .rev 209)))),
  .set (.arr .spRates 35) (.add (.rd (.arr .spRates 35)) (.sub (.rd (.arr .fwd 211)) (.rd (.arr .rev 209)))),
  .set (.arr .spRates 25) (.add (.rd (.arr .spRates 25)) (.sub (.rd (.arr .fwd 211)) (.rd (.arr .rev 209))))]

/-- utilities/mechanisms/yao/lib/src/spec_rates.c:1999-2006 -/
def spec212 : List CStmt := [
  .set (.arr .spRates 41) (.add (.rd (.arr .spRates 41)) (.sub (.rd (.arr .fwd 212)) (.rd (.arr .rev 210)))),
  .set (.arr .spRates 20) (.sub (.rd (.arr .spRates 20)) (.sub (.rd (.arr .fwd 212)) (.rd (.arr .rev 210)))),
  .set (.arr .spRates 37) (.sub (.rd (.arr .spRates 37)) (.sub (.rd (.arr .fwd 212)) (.rd (.arr .rev 210))))]

/-- utilities/mechanisms/yao/lib/src/spec_rates.c:2007-2014 -/
def spec213 : List CStmt := [
  .set (.arr .spRates 1) (.sub (.rd (.arr .spRates 1)) (.mul (.sub (.rd (.arr .fwd 213)) (.rd (.arr .rev 211))) (.rd (.arr .presMod 30)))),
  .set (.arr .spRates 42) (.mul (.neg (.sub (.rd (.arr .fwd 213)) (.rd (.arr .rev 211)))) (.rd (.arr .presMod 30))),
  .set (.arr .spRates 43) (.mul (.sub (.rd (.arr .fwd 213)) (.rd (.arr .rev 211))) (.rd (.arr .presMod 30)))]

/-- utilities/mechanisms/yao/lib/src/spec_rates.c:2015-2024 -/
def spec214 : List CStmt := [
  .set (.arr .spRates 1) (.sub (.rd (.arr .spRates 1)) (.sub (.rd (.arr .fwd 214)) (.rd (.arr .rev 212)))),
  .set (.arr .spRates 42) (.sub (.rd (.arr .spRates 42)) (.sub (.rd (.arr .fwd 214)) (.rd (.arr .rev 212)))),
  .set (.arr .spRates 20) (.add (.rd (.arr .spRates 20)) (.sub (.rd (.arr .fwd 214)) (.rd (.arr .rev 212)))),
  .set (.arr .spRates 39) (.add (.rd (.arr .spRates 39)) (.sub (.rd (.arr .fwd 214)) (.rd (.arr .rev 212))))]

/-- utilities/mechanisms/yao/lib/src/spec_rates.c:2025-2034 -/
def spec215 : List CStmt := [
  .set (.arr .spRates 1) (.sub (.rd (.arr .spRates 1)) (.sub (.rd (.arr .fwd 215)) (.rd (.arr .rev 213)))),
  .set (.arr .spRates 42) (.sub (.rd (.arr .spRates 42)) (.sub (.rd (.arr .fwd 215)) (.rd (.arr .rev 213)))),
  .set (.arr .spRates 37) (.add (.rd (.arr .spRates 37)) (.sub (.rd (.arr .fwd 215)) (.rd (.arr .rev 213)))),
  .set (.arr .spRates 25) (.add (.rd (.arr .spRates 25)) (.sub (.rd (.arr .fwd 215)) (.rd (.arr .rev 213))))]

/-- utilities/mechanisms/yao/lib/src/spec_rates.c:2035-2042 -/
def spec216 : List CStmt := [
  .set (.arr .spRates 43) (.add (.rd (.arr .spRates 43)) (.sub (.rd (.arr .fwd 216)) (.rd (.arr .rev 214)))),
  .set (.arr .spRates 20) (.sub (.rd (.arr .spRates 20)) (.sub (.rd (.arr .fwd 216)) (.rd (.arr .rev 214)))),
  .set (.arr .spRates 39) (.sub (.rd (.arr .spRates 39)) (.sub (.rd (.arr .fwd 216)) (.rd (.arr .rev 214))))]

/-- utilities/mechanisms/yao/lib/src/spec_rates.c:2043-2050 -/
def spec217 : List CStmt := [
  .set (.arr .spRates 48) (.neg (.sub (.rd (.arr .fwd 217)) (.rd (.arr .rev 215)))),
  .set (.arr .spRates 37) (.add (.rd (.arr .spRates 37)) (.sub (.rd (.arr .fwd 217)) (.rd (.arr .rev 215)))),
  .set (.arr .spRates 31) (.add (.rd (.arr .spRates 31)) (.sub (.rd (.arr .fwd 217)) (.rd (.arr .rev 215))))]

/-- utilities/mechanisms/yao/lib/src/spec_rates.c:2051-2058 -/
def spec218 : List CStmt := [
  .set (.arr .spRates 43) (.sub (.rd (.arr .spRates 43)) (.sub (.rd (.arr .fwd 218)) (.rd (.arr .rev 216)))),
  .set (.arr .spRates 20) (.sub (.rd (.arr .spRates 20)) (.sub (.rd (.arr .fwd 218)) (.rd (.arr .rev 216)))),
  .set (.arr .spRates 45) (.sub (.rd (.arr .fwd 218)) (.rd (.arr .rev 216)))]

/-- utilities/mechanisms/yao/lib/src/spec_rates.c:2059-2064 -/
def spec219 : List CStmt := [
  .set (.arr .spRates 45) (.sub (.rd (.arr .spRates 45)) (.sub (.rd (.arr .fwd 219)) (.rd (.arr .rev 217)))),
  .set (.arr .spRates 47) (.sub (.rd (.arr .fwd 219)) (.rd (.arr .rev 217)))]

/-- utilities/mechanisms/yao/lib/src/spec_rates.c:2065-2072 -/
def spec220 : List CStmt := [
  .set (.arr .spRates 25) (.sub (.rd (.arr .spRates 25)) (.sub (.rd (.arr .fwd 220)) (.rd (.arr .rev 218)))),
  .set (.arr .spRates 46) (.sub (.rd (.arr .fwd 220)) (.rd (.arr .rev 218))),
  .set (.arr .spRates 41) (.sub (.rd (.arr .spRates 41)) (.sub (.rd (.arr .fwd 220)) (.rd (.arr .rev 218))))]

/-- utilities/mechanisms/yao/lib/src/spec_rates.c:2073-2080 -/
def spec221 : List CStmt := [
  .set (.arr .spRates 29) (.sub (.rd (.arr .spRates 29)) (.sub (.rd (.arr .fwd 221)) (.rd (.arr .rev 219)))),
  .set (.arr .spRates 46) (.add (.rd (.arr .spRates 46)) (.sub (.rd (.arr .fwd 221)) (.rd (.arr .rev 219)))),
  .set (.arr .spRates 39) (.sub (.rd (.arr .spRates 39)) (.sub (.rd (.arr .fwd 221)) (.rd (.arr .rev 219))))]

/-- utilities/mechanisms/yao/lib/src/spec_rates.c:2081-2088 -/
def spec222 : List CStmt := [
  .set (.arr .spRates 32) (.sub (.rd (.arr .spRates 32)) (.sub (.rd (.arr .fwd 222)) (.rd (.arr .rev 220)))),
  .set (.arr .spRates 37) (.sub (.rd (.arr .spRates 37)) (.sub (.rd (.arr .fwd 222)) (.rd (.arr .rev 220)))),
  .set (.arr .spRates 47) (.add (.rd (.arr .spRates 47)) (.sub (.rd (.arr .fwd 222)) (.rd (.arr .rev 220))))]

/-- utilities/mechanisms/yao/lib/src/spec_rates.c:2089-2096 -/
def spec223 : List CStmt := [
  .set (.arr .spRates 42) (.sub (.rd (.arr .spRates 42)) (.sub (.rd (.arr .fwd 223)) (.rd (.arr .rev 221)))),
  .set (.arr .spRates 21) (.sub (.rd (.arr .spRates 21)) (.sub (.rd (.arr .fwd 223)) (.rd (.arr .rev 221)))),
  .set (.arr .spRates 47) (.add (.rd (.arr .spRates 47)) (.sub (.rd (.arr .fwd 223)) (.rd (.arr .rev 221))))]

/-- utilities/mechanisms/yao/lib/src/spec_rates.c:2097-2104 -/
def spec224 : List CStmt := [
  .set (.arr .spRates 34) (.sub (.rd (.arr .spRates 34)) (.sub (.rd (.arr .fwd 224)) (.rd (.arr .rev 222)))),
  .set (.arr .spRates 35) (.sub (.rd (.arr .spRates 35)) (.sub (.rd (.arr .fwd 224)) (.rd (.arr .rev 222)))),
  .set (.arr .spRates 47) (.add (.rd (.arr .spRates 47)) (.sub (.rd (.arr .fwd 224)) (.rd (.arr .rev 222))))]

/-- utilities/mechanisms/yao/lib/src/spec_rates.c:2105-2112 -/
def spec225 : List CStmt := [
  .set (.arr .spRates 40) (.sub (.rd (.arr .spRates 40)) (.sub (.rd (.arr .fwd 225)) (.rd (.arr .rev 223)))),
  .set (.arr .spRates 26) (.sub (.rd (.arr .spRates 26)) (.sub (.rd (.arr .fwd 225)) (.rd (.arr .rev 223)))),
  .set (.arr .spRates 47) (.add (.rd (.arr .spRates 47)) (.sub (.rd (.arr .fwd 225)) (.rd (.arr .rev 223))))]

/-- utilities/mechanisms/yao/lib/src/spec_rates.c:2113-2120 -/
def spec226 : List CStmt := [
  .set (.arr .spRates 33) (.sub (.rd (.arr .spRates 33)) (.sub (.rd (.arr .fwd 226)) (.rd (.arr .rev 224)))),
  .set (.arr .spRates 36) (.sub (.rd (.arr .spRates 36)) (.sub (.rd (.arr .fwd 226)) (.rd (.arr .rev 224)))),
  .set (.arr .spRates 47) (.add (.rd (.arr .spRates 47)) (.sub (.rd (.arr .fwd 226)) (.rd (.arr .rev 224))))]

/-- utilities/mechanisms/yao/lib/src/spec_rates.c:2121-2128 -/
def spec227 : List CStmt := [
  .set (.arr .spRates 38) (.sub (.rd (.arr .spRates 38)) (.sub (.rd (.arr .fwd 227)) (.rd (.arr .rev 225)))),
  .set (.arr .spRates 30) (.sub (.rd (.arr .spRates 30)) (.sub (.rd (.arr .fwd 227)) (.rd (.arr .rev 225)))),
  .set (.arr .spRates 47) (.add (.rd (.arr .spRates 47)) (.sub (.rd (.arr .fwd 227)) (.rd (.arr .rev 225))))]

/-- utilities/mechanisms/yao/lib/src/spec_rates.c:2129-2136 -/
def spec228 : List CStmt := [
  .set (.arr .spRates 43) (.sub (.rd (.arr .spRates 43)) (.sub (.rd (.arr .fwd 228)) (.rd (.arr .rev 226)))),
  .set (.arr .spRates 44) (.sub (.rd (.arr .fwd 228)) (.rd (.arr .rev 226))),
  .set (.arr .spRates 21) (.sub (.rd (.arr .spRates 21)) (.sub (.rd (.arr .fwd 228)) (.rd (.arr .rev 226))))]

/-- utilities/mechanisms/yao/lib/src/spec_rates.c:2137-2144 -/
def spec229 : List CStmt := [
  .set (.arr .spRates 41) (.sub (.rd (.arr .spRates 41)) (.sub (.rd (.arr .fwd 229)) (.rd (.arr .rev 227)))),
  .set (.arr .spRates 26) (.sub (.rd (.arr .spRates 26)) (.sub (.rd (.arr .fwd 229)) (.rd (.arr .rev 227)))),
  .set (.arr .spRates 44) (.add (.rd (.arr .spRates 44)) (.sub (.rd (.arr .fwd 229)) (.rd (.arr .rev 227))))]

/-- utilities/mechanisms/yao/lib/src/spec_rates.c:2145-2152 -/
def spec230 : List CStmt := [
  .set (.arr .spRates 44) (.add (.rd (.arr .spRates 44)) (.sub (.rd (.arr .fwd 230)) (.rd (.arr .rev 228)))),
  .set (.arr .spRates 30) (.sub (.rd (.arr .spRates 30)) (.sub (.rd (.arr .fwd 230)) (.rd (.arr .rev 228)))),
  .set (.arr .spRates 39) (.sub (.rd (.arr .spRates 39)) (.sub (.rd (.arr .fwd 230)) (.rd (.arr .rev 228))))]

/-- utilities/mechanisms/yao/lib/src/spec_rates.c:2153-2160 -/
def spec231 : List CStmt := [
  .set (.arr .spRates 33) (.sub (.rd (.arr .spRates 33)) (.sub (.rd (.arr .fwd 231)) (.rd (.arr .rev 229)))),
  .set (.arr .spRates 44) (.add (.rd (.arr .spRates 44)) (.sub (.rd (.arr .fwd 231)) (.rd (.arr .rev 229)))),
  .set (.arr .spRates 37) (.sub (.rd (.arr .spRates 37)) (.sub (.rd (.arr .fwd 231)) (.rd (.arr .rev 229))))]

/-- utilities/mechanisms/yao/lib/src/spec_rates.c:2161-2166 -/
def spec232 : List CStmt := [
  .set (.arr .spRates 35) (.sub (.rd (.arr .spRates 35)) (.mul (.num 2 0) (.sub (.rd (.arr .fwd 232)) (.rd (.arr .rev 230))))),
  .set (.arr .spRates 44) (.add (.rd (.arr .spRates 44)) (.sub (.rd (.arr .fwd 232)) (.rd (.arr .rev 230))))]

/-- utilities/mechanisms/yao/lib/src/spec_rates.c:2167-2176 -/
def spec233 : List CStmt := [
  .set (.arr .spRates 1) (.sub (.rd (.arr .spRates 1)) (.sub (.rd (.arr .fwd 233)) (.rd (.arr .rev 231)))),
  .set (.arr .spRates 44) (.sub (.rd (.arr .spRates 44)) (.sub (.rd (.arr .fwd 233)) (.rd (.arr .rev 231)))),
  .set (.arr .spRates 5) (.add (.rd (.arr .spRates 5)) (.sub (.rd (.arr .fwd 233)) (.rd (.arr .rev 231)))),
  .set (.arr .spRates 45) (.add (.rd (.arr .spRates 45)) (.sub (.rd (.arr .fwd 233)) (.rd (.arr .rev 231))))]

/-- utilities/mechanisms/yao/lib/src/spec_rates.c:2177-2186 -/
def spec234 : List CStmt := [
  .set (.arr .spRates 1) (.sub (.rd (.arr .spRates 1)) (.sub (.rd (.arr .fwd 234)) (.rd (.arr .rev 232)))),
  .set (.arr .spRates 44) (.sub (.rd (.arr .spRates 44)) (.sub (.rd (.arr .fwd 234)) (.rd (.arr .rev 232)))),
  .set (.arr .spRates 5) (.add (.rd (.arr .spRates 5)) (.sub (.rd (.arr .fwd 234)) (.rd (.arr .rev 232)))),
  .set (.arr .spRates 46) (.add (.rd (.arr .spRates 46)) (.sub (.rd (.arr .fwd 234)) (.rd (.arr .rev 232))))]

/-- utilities/mechanisms/yao/lib/src/spec_rates.c:2187-2196 -/
def spec235 : List CStmt := [
  .set (.arr .spRates 1) (.sub (.rd (.arr .spRates 1)) (.sub (.rd (.arr .fwd 235)) (.rd (.arr .rev 233)))),
  .set (.arr .spRates 44) (.sub (.rd (.arr .spRates 44)) (.sub (.rd (.arr .fwd 235)) (.rd (.arr .rev 233)))),
  .set (.arr .spRates 5) (.add (.rd (.arr .spRates 5)) (.sub (.rd (.arr .fwd 235)) (.rd (.arr .rev 233)))),
  .set (.arr .spRates 47) (.add (.rd (.arr .spRates 47)) (.sub (.rd (.arr .fwd 235)) (.rd (.arr .rev 233))))]

/-- utilities/mechanisms/yao/lib/src/spec_rates.c:2197-2206 -/
def spec236 : List CStmt := [
  .set (.arr .spRates 2) (.sub (.rd (.arr .spRates 2)) (.sub (.rd (.arr .fwd 236)) (.rd (.arr .rev 234)))),
  .set (.arr .spRates 3) (.add (.rd (.arr .spRates 3)) (.sub (.rd (.arr .fwd 236)) (.rd (.arr .rev 234)))),
  .set (.arr .spRates 44) (.sub (.rd (.arr .spRates 44)) (.sub (.rd (.arr .fwd 236)) (.rd (.arr .rev 234)))),
  .set (.arr .spRates 45) (.add (.rd (.arr .spRates 45)) (.sub (.rd (.arr .fwd 236)) (.rd (.arr .rev 234))))]

/-- utilities/mechanisms/yao/lib/src/spec_rates.c:2207-2216 -/
def spec237 : List CStmt := [
  .set (.arr .spRates 2) (.sub (.rd (.arr .spRates 2)) (.sub (.rd (.arr .fwd 237)) (.rd (.arr .rev 235)))),
  .set (.arr .spRates 3) (.add (.rd (.arr .spRates 3)) (.sub (.rd (.arr .fwd 237)) (.rd (.arr .rev 235)))),
  .set (.arr .spRates 44) (.sub (.rd (.arr .spRates 44)) (.sub (.rd (.arr .fwd 237)) (.rd (.arr .rev 235)))),
  .set (.arr .spRates 46) (.add (.rd (.arr .spRates 46)) (.sub (.rd (.arr .fwd 237)) (.rd (.arr .rev 235))))]

/-- utilities/mechanisms/yao/lib/src/spec_rates.c:2217-2226 -/
def spec238 : List CStmt := [
  .set (.arr .spRates 2) (.sub (.rd (.arr .spRates 2)) (.sub (.rd (.arr .fwd 238)) (.rd (.arr .rev 236)))),
  .set (.arr .spRates 3) (.add (.rd (.arr .spRates 3)) (.sub (.rd (.arr .fwd 238)) (.rd (.arr .rev 236)))),
  .set (.arr .spRates 44) (.sub (.rd (.arr .spRates 44)) (.sub (.rd (.arr .fwd 238)) (.rd (.arr .rev 236)))),
  .set (.arr .spRates 47) (.add (.rd (.arr .spRates 47)) (.sub (.rd (.arr .fwd 238)) (.rd (.arr .rev 236))))]

/-- utilities/mechanisms/yao/lib/src/spec_rates.c:2227-2236 -/
def spec239 : List CStmt := [
  .set (.arr .spRates 3) (.sub (.rd (.arr .spRates 3)) (.sub (.rd (.arr .fwd 239)) (.rd (.arr .rev 237)))),
  .set (.arr .spRates 44) (.sub (.rd (.arr .spRates 44)) (.sub (.rd (.arr .fwd 239)) (.rd (.arr .rev 237)))),
  .set (.arr .spRates 45) (.add (.rd (.arr .spRates 45)) (.sub (.rd (.arr .fwd 239)) (.rd (.arr .rev 237)))),
  .set (.arr .spRates 6) (.add (.rd (.arr .spRates 6)) (.sub (.rd (.arr .fwd 239)) (.rd (.arr .rev 237))))]

/-- utilities/mechanisms/yao/lib/src/spec_rates.c:2237-2246 -/
def spec240 : List CStmt := [
  .set (.arr .spRates 3) (.sub (.rd (.arr .spRates 3)) (.sub (.rd (.arr .fwd 240)) (.rd (.arr .rev 238)))),
  .set (.arr .spRates 44) (.sub (.rd (.arr .spRates 44)) (.sub (.rd (.arr .fwd 240)) (.rd (.arr .rev 238)))),
  .set (.arr .spRates 46) (.add (.rd (.arr .spRates 46)) (.sub (.rd (.arr .fwd 240)) (.rd (.arr .rev 238)))),
  .set (.arr .spRates 6) (.add (.rd (.arr .spRates 6)) (.sub (.rd (.arr .fwd 240)) (.rd (.arr .rev 238))))]

/-- utilities/mechanisms/yao/lib/src/spec_rates.c:2247-2256 -/
def spec241 : List CStmt := [
  .set (.arr .spRates 3) (.sub (.rd (.arr .spRates 3)) (.sub (.rd (.arr .fwd 241)) (.rd (.arr .rev 239)))),
  .set (.arr .spRates 44) (.sub (.rd (.arr .spRates 44)) (.sub (.rd (.arr .fwd 241)) (.rd (.arr .rev 239)))),
  .set (.arr .spRates 6) (.add (.rd (.arr .spRates 6)) (.sub (.rd (.arr .fwd 241)) (.rd (.arr .rev 239)))),
  .set (.arr .spRates 47) (.add (.rd (.arr .spRates 47)) (.sub (.rd (.arr .fwd 241)) (.rd (.arr .rev 239))))]

/-- utilities/mechanisms/yao/lib/src/spec_rates.c:2257-2266 -/
def spec242 : List CStmt := [
  .set (.arr .spRates 8) (.sub (.rd (.arr .spRates 8)) (.sub (.rd (.arr .fwd 242)) (.rd (.arr .rev 240)))),
  .set (.arr .spRates 4) (.add (.rd (.arr .spRates 4)) (.sub (.rd (.arr .fwd 242)) (.rd (.arr .rev 240)))),
  .set (.arr .spRates 44) (.sub (.rd (.arr .spRates 44)) (.sub (.rd (.arr .fwd 242)) (.rd (.arr .rev 240)))),
  .set (.arr .spRates 45) (.add (.rd (.arr .spRates 45)) (.sub (.rd (.arr .fwd 242)) (.rd (.arr .rev 240))))]

/-- utilities/mechanisms/yao/lib/src/spec_rates.c:2267-2276 -/
def spec243 : List CStmt := [
  .set (.arr .spRates 8) (.sub (.rd (.arr .spRates 8)) (.sub (.rd (.arr .fwd 243)) (.rd (.arr .rev 241)))),
  .set (.arr .spRates 4) (.add (.rd (.arr .spRates 4)) (.sub (.rd (.arr .fwd 243)) (.rd (.arr .rev 241)))),
  .set (.arr .spRates 44) (.sub (.rd (.arr .spRates 44)) (.sub (.rd (.arr .fwd 243)) (.rd (.arr .rev 241)))),
  .set (.arr .spRates 46) (.add (.rd (.arr .spRates 46)) (.sub (.rd (.arr .fwd 243)) (.rd (.arr .rev 241))))]

/-- utilities/mechanisms/yao/lib/src/spec_rates.c:2277-2286 -/
def spec244 : List CStmt := [
  .set (.arr .spRates 8) (.sub (.rd (.arr .spRates 8)) (.sub (.rd (.arr .fwd 244)) (.rd (.arr .rev 242)))),
  .set (.arr .spRates 4) (.add (.rd (.arr .spRates 4)) (.sub (.rd (.arr .fwd 244)) (.rd (.arr .rev 242)))),
  .set (.arr .spRates 44) (.sub (.rd (.arr .spRates 44)) (.sub (.rd (.arr .fwd 244)) (.rd (.arr .rev 242)))),
  .set (.arr .spRates 47) (.add (.rd (.arr .spRates 47)) (.sub (.rd (.arr .fwd 244)) (.rd (.arr .rev 242))))]

/-- utilities/mechanisms/yao/lib/src/spec_rates.c:2287-2296 -/
def spec245 : List CStmt := [
  .set (.arr .spRates 4) (.sub (.rd (.arr .spRates 4)) (.sub (.rd (.arr .fwd 245)) (.rd (.arr .rev 243)))),
  .set (.arr .spRates 44) (.sub (.rd (.arr .spRates 44)) (.sub (.rd (.arr .fwd 245)) (.rd (.arr .rev 243)))),
  .set (.arr .spRates 45) (.add (.rd (.arr .spRates 45)) (.sub (.rd (.arr .fwd 245)) (.rd (.arr .rev 243)))),
  .set (.arr .spRates 7) (.add (.rd (.arr .spRates 7)) (.sub (.rd (.arr .fwd 245)) (.rd (.arr .rev 243))))]

/-- utilities/mechanisms/yao/lib/src/spec_rates.c:2297-2306 -/
def spec246 : List CStmt := [
  .set (.arr .spRates 4) (.sub (.rd (.arr .spRates 4)) (.sub (.rd (.arr .fwd 246)) (.rd (.arr .rev 244)))),
  .set (.arr .spRates 44) (.sub (.rd (.arr .spRates 44)) (.sub (.rd (.arr .fwd 246)) (.rd (.arr .rev 244)))),
  .set (.arr .spRates 46) (.add (.rd (.arr .spRates 46)) (.sub (.rd (.arr .fwd 246)) (.rd (.arr .rev 244)))),
  .set (.arr .spRates 7) (.add (.rd (.arr .spRates 7)) (.sub (.rd (.arr .fwd 246)) (.rd (.arr .rev 244))))]

/-- utilities/mechanisms/yao/lib/src/spec_rates.c:2307-2316 -/
def spec247 : List CStmt := [
  .set (.arr .spRates 4) (.sub (.rd (.arr .spRates 4)) (.sub (.rd (.arr .fwd 247)) (.rd (.arr .rev 245)))),
  .set (.arr .spRates 47) (.add (.rd (.arr .spRates 47)) (.sub (.rd (.arr .fwd 247)) (.rd (.arr .rev 245)))),
  .set (.arr .spRates 44) (.sub (.rd (.arr .spRates 44)) (.sub (.rd (.arr .fwd 247)) (.rd (.arr .rev 245)))),
  .set (.arr .spRates 7) (.add (.rd (.arr .spRates 7)) (.sub (.rd (.arr .fwd 247)) (.rd (.arr .rev 245))))]

/-- utilities/mechanisms/yao/lib/src/spec_rates.c:2317-2326 -/
def spec248 : List CStmt := [
  .set (.arr .spRates 12) (.add (.rd (.arr .spRates 12)) (.sub (.rd (.arr .fwd 248)) (.rd (.arr .rev 246)))),
  .set (.arr .spRates 11) (.sub (.rd (.arr .spRates 11)) (.sub (.rd (.arr .fwd 248)) (.rd (.arr .rev 246)))),
  .set (.arr .spRates 44) (.sub (.rd (.arr .spRates 44)) (.sub (.rd (.arr .fwd 248)) (.rd (.arr .rev 246)))),
  .set (.arr .spRates 45) (.add (.rd (.arr .spRates 45)) (.sub (.rd (.arr .fwd 248)) (.rd (.arr .rev 246))))]

/-- utilities/mechanisms/yao/lib/src/spec_rates.c:2327-2336 -/
def spec249 : List CStmt := [
  .set (.arr .spRates 12) (.add (.rd (.arr .spRates 12)) (.sub (.rd (.arr .fwd 249)) (.rd (.arr .rev 247)))),
  .set (.arr .spRates 11) (.sub (.rd (.arr .spRates 11)) (.sub (.rd (.arr .fwd 249)) (.rd (.arr .rev 247)))),
  .set (.arr .spRates 44) (.sub (.rd (.arr .spRates 44)) (.sub (.rd (.arr .fwd 249)) (.rd (.arr .rev 247)))),
  .set (.arr .spRates 46) (.add (.rd (.arr .spRates 46)) (.sub (.rd (.arr .fwd 249)) (.rd (.arr .rev 247))))]

/-- utilities/mechanisms/yao/lib/src/spec_rates.c:2337-2346 -/
def spec250 : List CStmt := [
  .set (.arr .spRates 12) (.add (.rd (.arr .spRates 12)) (.sub (.rd (.arr .fwd 250)) (.rd (.arr .rev 248)))),
  .set (.arr .spRates 11) (.sub (.rd (.arr .spRates 11)) (.sub (.rd (.arr .fwd 250)) (.rd (.arr .rev 248)))),
  .set (.arr .spRates 44) (.sub (.rd (.arr .spRates 44)) (.sub (.rd (.arr .fwd 250)) (.rd (.arr .rev 248)))),
  .set (.arr .spRates 47) (.add (.rd (.arr .spRates 47)) (.sub (.rd (.arr .fwd 250)) (.rd (.arr .rev 248))))]

/-- utilities/mechanisms/yao/lib/src/spec_rates.c:2347-2354 -/
def spec251 : List CStmt := [
  .set (.arr .spRates 8) (.sub (.rd (.arr .spRates 8)) (.rd (.arr .fwd 251))),
  .set (.arr .spRates 49) (.rd (.arr .fwd 251)),
  .set (.arr .spRates 45) (.sub (.rd (.arr .spRates 45)) (.rd (.arr .fwd 251)))]

/-- utilities/mechanisms/yao/lib/src/spec_rates.c:2355-2362 -/
def spec252 : List CStmt := [
  .set (.arr .spRates 8) (.add (.rd (.arr .spRates 8)) (.rd (.arr .fwd 252))),
  .set (.arr .spRates 49) (.sub (.rd (.arr .spRates 49)) (.rd (.arr .fwd 252))),
  .set (.arr .spRates 45) (.add (.rd (.arr .spRates 45)) (.rd (.arr .fwd 252)))]

/-- utilities/mechanisms/yao/lib/src/spec_rates.c:2363-2370 -/
def spec253 : List CStmt := [
  .set (.arr .spRates 8) (.sub (.rd (.arr .spRates 8)) (.rd (.arr .fwd 253))),
  .set (.arr .spRates 49) (.add (.rd (.arr .spRates 49)) (.rd (.arr .fwd 253))),
  .set (.arr .spRates 46) (.sub (.rd (.arr .spRates 46)) (.rd (.arr .fwd 253)))]

/-- utilities/mechanisms/yao/lib/src/spec_rates.c:2371-2378 -/
def spec254 : List CStmt := [
  .set (.arr .spRates 8) (.add (.rd (.arr .spRates 8)) (.rd (.arr .fwd 254))),
  .set (.arr .spRates 49) (.sub (.rd (.arr .spRates 49)) (.rd (.arr .fwd 254))),
  .set (.arr .spRates 46) (.add (.rd (.arr .spRates 46)) (.rd (.arr .fwd 254)))]

/-- utilities/mechanisms/yao/lib/src/spec_rates.c:2379-2386 -/
def spec255 : List CStmt := [
  .set (.arr .spRates 8) (.sub (.rd (.arr .spRates 8)) (.rd (.arr .fwd 255))),
  .set (.arr .spRates 49) (.add (.rd (.arr .spRates 49)) (.rd (.arr .fwd 255))),
  .set (.arr .spRates 47) (.sub (.rd (.arr .spRates 47)) (.rd (.arr .fwd 255)))]

/-- utilities/mechanisms/yao/lib/src/spec_rates.c:2387-2394 -/
def spec256 : List CStmt := [
  .set (.arr .spRates 8) (.add (.rd (.arr .spRates 8)) (.rd (.arr .fwd 256))),
  .set (.arr .spRates 49) (.sub (.rd (.arr .spRates 49)) (.rd (.arr .fwd 256))),
  .set (.arr .spRates 47) (.add (.rd (.arr .spRates 47)) (.rd (.arr .fwd 256)))]

/-- utilities/mechanisms/yao/lib/src/spec_rates.c:2395-2400 -/
def spec257 : List CStmt := [
  .set (.arr .spRates 49) (.sub (.rd (.arr .spRates 49)) (.rd (.arr .fwd 257))),
  .set (.arr .spRates 50) (.rd (.arr .fwd 257))]

/-- utilities/mechanisms/yao/lib/src/spec_rates.c:2401-2406 -/
def spec258 : List CStmt := [
  .set (.arr .spRates 49) (.add (.rd (.arr .spRates 49)) (.rd (.arr .fwd 258))),
  .set (.arr .spRates 50) (.sub (.rd (.arr .spRates 50)) (.rd (.arr .fwd 258)))]

/-- utilities/mechanisms/yao/lib/src/spec_rates.c:2407-2416 -/
def spec259 : List CStmt := [
  .set (.arr .spRates 8) (.sub (.rd (.arr .spRates 8)) (.rd (.arr .fwd 259))),
  .set (.arr .spRates 48) (.add (.rd (.arr .spRates 48)) (.rd (.arr .fwd 259))),
  .set (.arr .spRates 4) (.add (.rd (.arr .spRates 4)) (.rd (.arr .fwd 259))),
  .set (.arr .spRates 45) (.sub (.rd (.arr .spRates 45)) (.rd (.arr .fwd 259)))]

/-- utilities/mechanisms/yao/lib/src/spec_rates.c:2417-2426 -/
def spec260 : List CStmt := [
  .set (.arr .spRates 48) (.sub (.rd (.arr .spRates 48)) (.rd (.arr .fwd 260))),
  .set (.arr .spRates 8) (.add (.rd (.arr .spRates 8)) (.rd (.arr .fwd 260))),
  .set (.arr .spRates 4) (.sub (.rd (.arr .spRates 4)) (.rd (.arr .fwd 260))),
  .set (.arr .spRates 45) (.add (.rd (.arr .spRates 45)) (.rd (.arr .fwd 260)))]

/-- utilities/mechanisms/yao/lib/src/spec_rates.c:2427-2436 -/
def spec261 : List CStmt := [
  .set (.arr .spRates 8) (.sub (.rd (.arr .spRates 8)) (.rd (.arr .fwd 261))),
  .set (.arr .spRates 48) (.add (.rd (.arr .spRates 48)) (.rd (.arr .fwd 261))),
  .set (.arr .spRates 4) (.add (.rd (.arr .spRates 4)) (.rd (.arr .fwd 261))),
  .set (.arr .spRates 46) (.sub (.rd (.arr .spRates 46)) (.rd (.arr .fwd 261)))]

/-- utilities/mechanisms/yao/lib/src/spec_rates.c:2437-2446 -/
def spec262 : List CStmt := [
  .set (.arr .spRates 48) (.sub (.rd (.arr .spRates 48)) (.rd (.arr .fwd 262))),
  .set (.arr .spRates 8) (.add (.rd (.arr .spRates 8)) (.rd (.arr .fwd 262))),
  .set (.arr .spRates 4) (.sub (.rd (.arr .spRates 4)) (.rd (.arr .fwd 262))),
  .set (.arr .spRates 46) (.add (.rd (.arr .spRates 46)) (.rd (.arr .fwd 262)))]

/-- utilities/mechanisms/yao/lib/src/spec_rates.c:2447-2456 -/
def spec263 : List CStmt := [
  .set (.arr .spRates 8) (.sub (.rd (.arr .spRates 8)) (.rd (.arr .fwd 263))),
  .set (.arr .spRates 48) (.add (.rd (.arr .spRates 48)) (.rd (.arr .fwd 263))),
  .set (.arr .spRates 4) (.add (.rd (.arr .spRates 4)) (.rd (.arr .fwd 263))),
  .set (.arr .spRates 47) (.sub (.rd (.arr .spRates 47)) (.rd (.arr .fwd 263)))]

/-- utilities/mechanisms/yao/lib/src/spec_rates.c:2457-2466 -/
def spec264 : List CStmt := [
  .set (.arr .spRates 48) (.sub (.rd (.arr .spRates 48)) (.rd (.arr .fwd 264))),
  .set (.arr .spRates 8) (.add (.rd (.arr .spRates 8)) (.rd (.arr .fwd 264))),
  .set (.arr .spRates 4) (.sub (.rd (.arr .spRates 4)) (.rd (.arr .fwd 264))),
  .set (.arr .spRates 47) (.add (.rd (.arr .spRates 47)) (.rd (.arr .fwd 264)))]

/-- utilities/mechanisms/yao/lib/src/spec_rates.c:2467-2474 -/
def spec265 : List CStmt := [
  .set (.arr .spRates 8) (.sub (.rd (.arr .spRates 8)) (.rd (.arr .fwd 265))),
  .set (.arr .spRates 50) (.sub (.rd (.arr .spRates 50)) (.rd (.arr .fwd 265))),
  .set (.arr .spRates 51) (.rd (.arr .fwd 265))]

/-- utilities/mechanisms/yao/lib/src/spec_rates.c:2475-2482 -/
def spec266 : List CStmt := [
  .set (.arr .spRates 8) (.add (.rd (.arr .spRates 8)) (.rd (.arr .fwd 266))),
  .set (.arr .spRates 50) (.add (.rd (.arr .spRates 50)) (.rd (.arr .fwd 266))),
  .set (.arr .spRates 51) (.sub (.rd (.arr .spRates 51)) (.rd (.arr .fwd 266)))]

/-- utilities/mechanisms/yao/lib/src/spec_rates.c:2483-2490 -/
def spec267 : List CStmt := [
  .set (.arr .spRates 3) (.add (.rd (.arr .spRates 3)) (.sub (.rd (.arr .fwd 267)) (.rd (.arr .rev 249)))),
  .set (.arr .spRates 51) (.sub (.rd (.arr .spRates 51)) (.sub (.rd (.arr .fwd 267)) (.rd (.arr .rev 249)))),
  .set (.arr .spRates 52) (.sub (.rd (.arr .fwd 267)) (.rd (.arr .rev 249)))]

/-- utilities/mechanisms/yao/lib/src/spec_rates.c:2491-2501 -/
def spec268 : List CStmt := [
  .set (.arr .spRates 20) (.add (.rd (.arr .spRates 20)) (.mul (.num 3 0) (.rd (.arr .fwd 268)))),
  .set (.arr .spRates 3) (.add (.rd (.arr .spRates 3)) (.rd (.arr .fwd 268))),
  .set (.arr .spRates 52) (.sub (.rd (.arr .spRates 52)) (.rd (.arr .fwd 268))),
  .set (.arr .spRates 21) (.add (.rd (.arr .spRates 21)) (.rd (.arr .fwd 268))),
  .set (.arr .spRates 23) (.add (.rd (.arr .spRates 23)) (.mul (.num 2 0) (.rd (.arr .fwd 268))))]

/-- utilities/mechanisms/yao/lib/src/spec_rates.c:2502-2506 -/
def specRest : List CStmt := [
  .set (.arr .spRates 0) (.num 0 0),
  .set (.var .dyN) (.num 0 0)]

/-- The blocks of `void eval_spec_rates`, one per reaction: utilities/mechanisms/yao/lib/src/spec_rates.c:5-2506 -/
def specBlocks : List (List CStmt) := [
  spec0, spec1, spec2, spec3, spec4, spec5, spec6, spec7, spec8, spec9, spec10, spec11, spec12, spec13, spec14, spec15, spec16, spec17, spec18, spec19, spec20, spec21, spec22, spec23, spec24, spec25, spec26, spec27, spec28, spec29, spec30, spec31, spec32, spec33, spec34, spec35, spec36, spec37, spec38, spec39, spec40, spec41, spec42, spec43, spec44, spec45, spec46, spec47, spec48, spec49, spec50, spec51, spec52, spec53, spec54, spec55, spec56, spec57, spec58, spec59, spec60, spec61, spec62, spec63, spec64, spec65, spec66, spec67, spec68, spec69, spec70, spec71, spec72, spec73, spec74, spec75, spec76, spec77, spec78, spec79, spec80, spec81, spec82, spec83, spec84, spec85, spec86, spec87, spec88, spec89, spec90, spec91, spec92, spec93, spec94, spec95, spec96, spec97, spec98, spec99, spec100, spec101, spec102, spec103, spec104, spec105, spec106, spec107, spec108, spec109, spec110, spec111, spec112, spec113, spec114, spec115, spec116, spec117, spec118, spec119, spec120, spec121, spec122, spec123, spec124, spec125, spec126, spec127, spec128, spec129, spec130, spec131, spec132, spec133, spec134, spec135, spec136, spec137, spec138, spec139, spec140, spec141, spec142, spec143, spec144, spec145, spec146, spec147, spec148, spec149, spec150, spec151, spec152, spec153, spec154, spec155, spec156, spec157, spec158, spec159, spec160, spec161, spec162, spec163, spec164, spec165, spec166, spec167, spec168, spec169, spec170, spec171, spec172, spec173, spec174, spec175, spec176, spec177, spec178, spec179, spec180, spec181, spec182, spec183, spec184, spec185, spec186, spec187, spec188, spec189, spec190, spec191, spec192, spec193, spec194, spec195, spec196, spec197, spec198, spec199, spec200, spec201, spec202, spec203, spec204, spec205, spec206, spec207, spec208, spec209, spec210, spec211, spec212, spec213, spec214, spec215, spec216, spec217, spec218, spec219, spec220, spec221, spec222, spec223, spec224, spec225, spec226, spec227, spec228, spec229, spec230, spec231, spec232, spec233, spec234, spec235, spec236, spec237, spec238, spec239, spec240, spec241, spec242, spec243, spec244, spec245, spec246, spec247, spec248, spec249, spec250, spec251, spec252, spec253, spec254, spec255, spec256, spec257, spec258, spec259, spec260, spec261, spec262, spec263, spec264, spec265, spec266, spec267, spec268]

end DLB.Mech.Yao
