/-
tests/tests.go with the texts of its errors; `PropsMessageKit` proves that without the
texts this is `Kit`.
-/
import Verif.Kit
import Verif.MessageCmp
namespace EDTF

namespace TestResult

/-- The four boundaries in turn, with the texts around their names. -/
def allM (r : TestResult) (d : EDTFDate) (before after : Str) (f : Expect → Told Date → Told Unit) : Told Unit := do
  (f r.startLower (.lift (startLowerOf d))).format (before ++ c! "StartLower" ++ after)
  (f r.startUpper (.lift (startUpperOf d))).format (before ++ c! "StartUpper" ++ after)
  (f r.endLower (.lift (endLowerOf d))).format (before ++ c! "EndLower" ++ after)
  (f r.endUpper (.lift (endUpperOf d))).format (before ++ c! "EndUpper" ++ after)

/-- tests/tests.go:367-382 -/
def testRFC3339M (expected : Str) (ts : Option Int) : Told Unit :=
  match ts with
  | none => .says (c! "Missing edtf.Timestamp instance")
  | some t =>
    let t_str := formatRFC3339 t
    if t_str ≠ expected then .says (c! "Invalid RFC3339 time, expected '" ++ expected ++ c! "' but got '" ++ t_str ++ c! "'") else .ok ()

/-- tests/tests.go:326-365 -/
def testRFC3339AllM (r : TestResult) (d : EDTFDate) : Told Unit :=
  r.allM d (c! "Failed ") (c! "TimeRFC3339 test, ")
    (fun x b => if x.timeRFC3339 ≠ [] then b >>= fun b => testRFC3339M x.timeRFC3339 b.timestamp else .ok ())

/-- tests/tests.go:425-438 -/
def testUnixM (expected : Int) (ts : Option Int) : Told Unit :=
  match ts with
  | none => .says (c! "Missing edtf.Timestamp instance")
  | some t => if t ≠ expected then .says (c! "Invalid Unix time, expected '" ++ itoa expected ++ c! "' but got '" ++ itoa t ++ c! "'") else .ok ()

/-- tests/tests.go:384-423 -/
def testUnixAllM (r : TestResult) (d : EDTFDate) : Told Unit :=
  r.allM d (c! "Failed ") (c! "TimeUnix test, ") (fun x b => if x.timeUnix ≠ 0 then b >>= fun b => testUnixM x.timeUnix b.timestamp else .ok ())

/-- tests/tests.go:313-324.  A Precision is a `uint32` without a `String` method
(precision.go:3), so `%v` prints its number. -/
def testPrecisionM (flags expected : Prec) : Told Unit :=
  if expected = 0 then .ok () else if !Prec.hasFlag flags expected then .says (c! "Missing flag " ++ itoa expected.toNat) else .ok ()

/-- tests/tests.go:226-253 -/
def testPrecisionAllM (r : TestResult) (d : EDTFDate) : Told Unit :=
  r.allM d (c! "Invalid ") (c! "Precision flag, ") (fun x b => b >>= fun b => testPrecisionM b.precision x.precision)
/-- tests/tests.go:255-282 -/
def testUncertainAllM (r : TestResult) (d : EDTFDate) : Told Unit :=
  r.allM d (c! "Invalid ") (c! "Uncertain flag, ") (fun x b => b >>= fun b => testPrecisionM b.uncertain x.uncertain)
/-- tests/tests.go:284-311 -/
def testApproximateAllM (r : TestResult) (d : EDTFDate) : Told Unit :=
  r.allM d (c! "Invalid ") (c! "Approximate flag, ") (fun x b => b >>= fun b => testPrecisionM b.approximate x.approximate)
/-- tests/tests.go:197-224 -/
def testInclusivityAllM (r : TestResult) (d : EDTFDate) : Told Unit :=
  r.allM d (c! "Invalid ") (c! "Inclusivity flag, ") (fun x b => b >>= fun b => testPrecisionM b.inclusivity x.inclusivity)

/-- `%t` -/
def boolText (b : Bool) : Str := if b then c! "true" else c! "false"

/-- tests/tests.go:188-195 -/
def testBooleanM (candidate expected : Bool) : Told Unit :=
  if candidate ≠ expected then .says (c! "Boolean test failed, expected '" ++ boolText expected ++ c! "' but got '" ++ boolText candidate ++ c! "'")
  else .ok ()

/-- tests/tests.go:130-157 -/
def testIsOpenAllM (r : TestResult) (d : EDTFDate) : Told Unit :=
  r.allM d (c! "Invalid ") (c! "IsOpen flag, ") (fun x b => b >>= fun b => testBooleanM b.isOpen x.isOpen)
/-- tests/tests.go:159-186 -/
def testIsUnknownAllM (r : TestResult) (d : EDTFDate) : Told Unit :=
  r.allM d (c! "Invalid ") (c! "IsUnknown flag, ") (fun x b => b >>= fun b => testBooleanM b.unknown x.isUnknown)

/-- tests/tests.go:57-128 -/
def testDateM (r : TestResult) (d : EDTFDate) : Told Unit := do
  r.testRFC3339AllM d
  r.testUnixAllM d
  r.testPrecisionAllM d
  r.testUncertainAllM d
  r.testApproximateAllM d
  r.testIsOpenAllM d
  r.testIsUnknownAllM d
  r.testInclusivityAllM d

end TestResult
end EDTF
