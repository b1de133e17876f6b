/-
tests/tests.go: the helper with which the package's own tests compare a parsed
date with what is expected of it.
-/
import Verif.Parser
namespace EDTF

/-- tests/tests.go:13-46, the eight options of one boundary.  (The source has one flat
struct of 32 fields, named by boundary.)  The zero value is `{}`. -/
structure Expect where
  timeRFC3339 : Str := []
  timeUnix : Int := 0
  uncertain : Prec := 0
  approximate : Prec := 0
  precision : Prec := 0
  isOpen : Bool := false
  isUnknown : Bool := false
  inclusivity : Prec := 0
  deriving DecidableEq, Repr

/-- tests/tests.go:9-55 -/
structure TestResult where
  startLower : Expect := {}
  startUpper : Expect := {}
  endLower : Expect := {}
  endUpper : Expect := {}
  deriving DecidableEq, Repr

namespace TestResult

/-- `d.Start.Lower`; a nil pointer panics. -/
def startLowerOf (d : EDTFDate) : Res Date := do
  let r ← Res.deref d.start
  Res.deref r.lower
/-- `d.Start.Upper` -/
def startUpperOf (d : EDTFDate) : Res Date := do
  let r ← Res.deref d.start
  Res.deref r.upper
/-- `d.End.Lower` -/
def endLowerOf (d : EDTFDate) : Res Date := do
  let r ← Res.deref d.stop
  Res.deref r.lower
/-- `d.End.Upper` -/
def endUpperOf (d : EDTFDate) : Res Date := do
  let r ← Res.deref d.stop
  Res.deref r.upper

/-- The four boundaries in turn, as each of the functions below goes through them. -/
def all (r : TestResult) (d : EDTFDate) (f : Expect → Res Date → Res Unit) : Res Unit := do
  f r.startLower (startLowerOf d)
  f r.startUpper (startUpperOf d)
  f r.endLower (endLowerOf d)
  f r.endUpper (endUpperOf d)

/-- tests/tests.go:367-382; timestamp.go:17-23 -/
def testRFC3339 (expected : Str) (ts : Option Int) : Res Unit :=
  match ts with
  | none => .err .plain
  | some t => if formatRFC3339 t ≠ expected then .err .plain else .ok ()

/-- tests/tests.go:326-365: nothing is looked at unless a text is expected. -/
def testRFC3339All (r : TestResult) (d : EDTFDate) : Res Unit :=
  r.all d (fun x b => if x.timeRFC3339 ≠ [] then b >>= fun b => testRFC3339 x.timeRFC3339 b.timestamp else .ok ())

/-- tests/tests.go:425-438 -/
def testUnix (expected : Int) (ts : Option Int) : Res Unit :=
  match ts with
  | none => .err .plain
  | some t => if t ≠ expected then .err .plain else .ok ()

/-- tests/tests.go:384-423 -/
def testUnixAll (r : TestResult) (d : EDTFDate) : Res Unit :=
  r.all d (fun x b => if x.timeUnix ≠ 0 then b >>= fun b => testUnix x.timeUnix b.timestamp else .ok ())

/-- tests/tests.go:313-324 -/
def testPrecision (flags expected : Prec) : Res Unit :=
  if expected = 0 then .ok () else if !Prec.hasFlag flags expected then .err .plain else .ok ()

/-- tests/tests.go:226-253 -/
def testPrecisionAll (r : TestResult) (d : EDTFDate) : Res Unit :=
  r.all d (fun x b => b >>= fun b => testPrecision b.precision x.precision)
/-- tests/tests.go:255-282 -/
def testUncertainAll (r : TestResult) (d : EDTFDate) : Res Unit :=
  r.all d (fun x b => b >>= fun b => testPrecision b.uncertain x.uncertain)
/-- tests/tests.go:284-311 -/
def testApproximateAll (r : TestResult) (d : EDTFDate) : Res Unit :=
  r.all d (fun x b => b >>= fun b => testPrecision b.approximate x.approximate)
/-- tests/tests.go:197-224 -/
def testInclusivityAll (r : TestResult) (d : EDTFDate) : Res Unit :=
  r.all d (fun x b => b >>= fun b => testPrecision b.inclusivity x.inclusivity)

/-- tests/tests.go:188-195 -/
def testBoolean (candidate expected : Bool) : Res Unit :=
  if candidate ≠ expected then .err .plain else .ok ()

/-- tests/tests.go:130-157 -/
def testIsOpenAll (r : TestResult) (d : EDTFDate) : Res Unit :=
  r.all d (fun x b => b >>= fun b => testBoolean b.isOpen x.isOpen)
/-- tests/tests.go:159-186 -/
def testIsUnknownAll (r : TestResult) (d : EDTFDate) : Res Unit :=
  r.all d (fun x b => b >>= fun b => testBoolean b.unknown x.isUnknown)

/-- tests/tests.go:57-128 -/
def testDate (r : TestResult) (d : EDTFDate) : Res Unit := do
  r.testRFC3339All d
  r.testUnixAll d
  r.testPrecisionAll d
  r.testUncertainAll d
  r.testApproximateAll d
  r.testIsOpenAll d
  r.testIsUnknownAll d
  r.testInclusivityAll d

end TestResult
end EDTF
