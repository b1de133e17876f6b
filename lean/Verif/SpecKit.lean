/-
What the comparison of a parsed date with what a test expects of it comes to, and what
its error says.
-/
import Verif.Kit
import Verif.Message
import Verif.SpecDirect
import Verif.SpecTool
namespace EDTF.Spec

/-- The expected flags are met if none are expected or the two have one in common. -/
def FlagsMet (flags expected : Prec) : Prop := expected = 0 ∨ ∃ i : Nat, flags.getLsbD i = true ∧ expected.getLsbD i = true

/-- A boundary meets an expectation.  Texts and times are compared only when given. -/
def Meets (b : Date) (x : Expect) : Prop :=
  (x.timeRFC3339 = [] ∨ b.timestamp.isSome = true ∧ b.dateTime = x.timeRFC3339) ∧
  (x.timeUnix = 0 ∨ b.timestamp = some x.timeUnix) ∧
  FlagsMet b.precision x.precision ∧ FlagsMet b.uncertain x.uncertain ∧ FlagsMet b.approximate x.approximate ∧
  b.isOpen = x.isOpen ∧ b.unknown = x.isUnknown ∧ FlagsMet b.inclusivity x.inclusivity

/-- What a boundary itself expects. -/
def expectOf (b : Date) : Expect :=
  ⟨b.dateTime, b.timestamp.getD 0, b.uncertain, b.approximate, b.precision, b.isOpen, b.unknown, b.inclusivity⟩

/-! ### The outcome of a comparison and what its error says -/

/-- The four boundaries in their order, each with its name, what is expected of it and,
unless a pointer on the way to it is missing, itself. -/
def sides (d : EDTFDate) (x : TestResult) : List (Str × Expect × Option Date) :=
  [(c! "StartLower", x.startLower, d.start.bind (·.lower)), (c! "StartUpper", x.startUpper, d.start.bind (·.upper)),
   (c! "EndLower", x.endLower, d.stop.bind (·.lower)), (c! "EndUpper", x.endUpper, d.stop.bind (·.upper))]

/-- A list of what can go wrong, each with the outcome then. -/
abbrev Wrongs := List (Prop × Told Unit)

/-- The text of a time.  A boundary that is missing is noticed only if something is expected. -/
def textWrongs : Str × Expect × Option Date → Wrongs
  | (_, x, none) => [(x.timeRFC3339 ≠ [], .panic)]
  | (n, x, some b) =>
    [(x.timeRFC3339 ≠ [] ∧ b.timestamp = none, .says (c! "Failed " ++ n ++ c! "TimeRFC3339 test, Missing edtf.Timestamp instance")),
     (x.timeRFC3339 ≠ [] ∧ b.dateTime ≠ x.timeRFC3339, .says (c! "Failed " ++ n ++ c! "TimeRFC3339 test, Invalid RFC3339 time, expected '" ++
        x.timeRFC3339 ++ c! "' but got '" ++ b.dateTime ++ c! "'"))]

/-- The number of a time. -/
def timeWrongs : Str × Expect × Option Date → Wrongs
  | (_, x, none) => [(x.timeUnix ≠ 0, .panic)]
  | (n, x, some b) =>
    match b.timestamp with
    | none => [(x.timeUnix ≠ 0, .says (c! "Failed " ++ n ++ c! "TimeUnix test, Missing edtf.Timestamp instance"))]
    | some t =>
      [(x.timeUnix ≠ 0 ∧ t ≠ x.timeUnix, .says (c! "Failed " ++ n ++ c! "TimeUnix test, Invalid Unix time, expected '" ++
          jsonInt x.timeUnix ++ c! "' but got '" ++ jsonInt t ++ c! "'"))]

/-- Flags; only those expected are named, by their number. -/
def flagWrongs (what : Str) (got : Date → Prec) (want : Expect → Prec) : Str × Expect × Option Date → Wrongs
  | (_, _, none) => [(True, .panic)]
  | (n, x, some b) =>
    [(¬ FlagsMet (got b) (want x), .says (c! "Invalid " ++ n ++ what ++ c! " flag, Missing flag " ++ Nat.toDigits 10 (want x).toNat))]

/-- Marks: one of the two texts. -/
def markWrongs (what : Str) (got : Date → Bool) (want : Expect → Bool) : Str × Expect × Option Date → Wrongs
  | (_, _, none) => [(True, .panic)]
  | (n, x, some b) =>
    [(want x = true ∧ got b = false, .says (c! "Invalid " ++ n ++ what ++ c! " flag, Boolean test failed, expected 'true' but got 'false'")),
     (want x = false ∧ got b = true, .says (c! "Invalid " ++ n ++ what ++ c! " flag, Boolean test failed, expected 'false' but got 'true'"))]

/-- Everything that can go wrong, in the order in which it is looked for: one kind after
the other, and each kind at the four boundaries. -/
def wrongs (d : EDTFDate) (x : TestResult) : Wrongs :=
  [textWrongs, timeWrongs, flagWrongs (c! "Precision") (·.precision) (·.precision), flagWrongs (c! "Uncertain") (·.uncertain) (·.uncertain),
   flagWrongs (c! "Approximate") (·.approximate) (·.approximate), markWrongs (c! "IsOpen") (·.isOpen) (·.isOpen),
   markWrongs (c! "IsUnknown") (·.unknown) (·.isUnknown), flagWrongs (c! "Inclusivity") (·.inclusivity) (·.inclusivity)].flatMap
    fun kind => (sides d x).flatMap kind

/-- The boundaries that a date has are as the parser makes them. -/
def Made (f : Int → Nat → Nat → Int) (d : EDTFDate) : Prop :=
  ∀ r b, (d.start = some r ∨ d.stop = some r) → (r.lower = some b ∨ r.upper = some b) → Boundary f b

end EDTF.Spec
