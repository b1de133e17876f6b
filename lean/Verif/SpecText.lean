/-
What can be told from the texts of errors and records.
-/
import Verif.Types
namespace EDTF.Spec

/-- The label of an error. -/
def labelOf : Err → Option Str
  | .notImplemented l _ => some l
  | .invalid l _ => some l
  | .unsupported l _ => some l
  | .unrecognized l _ => some l
  | _ => none

/-- The labels of the errors of the parser. -/
def parserLabels : List Str :=
  [c! "date", c! "Letter-prefixed calendar year", c! "Extended Interval", c! "exponential notation", c! "Significant digits",
    c! "Set representation", c! "Invalid or unsupported Level 2 string", c! "Invalid or unsupported EDTF string"]

/-- What the text of a date shows. -/
def seen (d : Date) : Option Int × Option YMD := (d.timestamp, d.ymd)

/-- What the text of a range shows. -/
def seenRange (r : DateRange) : Option (Option Int × Option YMD) × Option (Option Int × Option YMD) := (r.lower.map seen, r.upper.map seen)

/-- A text without a quote. -/
def Unquoted (t : Str) : Prop := '\'' ∉ t

/-- How often a character occurs. -/
def occurrences (c : Char) (s : Str) : Nat := (s.filter (· == c)).length

end EDTF.Spec
