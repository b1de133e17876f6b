/-
Specification for C96: typing errors.
-/
import Verif.Spec
import Verif.Parser
namespace EDTF.Spec

/-- The text is understood. -/
def Understood (s : Str) : Prop := ∃ d : EDTFDate, parseString s = .ok d

/-- Written without brackets, commas, blanks and the letters of years and seasons. -/
def Numeric (s : Str) : Prop := ∀ c ∈ s, c ∈ c! "0123456789Xx?~%-/:TZ+."

/-- A qualifier. -/
def QMark (c : Char) : Prop := c ∈ c! "?~%"

instance (c : Char) : Decidable (QMark c) := by unfold QMark; infer_instance

/-- A digit, also an unspecified one. -/
def AnyDigit (c : Char) : Prop := c ∈ c! "0123456789Xx"

instance (c : Char) : Decidable (AnyDigit c) := by unfold AnyDigit; infer_instance

/-- The text without its qualifiers. -/
def stripped (s : Str) : Str := s.filter (fun c => ¬ QMark c)

/-- A character, or 0 for any digit. -/
def mark (c : Char) : Char := if AnyDigit c then '0' else c

/-- The text without its qualifiers and with the same digit everywhere. -/
def outline (s : Str) : Str := (stripped s).map mark

example : outline (c! "-2004?-1X-~05") = c! "-0000-00-00" := by decide

/-- The outlines of dates. -/
def dateOutlines : List Str := [c! "0000", c! "0000-00", c! "0000-00-00", c! "-0000", c! "-0000-00", c! "-0000-00-00"]

/-- The outlines of times of day: six zones. -/
def timeOutlines : List Str :=
  [[], c! "Z", c! "+00", c! "-00", c! "+00:00", c! "-00:00"].flatMap
    (fun z => [c! "0000-00-00T00:00:00" ++ z, c! "-0000-00-00T00:00:00" ++ z])

/-- All outlines: nothing, two dots, a date, a time of day, two dates, and a date with nothing or two dots at one side. -/
def outlines : List Str :=
  [[], c! ".."] ++ dateOutlines ++ timeOutlines ++ dateOutlines.flatMap (fun p => dateOutlines.map (fun q => p ++ '/' :: q)) ++
    dateOutlines.flatMap (fun p => ['/' :: p, p ++ c! "/", c! "../" ++ p, p ++ c! "/.."])

example : outlines.length = 80 := by decide

/-- The character stands at the beginning or after a slash (qualifiers aside). -/
def Fronted (a : Str) : Prop := stripped a = [] ∨ ∃ a', stripped a = a' ++ ['/']

end EDTF.Spec
