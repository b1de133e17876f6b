/-
Specification for C94: the seconds that can be written, read off the texts alone.
-/
import Verif.SpecTree
namespace EDTF.Spec

/-- The text is understood as a time of day, the second `i` of Unix time. -/
def At (s : Str) (i : Int) : Prop :=
  ∃ d : EDTFDate, parseString s = .ok d ∧ d.feature = c! "Date and Time" ∧ d.lower = .ok i ∧ d.upper = .ok i

/-- The text ends with the sign for universal time. -/
def Zulu (s : Str) : Prop := s.getLast? = some 'Z'

/-- No zone is written: the text ends with the seconds. -/
def NoZone (s : Str) : Prop := s.length = if s.head? = some '-' then 20 else 19

end EDTF.Spec
