/-
Specification for C82: how the times of two written dates lie to each other, read off
the texts alone.
-/
import Verif.Spec
import Verif.Cmp
namespace EDTF.Spec

/-- The text is understood as a date of Level 0 that runs from `l` to `u` (in seconds of
Unix time, both included). -/
def Lasts (s : Str) (l u : Int) : Prop :=
  ∃ d : EDTFDate, parseString s = .ok d ∧ d.feature = c! "Date" ∧ d.lower = .ok l ∧ d.upper = .ok u

/-- The text without the sign of a year zero, which has no meaning. -/
def plainZero : Str → Str
  | '-' :: '0' :: '0' :: '0' :: '0' :: r => '0' :: '0' :: '0' :: '0' :: r
  | s => s

/-- How many components are written: the year, the month, the day.  A sign is not
counted. -/
def components (s : Str) : Nat := 1 + s.tail.count '-'

end EDTF.Spec
