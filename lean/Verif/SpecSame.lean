/-
The specification of texts that mean the same time.
-/
import Verif.SpecDenote
namespace EDTF.Spec

/-- Two boundaries at the same time: the same second, or both open, or both unknown. -/
def SameEnd (a b : Date) : Prop := a.timestamp = b.timestamp ∧ a.isOpen = b.isOpen ∧ a.unknown = b.unknown

/-- The first boundary of a result. -/
def Begins (d : EDTFDate) (a : Date) : Prop := ∃ S : DateRange, d.start = some S ∧ S.lower = some a

/-- The last boundary of a result. -/
def Finishes (d : EDTFDate) (b : Date) : Prop := ∃ E : DateRange, d.stop = some E ∧ E.upper = some b

/-- Two results begin at the same time. -/
def SameStart (d e : EDTFDate) : Prop := ∃ a a' : Date, Begins d a ∧ Begins e a' ∧ SameEnd a a'

/-- Two results end at the same time. -/
def SameStop (d e : EDTFDate) : Prop := ∃ b b' : Date, Finishes d b ∧ Finishes e b' ∧ SameEnd b b'

/-- Two results begin at the same time and end at the same time. -/
def SameTime (d e : EDTFDate) : Prop := SameStart d e ∧ SameStop d e

/-- A day of which the last digit is unspecified, in a month of a year: "1985-04-1X". -/
def TenDays (s : Str) : Prop :=
  ∃ (n m : Nat) (k : Char), n < 10000 ∧ 1 ≤ m ∧ m ≤ 12 ∧ k ∈ c! "123" ∧ s = pad4 n ++ '-' :: (pad2 m ++ ['-', k, 'X'])

/-- Such days that do not end with their month. -/
def EarlyDays (s : Str) : Prop :=
  ∃ (n m : Nat) (k : Char), n < 10000 ∧ 1 ≤ m ∧ m ≤ 12 ∧ (k = '1' ∨ k = '2' ∧ m ≠ 2) ∧ s = pad4 n ++ '-' :: (pad2 m ++ ['-', k, 'X'])

/-- A date with a month, and an open or unknown end: "1985-04/..". -/
def MonthEnded (l r : Str) : Prop :=
  (r = [] ∨ r = c! "..") ∧ ∃ (neg : Bool) (n m : Nat) (u : Str), n < 10000 ∧ l = signed neg (pad4 n) ++ '-' :: (pad2 m ++ u)

/-- A day that is not the first of its month, and an open or unknown end: "1985-04-12/..". -/
def DayEnded (l r : Str) : Prop :=
  (r = [] ∨ r = c! "..") ∧ ∃ (neg : Bool) (n m k : Nat), n < 10000 ∧ k < 100 ∧ k ≠ 1 ∧ l = signed neg (pad4 n) ++ '-' :: (pad2 m ++ '-' :: pad2 k)

/-- A text without its qualifiers. -/
def unqualified (s : Str) : Str := s.filter (fun c => !(c! "?~%").contains c)

/-- A day with a qualifier at its end: "2004-06-11%". -/
def QualifiedDay (s : Str) : Prop :=
  ∃ (neg : Bool) (n m d : Nat) (q : Char), n < 10000 ∧ 1 ≤ m ∧ m ≤ 12 ∧ 1 ≤ d ∧ d ≤ 31 ∧ q ∈ c! "?~%" ∧
    s = signed neg (pad4 n) ++ '-' :: (pad2 m ++ '-' :: (pad2 d ++ [q]))

end EDTF.Spec
