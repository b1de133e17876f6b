/-
Specification for C98: the calendar repeats after 400 years.
-/
import Verif.SpecSort
import Verif.SpecSame
namespace EDTF.Spec

/-- The number of seconds in 400 years: 146097 days. -/
def period : Int := 86400 * 146097

/-- The second text is the first one, moved by `k` times 400 years: the first two digits of
its year are others, which differ by `4 * k`.  Before the year there may be a qualifier and a
sign; behind a sign, years are counted backwards. -/
def Moved (k : Int) (s t : Str) : Prop :=
  ∃ (p : Str) (a b : Nat) (r : Str), p ∈ [[], c! "-", c! "?", c! "~", c! "%", c! "?-", c! "~-", c! "%-"] ∧ a < 100 ∧ b < 100 ∧ '/' ∉ r ∧
    s = p ++ (pad2 a ++ r) ∧ t = p ++ (pad2 b ++ r) ∧ (b : Int) = a + 4 * (if '-' ∈ p then -k else k)

/-- A year with "S3" or more behind it: the millennium, or all years. -/
def Coarse (s : Str) : Prop := ∃ (u : Str) (ds : List Nat), Digits ds ∧ 3 ≤ value10 ds ∧ s = u ++ 'S' :: ds.map dig

/-- Texts with a year below 1000 which may be refused for it: significant digits; two seasons; and, with
a sign, all four seasons and a month or a day with a qualifier at its end. -/
def Early (t : Str) : Prop :=
  ∃ (neg : Bool) (n : Nat) (w : Str), n < 1000 ∧ t = signed neg (pad4 n) ++ w ∧
    (w.head? = some 'S' ∨ w ∈ [c! "-28", c! "-30"] ∨
      neg = true ∧ (w ∈ [c! "-21", c! "-22", c! "-23", c! "-24"] ∨ ∃ (v : Str) (q : Char), q ∈ c! "?~%" ∧ w = '-' :: (v ++ [q])))

/-- Winters that end after the last year, or in a year that cannot be written back. -/
def LastWinter (t : Str) : Prop := t ∈ [c! "9999-24", c! "9999-28", c! "9999-30", c! "-1000-24"]

/-- The second boundary is the first one, `k` times 400 years later; or both are open, or both unknown. -/
def MovedEnd (k : Int) (a b : Date) : Prop :=
  b.timestamp = a.timestamp.map (· + period * k) ∧ b.isOpen = a.isOpen ∧ b.unknown = a.unknown

/-- The second result begins and ends `k` times 400 years after the first. -/
def MovedTime (k : Int) (d e : EDTFDate) : Prop :=
  (∃ a a' : Date, Begins d a ∧ Begins e a' ∧ MovedEnd k a a') ∧ ∃ b b' : Date, Finishes d b ∧ Finishes e b' ∧ MovedEnd k b b'

/-- One side of an interval, moved; an absent or open one is as it was. -/
def MovedSide (k : Int) (s t : Str) : Prop := Moved k s t ∨ (t = s ∧ (s = [] ∨ s = c! ".."))

/-- A sign and a year below 1000. -/
def EarlyYear (t : Str) : Prop := ∃ (n : Nat) (w : Str), n < 1000 ∧ t = '-' :: (pad4 n ++ w)

end EDTF.Spec
