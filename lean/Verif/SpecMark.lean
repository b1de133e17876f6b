/-
C101: the marks of a text (qualifiers, two dots, a missing side, brackets) and the marks of the
boundaries of its result.
-/
import Verif.SpecDenote
import Verif.Parser
namespace EDTF.Spec

/-- One of the four boundaries of a result. -/
def BoundaryOf (d : EDTFDate) (b : Date) : Prop :=
  ∃ r, (d.start = some r ∨ d.stop = some r) ∧ (r.lower = some b ∨ r.upper = some b)

/-- The text is understood, and some boundary of its result is such a one. -/
def HasEnd (s : Str) (P : Date → Prop) : Prop := ∃ d b, parseString s = .ok d ∧ BoundaryOf d b ∧ P b

/-- A year and a month, perhaps with a number for the day, followed by `t`. -/
def MonthAnd (t s : Str) : Prop :=
  ∃ (neg : Bool) (n m : Nat), n < 10000 ∧ 1 ≤ m ∧ m ≤ 12 ∧
    (s = signed neg (pad4 n) ++ '-' :: (pad2 m ++ t) ∨ ∃ k, 1 ≤ k ∧ k ≤ 31 ∧ s = signed neg (pad4 n) ++ '-' :: (pad2 m ++ '-' :: (pad2 k ++ t)))

/-- The parts of a text in brackets, as they are separated by commas. -/
def Pieces (s : Str) (ps : List Str) : Prop := ∃ o c, Brackets o c ∧ ps ≠ [] ∧ (∀ p ∈ ps, ',' ∉ p) ∧ s = o :: (commaJoin ps ++ [c])

/-- Two dots at an end: of the text, or of a part of a set. -/
def DotsAtEnd (s : Str) : Prop :=
  s = c! ".." ∨ c! "../" <+: s ∨ c! "/.." <:+ s ∨ ∃ ps, Pieces s ps ∧ ∃ p ∈ ps, c! ".." <+: p ∨ c! ".." <:+ p

/-- A set with a part that begins with two dots and one that ends with them (and does not begin with them). -/
def OpenBothWays (s : Str) : Prop :=
  ∃ ps, Pieces s ps ∧ (∃ p ∈ ps, c! ".." <+: p) ∧ ∃ p ∈ ps, c! ".." <:+ p ∧ ¬ c! ".." <+: p

end EDTF.Spec
