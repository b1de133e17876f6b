/-
Specification for C95: putting dates in order.
-/
import Verif.Spec
import Verif.Cmp
namespace EDTF.Spec

/-- The text is understood and runs from `l` to `u` (in seconds of Unix time). -/
def Spans (s : Str) (l u : Int) : Prop :=
  ∃ d : EDTFDate, parseString s = .ok d ∧ d.lower = .ok l ∧ d.upper = .ok u

/-- The text has a first and a last second, and the last is not before the first. -/
def Forward (s : Str) : Prop := ∃ l u, Spans s l u ∧ l ≤ u

/-- Both texts stand for one and the same second. -/
def OneSecond (s t : Str) : Prop := ∃ i, Spans s i i ∧ Spans t i i

/-- The first text is before the second. -/
def Precedes (s t : Str) : Prop := isBefore s t = .ok true

/-- Each text of the list is before the next one, beginning with `s`; the last one is `t`. -/
inductive Leads : Str → List Str → Str → Prop
  | one (s t : Str) (h : Precedes s t) : Leads s [] t
  | cons (s r t : Str) (l : List Str) (h : Precedes s r) (k : Leads r l t) : Leads s (r :: l) t

/-- No sign in front of a member of a set. -/
def NoSign (s : Str) : Prop := ∀ (a b : Str) (c : Char), c ∈ c! "[{,." → s ≠ a ++ c :: '-' :: b

end EDTF.Spec
