/-
The specification of how long accepted texts are.
-/
import Verif.SpecLang
namespace EDTF.Spec

/-- The kinds of text that have no greatest length. -/
inductive Unbounded
  | set | seasonName | exponent | significant

/-- A text of that kind: in brackets; a name, then a comma after blanks; a letter, then a year with an
exponent; or something with a number of significant digits. -/
def Unbounded.Has : Unbounded → Str → Prop
  | set, s => ∃ o c t, Brackets o c ∧ s = o :: (t ++ [c])
  | seasonName, s => ∃ (z : Season) (w t u : Str), Folded z.word w ∧ Blank t ∧ s = w ++ (t ++ ',' :: u)
  | exponent, s => ∃ y e a b, y ∈ c! "Yy" ∧ e ∈ c! "Ee" ∧ s = y :: (a ++ e :: b)
  | significant, s => ∃ a b, s = a ++ 'S' :: b

end EDTF.Spec
