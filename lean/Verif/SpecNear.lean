/-
The specification of what comparisons tell about a text.
-/
import Verif.SpecCmp
import Verif.SpecSame
import Verif.SpecSort
namespace EDTF.Spec

/-- The text is understood, and `o` is its first second (`none` if it is open or unknown there). -/
def FirstOf (s : Str) (o : Option Int) : Prop :=
  ∃ (d : EDTFDate) (a b c : Option Int), parseString s = .ok d ∧ Bounds d o a b c

/-- The text is understood, and `o` is its last second (`none` if it is open or unknown there). -/
def LastOf (s : Str) (o : Option Int) : Prop :=
  ∃ (d : EDTFDate) (a b c : Option Int), parseString s = .ok d ∧ Bounds d a b c o

/-- No comparison tells the two texts apart, neither in the first place nor in the second. -/
def Indistinct (s s' : Str) : Prop :=
  (∀ t, isBefore s t = isBefore s' t) ∧ (∀ t, isAfter s t = isAfter s' t) ∧
    (∀ t, isBefore t s = isBefore t s') ∧ ∀ t, isAfter t s = isAfter t s'

end EDTF.Spec
