/-
What the errors of the exported functions besides `ParseString` say.
-/
import Verif.SpecMessage
import Verif.SpecDirect
import Verif.Message
namespace EDTF.Spec

/-- The outcome is an error with this text. -/
def Complains {α : Type} (r : Told α) (w : Str) : Prop := ∃ e, r = .fault e ∧ e.text = w

/-- What the plain error for the span of a text says: the left side comes first. -/
inductive SpanSays : Str → Str → Prop
  | one (t w : Str) (h : DateText t w) : SpanSays t w
  | left (t u w : Str) (hu : '/' ∉ u) (h : DateText t w) : SpanSays (t ++ '/' :: u) w
  | right (t u w : Str) (h1 : t = [] ∨ t = c! ".." ∨ Reads t) (h : DateText u w) : SpanSays (t ++ '/' :: u) w

/-- What the error for the span of a text says. -/
def SpanErrorText (s w : Str) : Prop := (∃ e, SpanFails s e ∧ KnownText e w) ∨ SpanSays s w

/-- What is said of a string that has not the form. -/
def invalidText (label s : Str) : Str := c! "Invalid EDTF string '" ++ s ++ c! "' (" ++ label ++ c! ")"

/-- What a function says that reads the strings of a form and returns the span of their own text. -/
def SpanParserText (P : Str → Told EDTFDate) (form : Str → Prop) (label : Str) : Prop :=
  ∀ s w, Complains (P s) w ↔ (form s ∧ SpanErrorText s w) ∨ (¬ form s ∧ w = invalidText label s)

/-- What a function says that does what `ParseString` does for the strings of a form. -/
def SameText (P : Str → Told EDTFDate) (form : Str → Prop) (label : Str) : Prop :=
  ∀ s w, Complains (P s) w ↔ (form s ∧ ErrorText s w) ∨ (¬ form s ∧ w = invalidText label s)

end EDTF.Spec
