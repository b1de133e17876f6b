/-
The specification of the methods of a date, whatever its fields hold: dates read from JSON
or built by hand may lack ranges and boundaries.
-/
import Verif.SpecCmp
namespace EDTF.Spec

/-- A bound of a date: the pointers to the range and to the boundary are followed blindly. -/
inductive BoundIs (b : DateRange → Option Date) : Option DateRange → Res Int → Prop
  | noRange : BoundIs b none .panic
  | noDate {r : DateRange} (h : b r = none) : BoundIs b (some r) .panic
  /-- the error is not the one the name of its constructor suggests -/
  | notSet {r : DateRange} {d : Date} (h : b r = some d) (ht : d.timestamp = none) : BoundIs b (some r) (.err (.notImplemented [] []))
  | found {r : DateRange} {d : Date} {t : Int} (h : b r = some d) (ht : d.timestamp = some t) : BoundIs b (some r) (.ok t)

/-- The start of the date. -/
def LowerIs (d : EDTFDate) : Res Int → Prop := BoundIs DateRange.lower d.start
/-- The end of the date. -/
def UpperIs (d : EDTFDate) : Res Int → Prop := BoundIs DateRange.upper d.stop

/-- The instants are kept as seconds since the year 1, which go around after 2^63 - 1. -/
inductive InternalTime (t : Int) : Int → Prop
  | plain (h : t < 2 ^ 63 - 62135596800) : InternalTime t (t + 62135596800)
  | around (h : 2 ^ 63 - 62135596800 ≤ t) : InternalTime t (t + 62135596800 - 2 ^ 64)

/-- A comparison of two dates: open is neither; then the bound of the other date is needed, then
the own one. -/
inductive Compares (mine theirs : EDTFDate → Res Int → Prop) (holds : Int → Int → Prop) (d u : EDTFDate) : Res Bool → Prop
  | opened (h : d.edtf = c! ".." ∨ d.edtf = c! "open") : Compares mine theirs holds d u (.ok false)
  | theirPanic (h : d.edtf ≠ c! ".." ∧ d.edtf ≠ c! "open") (ht : theirs u .panic) : Compares mine theirs holds d u .panic
  | theirError (h : d.edtf ≠ c! ".." ∧ d.edtf ≠ c! "open") {e : Err} (ht : theirs u (.err e)) : Compares mine theirs holds d u (.err (.wrapped e))
  | myPanic (h : d.edtf ≠ c! ".." ∧ d.edtf ≠ c! "open") {q : Int} (ht : theirs u (.ok q)) (hm : mine d .panic) : Compares mine theirs holds d u .panic
  | myError (h : d.edtf ≠ c! ".." ∧ d.edtf ≠ c! "open") {q : Int} (ht : theirs u (.ok q)) {e : Err} (hm : mine d (.err e)) :
      Compares mine theirs holds d u (.err (.wrapped e))
  | yes (h : d.edtf ≠ c! ".." ∧ d.edtf ≠ c! "open") {p q p' q' : Int} (ht : theirs u (.ok q)) (hm : mine d (.ok p))
      (hp : InternalTime p p') (hq : InternalTime q q') (hh : holds p' q') : Compares mine theirs holds d u (.ok true)
  | no (h : d.edtf ≠ c! ".." ∧ d.edtf ≠ c! "open") {p q p' q' : Int} (ht : theirs u (.ok q)) (hm : mine d (.ok p))
      (hp : InternalTime p p') (hq : InternalTime q q') (hh : ¬ holds p' q') : Compares mine theirs holds d u (.ok false)

def AfterIs : EDTFDate → EDTFDate → Res Bool → Prop := Compares LowerIs UpperIs fun p q => q ≤ p
def BeforeIs : EDTFDate → EDTFDate → Res Bool → Prop := Compares UpperIs LowerIs fun p q => p ≤ q

/-- Every timestamp is a 64-bit number, as the field's type says. -/
def Stamps64 (d : EDTFDate) : Prop :=
  ∀ r, d.start = some r ∨ d.stop = some r → ∀ b, r.lower = some b ∨ r.upper = some b → ∀ t, b.timestamp = some t → -2 ^ 63 ≤ t ∧ t < 2 ^ 63

end EDTF.Spec
