/-
The specification of the normal form of a text.
-/
import Verif.SpecClock
import Verif.SpecMark
import Verif.SpecNear
namespace EDTF.Spec

/-- What stands before the time of day. -/
def dayPart (w : Str) : Str := w.takeWhile (fun c => c != 'T')

/-- The normal form, read off the result: the text of its moment if the text has a time of day, and
otherwise the interval from the day of its first moment to the day of its last moment. -/
inductive Normal (s : Str) : Str → Prop
  | moment {d : EDTFDate} {b : Date} (h : parseString s = .ok d) (hc : ':' ∈ s) (hb : Begins d b) : Normal s b.dateTime
  | days {d : EDTFDate} {b e : Date} (h : parseString s = .ok d) (hc : ':' ∉ s) (hb : Begins d b) (he : Finishes d e)
      (nb : b.dateTime ≠ []) (ne : e.dateTime ≠ []) : Normal s (dayPart b.dateTime ++ '/' :: dayPart e.dateTime)

/-- The years that can be written. -/
def InYears (f : Int → Nat → Nat → Int) (i : Int) : Prop := 86400 * f (-9999) 1 1 ≤ i ∧ i < 86400 * f 10000 1 1

/-- A day, written out. -/
def dayText (y : Int) (m d : Nat) : Str := yearText y ++ c! "-" ++ pad2 m ++ c! "-" ++ pad2 d

/-- The texts in normal form: a moment in universal time, or two days of the years -9999 to 9999 with
a stroke between them, where the year 0000 has no sign. -/
inductive InNormalForm : Str → Prop
  | moment {y : Int} {m d hh mi ss : Nat} (V : Valid y m d) (h1 : -9999 ≤ y) (h2 : y ≤ 9999) (h3 : hh < 24) (h4 : mi < 60) (h5 : ss < 60) :
      InNormalForm (dayText y m d ++ 'T' :: (hmsText hh mi ss ++ c! "Z"))
  | days {y : Int} {m d : Nat} {y' : Int} {m' d' : Nat} (V : Valid y m d) (h1 : -9999 ≤ y) (h2 : y ≤ 9999)
      (V' : Valid y' m' d') (h1' : -9999 ≤ y') (h2' : y' ≤ 9999) : InNormalForm (dayText y m d ++ '/' :: dayText y' m' d')

end EDTF.Spec
