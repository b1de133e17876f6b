/-
The specification of the exported function that turns a date into the texts of its
first and its last day, for every text.
-/
import Verif.SpecFail
import Verif.SpecDenote
namespace EDTF.Spec

/-- The texts of the first and the last year.  Unless the last digit is unspecified, the year is left as it is;
otherwise the years are written without leading zeros. -/
inductive YearTexts : Bool → Str → Str → Str → Prop
  | itself (neg : Bool) (w : Str) (h : ∀ a b c, w ≠ [a, b, c, 'X']) : YearTexts neg w (signed neg w) (signed neg w)
  | unspecified (a b c : Char) (y1 y2 : Int) (h : YearReads false [a, b, c, 'X'] y1 y2) (t1 t2 : Str) (h1 : Numeral y1 t1) (h2 : Numeral y2 t2) :
      YearTexts false [a, b, c, 'X'] t1 t2

/-- The texts of the first and the last month. -/
inductive MonthTexts : Str → Str → Str → Prop
  | absent : MonthTexts [] (c! "01") (c! "12")
  | any : MonthTexts (c! "XX") (c! "01") (c! "12")
  | zero : MonthTexts (c! "0X") (c! "10") (c! "12")
  | one : MonthTexts (c! "1X") (c! "10") (c! "12")
  | itself (a b : Char) (h : b ≠ 'X') : MonthTexts [a, b] [a, b] [a, b]

/-- The text of the last day of the last month of a date. -/
def LastDay (x : XDate) (t : Str) : Prop :=
  ∃ y1 y2 m1 m2, YearReads x.neg x.year y1 y2 ∧ MonthReads x.mx m1 m2 ∧ Numeral (monthLen y2 m2) t

/-- The texts of the first and the last day. -/
inductive DayTexts (last : Str → Prop) : Str → Str → Str → Prop
  | absent (t : Str) (h : last t) : DayTexts last [] (c! "01") t
  | any (t : Str) (h : last t) : DayTexts last (c! "XX") (c! "01") t
  | tens1 : DayTexts last (c! "1X") (c! "10") (c! "19")
  | tens2 : DayTexts last (c! "2X") (c! "20") (c! "29")
  | tens3 (t : Str) (h : last t) : DayTexts last (c! "3X") (c! "30") t
  | itself (a b : Char) (h : b ≠ 'X') : DayTexts last [a, b] [a, b] [a, b]

/-- The two dates, with the precision and the qualifiers. -/
inductive RangeReads : Str → StringRange → Prop
  | date (e : Endpoint) (h : e.like) (y1 y2 m1 m2 d1 d2 : Str) (hy : YearTexts e.date.neg e.date.year y1 y2) (hm : MonthTexts e.date.mx m1 m2)
      (hd : DayTexts (LastDay e.date) e.date.dx d1 d2) :
      RangeReads e.text ⟨⟨y1, m1, d1⟩, ⟨y2, m2, d2⟩, e.date.unit, marked saysUncertain e.qy e.qm e.qd, marked saysApproximate e.qy e.qm e.qd⟩

/-- The errors. -/
inductive RangeFails : Str → Err → Prop
  /-- not the form of a date -/
  | form (t : Str) (h : ¬ ∃ e : Endpoint, e.like ∧ t = e.text) : RangeFails t (.invalid (c! "date") t)
  /-- the first and the last digit of the year are unspecified -/
  | millennium (e : Endpoint) (h : e.like) (hn : e.date.neg = false) (a b : Char) (hy : e.date.year = ['X', a, b, 'X']) :
      RangeFails e.text (.notImplemented (c! "date") e.text)
  /-- a negative year whose last digit is unspecified -/
  | negative (e : Endpoint) (h : e.like) (hn : e.date.neg = true) (a b c : Char) (hy : e.date.year = [a, b, c, 'X']) : RangeFails e.text .plain
  /-- the day "0X" -/
  | zeroX (e : Endpoint) (h : e.like) (hy : ∀ a b c, e.date.year = [a, b, c, 'X'] → a ≠ 'X' ∧ e.date.neg = false) (hd : e.date.dx = c! "0X") :
      RangeFails e.text (.invalid (c! "date") e.text)
  /-- the last day of the month is asked for but there is none -/
  | last (e : Endpoint) (h : e.like) (hy : ∀ a b c, e.date.year = [a, b, c, 'X'] → a ≠ 'X' ∧ e.date.neg = false)
      (hd : e.date.dx = [] ∨ e.date.dx = c! "XX" ∨ e.date.dx = c! "3X") (hl : ∀ t, ¬ LastDay e.date t) : RangeFails e.text .plain

end EDTF.Spec
