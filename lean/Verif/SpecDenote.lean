/-
The specification of the whole result: which record each accepted string
denotes.  Like `SpecLang` it uses the written forms and the calendar, not the
model of the parser; `f` is any numbering of the days (`DayCount`).
-/
import Verif.SpecLang
namespace EDTF.Spec

/-! ### Dates -/

/-- The first and the last day of a date, possibly with unspecified digits. -/
def XDate.Runs (x : XDate) (y1 : Int) (m1 d1 : Nat) (y2 : Int) (m2 d2 : Nat) : Prop :=
  YearReads x.neg x.year y1 y2 ∧ MonthReads x.mx m1 m2 ∧ DayReads (monthLen y1 m1) (monthLen y2 m2) x.dx d1 d2 ∧
    Valid y1 m1 d1 ∧ Valid y2 m2 d2

/-- The unit reported for unspecified digits of the year, of which the last is one. -/
def yearUnitOf : Str → Prec
  | [_, b, c, 'X'] => if c ≠ 'X' then Prec.DECADE else if b ≠ 'X' then Prec.CENTURY else Prec.MILLENIUM
  | _ => Prec.YEAR

/-- The precision reported. -/
def XDate.unit (x : XDate) : Prec :=
  if x.dx = c! "XX" then (if x.mx = c! "XX" then Prec.YEAR else Prec.MONTH)
  else if x.mx = c! "0X" ∨ x.mx = c! "1X" then Prec.MONTH
  else yearUnitOf x.year

/-- The first second of a day, with the qualifiers and the precision of `e`. -/
def Endpoint.dawn (f : Int → Nat → Nat → Int) (e : Endpoint) (y : Int) (m d : Nat) : Date :=
  dayStart f y m d (marked saysUncertain e.qy e.qm e.qd) (marked saysApproximate e.qy e.qm e.qd) e.date.unit
/-- The last second of a day, likewise. -/
def Endpoint.dusk (f : Int → Nat → Nat → Int) (e : Endpoint) (y : Int) (m d : Nat) : Date :=
  dayEnd f y m d (marked saysUncertain e.qy e.qm e.qd) (marked saysApproximate e.qy e.qm e.qd) e.date.unit

/-- One side of an interval or set: from the first to the last second of a date;
an absent date is unknown. -/
inductive RangeOf (f : Int → Nat → Nat → Int) : Str → DateRange → Prop
  | absent : RangeOf f [] ⟨[], some unknownEnd, some unknownEnd⟩
  | date (e : Endpoint) (h : e.shape) (y1 : Int) (m1 d1 : Nat) (y2 : Int) (m2 d2 : Nat) (hr : e.date.Runs y1 m1 d1 y2 m2 d2) :
      RangeOf f e.text ⟨e.text, some (e.dawn f y1 m1 d1), some (e.dusk f y2 m2 d2)⟩

/-- A date alone: the start is its first day and the stop its last day.  If they
are the same day, the start is its first second and the stop its last. -/
inductive SpanOf (f : Int → Nat → Nat → Int) : Str → DateRange → DateRange → Prop
  | date (e : Endpoint) (h : e.shape) (y1 : Int) (m1 d1 : Nat) (y2 : Int) (m2 d2 : Nat) (hr : e.date.Runs y1 m1 d1 y2 m2 d2) :
      SpanOf f e.text
        ⟨e.text, some (e.dawn f y1 m1 d1), some (if y1 = y2 ∧ m1 = m2 ∧ d1 = d2 then e.dawn f y1 m1 d1 else e.dusk f y1 m1 d1)⟩
        ⟨e.text, some (if y1 = y2 ∧ m1 = m2 ∧ d1 = d2 then e.dusk f y2 m2 d2 else e.dawn f y2 m2 d2), some (e.dusk f y2 m2 d2)⟩

/-- A qualifier before the last component. -/
def Endpoint.early (e : Endpoint) : Prop :=
  match e.date.tail with
  | .none => False
  | .month _ => e.qy ≠ .none
  | .day _ _ => e.qy ≠ .none ∨ e.qm ≠ .none

/-- A date of Level 0. -/
def Endpoint.plain (e : Endpoint) : Prop := (∀ c ∈ c! "X?~%", c ∉ e.text) ∧ e.date.dx ≠ c! "00"

instance (e : Endpoint) : Decidable e.plain := by unfold Endpoint.plain; infer_instance

/-! ### Sets -/

/-- A chunk that makes the start open.  (A lone `..` does, wherever it stands.) -/
def Chunk.opensStart : Chunk → Bool
  | upTo _ => true
  | dots => true
  | _ => false

/-- A chunk that makes the end open. -/
def Chunk.opensEnd : Chunk → Bool
  | onFrom _ => true
  | _ => false

/-- The least and the greatest member. -/
def Extremes (ms : List Str) (a b : Str) : Prop := a ∈ ms ∧ b ∈ ms ∧ ∀ t ∈ ms, TextLe a t ∧ TextLe t b

def openRange (t : Str) : DateRange := ⟨t, some openEnd, some openEnd⟩

/-- Start and stop of a set with members `ms` and flag `p`, by whether its start
and its end are open. -/
inductive SetSpan (f : Int → Nat → Nat → Int) (p : Prec) (ms : List Str) : Bool → Bool → DateRange → DateRange → Prop
  | one (t : Str) (h : Extremes ms t t) (S E : DateRange) (hs : SpanOf f t S E) : SetSpan f p ms false false (flagged p S) (flagged p E)
  | closed (a b : Str) (h : Extremes ms a b) (hab : a ≠ b) (R S : DateRange) (hR : RangeOf f a R) (hS : RangeOf f b S) :
      SetSpan f p ms false false (flagged p R) (flagged p S)
  | upTo1 (t : Str) (h : ms = [t]) (R : DateRange) (hR : RangeOf f t R) : SetSpan f p ms true false (openRange (c! "..")) (flagged p R)
  | onFrom1 (t : Str) (h : ms = [t]) (R : DateRange) (hR : RangeOf f t R) : SetSpan f p ms false true (flagged p R) (openRange (c! ".."))
  | upTo (a b : Str) (h : Extremes ms a b) (h2 : 2 ≤ ms.length) (R S : DateRange) (hR : RangeOf f a R) (hS : RangeOf f b S) :
      SetSpan f p ms true false (openRange []) (flagged p ⟨b, R.lower, S.upper⟩)
  | onFrom (a b : Str) (h : Extremes ms a b) (h2 : 2 ≤ ms.length) (R S : DateRange) (hR : RangeOf f a R) (hS : RangeOf f b S) :
      SetSpan f p ms false true (flagged p ⟨a, R.lower, S.upper⟩) (openRange [])
  | both (a b : Str) (h : Extremes ms a b) (h2 : 2 ≤ ms.length) (R S : DateRange) (hR : RangeOf f a R) (hS : RangeOf f b S) :
      SetSpan f p ms true true ⟨[], some openEnd, S.upper⟩ ⟨[], some openEnd, S.upper⟩

/-! ### Significant digits -/

/-- The years read from a year and a number of significant digits, as dates.
(The last `k` digits are dropped, not the digits after the first `k`.) -/
inductive SigYears : Int → Nat → Date0 → Date0 → Prop
  | pos (n k : Nat) (h1 : 1000 ≤ n) (h2 : n ≤ 9999) (hk : k ≤ 4) :
      SigYears n k ⟨false, n / 10 ^ k * 10 ^ k, .none⟩ ⟨false, n / 10 ^ k * 10 ^ k + (10 ^ k - 1), .none⟩
  | neg (n k : Nat) (h1 : 1000 ≤ n) (h2 : n ≤ 9999) (hk : k ≤ 4) :
      SigYears (-(n : Int)) k ⟨true, n / 10 ^ k * 10 ^ k + (10 ^ k - 1), .none⟩ ⟨true, n / 10 ^ k * 10 ^ k, .none⟩
  | sign (n : Nat) (h1 : 100 ≤ n) (h2 : n ≤ 999) : SigYears (-(n : Int)) 4 ⟨false, 0, .none⟩ ⟨false, 9999, .none⟩

/-! ### The result -/

/-- The record that `ParseString` makes of each string of the accepted language. -/
inductive Denotes (f : Int → Nat → Nat → Int) : Str → EDTFDate → Prop
  /-- unknown -/
  | unknown : Denotes f [] ⟨some ⟨[], some unknownEnd, some unknownEnd⟩, some ⟨[], some unknownEnd, some unknownEnd⟩, [], -1, c! "Unknown"⟩
  /-- open -/
  | opened : Denotes f (c! "..") ⟨some (openRange []), some (openRange []), c! "..", -1, c! "Open"⟩
  /-- a date that exists -/
  | date (x : Date0) (h : x.ok) : Denotes f x.text (x.result f x.text x.text 0 (c! "Date") 0 0)
  /-- a day with a time of day.  The shift to UTC comes before the sign. -/
  | time (neg : Bool) (y m d hh mi ss : Nat) (z : Zone) (hy : y < 10000) (V : Valid y m d) (k1 : hh < 24) (k2 : mi < 60) (k3 : ss < 60)
      (hz : z.ok) (y' : Int) (m' d' hh' mi' ss' : Nat) (V' : Valid y' m' d') (k1' : hh' < 24) (k2' : mi' < 60) (k3' : ss' < 60)
      (e : 86400 * f y' m' d' + (3600 * hh' + 60 * mi' + ss') = 86400 * f y m d + (3600 * hh + 60 * mi + ss) - z.offset) :
      Denotes f (clockText neg y m d hh mi ss z)
        (instantResult (clockText neg y m d hh mi ss z) { dated f (if neg then -y' else y') m' d' hh' mi' ss' 0 0 0 with ymd := none })
  /-- two dates, with unspecified digits and with qualifiers on the left -/
  | interval (a b : Endpoint) (ha : a.shape) (hb : b.shape) (ra : noRight a.qy a.qm a.qd) (rb : noRight b.qy b.qm b.qd)
      (R S : DateRange) (hR : RangeOf f a.text R) (hS : RangeOf f b.text S) :
      Denotes f (a.text ++ '/' :: b.text) ⟨some R, some S, a.text ++ '/' :: b.text, if a.plain ∧ b.plain then 0 else 2,
        if a.plain ∧ b.plain then c! "Time Interval" else c! "Interval"⟩
  /-- an open or unknown start, and a date that exists -/
  | startless (l : Side) (hl : l = .opened ∨ l = .unknown) (x : Date0) (h : x.ok) :
      Denotes f (l.text ++ '/' :: x.text)
        ⟨some (l.range f), some (x.range f x.text 0 0 Prec.YEAR), l.text ++ '/' :: x.text, 1, c! "Extended Interval (Start)"⟩
  /-- a year, and an open or unknown end -/
  | endless (neg : Bool) (n : Nat) (h : n < 10000) (r : Side) (hr : r = .opened ∨ r = .unknown) :
      Denotes f ((⟨neg, n, .none⟩ : Date0).text ++ '/' :: r.text)
        ⟨some ((⟨neg, n, .none⟩ : Date0).range f (⟨neg, n, .none⟩ : Date0).text 0 0 Prec.YEAR), some (r.range f),
          (⟨neg, n, .none⟩ : Date0).text ++ '/' :: r.text, 1, c! "Extended Interval (End)"⟩
  /-- a qualified year -/
  | qualifiedYear (neg : Bool) (n : Nat) (h : n < 10000) (q : Char) (hq : q ∈ c! "?~%") :
      Denotes f ((⟨neg, n, .none⟩ : Date0).text ++ [q])
        ((⟨neg, n, .none⟩ : Date0).result f ((⟨neg, n, .none⟩ : Date0).text ++ [q]) ((⟨neg, n, .none⟩ : Date0).text ++ [q]) 1
          (c! "Qualification of a date (complete)") (if saysUncertain q then Prec.YEAR else 0) (if saysApproximate q then Prec.YEAR else 0))
  /-- a date in digits with qualifiers on the right, one of them before the last component; or day "00" -/
  | group (e : Endpoint) (h : e.shape) (hn : e.date.neg = false) (hX : 'X' ∉ e.text) (hl : noLeft e.qy e.qm e.qd)
      (he : e.early ∨ e.date.dx = c! "00") (S E : DateRange) (hs : SpanOf f e.text S E) :
      Denotes f e.text ⟨some S, some E, e.text, 2, c! "Qualification (Group)"⟩
  /-- a date in digits with qualifiers on the left -/
  | individual (e : Endpoint) (h : e.shape) (hn : e.date.neg = false) (hX : 'X' ∉ e.text) (hr : noRight e.qy e.qm e.qd)
      (hl : ¬ noLeft e.qy e.qm e.qd) (S E : DateRange) (hs : SpanOf f e.text S E) :
      Denotes f e.text ⟨some S, some E, e.text, 2, c! "Qualification (Individual)"⟩
  /-- a date with unspecified digits in the year or month.  (The Level 1 pattern leaves out three days.) -/
  | unspecified (x : XDate) (h : x.ok) (hn : x.neg = false) (hX : 'X' ∈ x.year ∨ 'X' ∈ x.mx) (S E : DateRange) (hs : SpanOf f x.text S E) :
      Denotes f x.text ⟨some S, some E, x.text, if x.dx ∈ [c! "00", c! "10", c! "20"] then 2 else 1,
        if x.dx ∈ [c! "00", c! "10", c! "20"] then c! "Unspecified Digit" else c! "Unspecified digit(s) from the right"⟩
  /-- a year and a month with something after them: the whole month -/
  | month (neg : Bool) (n m : Nat) (hn : n < 10000) (h1 : 1 ≤ m) (h2 : m ≤ 12) (y : Int) (hv : y = if neg then -(n : Int) else n)
      (hy : SeasonYear y) (t : Str) (ht : AfterMonth neg t) :
      Denotes f (signed neg (pad4 n) ++ '-' :: (pad2 m ++ t))
        (monthsResult f (signed neg (pad4 n) ++ '-' :: (pad2 m ++ t)) 1 (c! "Seasons") y m y m)
  /-- a season by number -/
  | season (neg : Bool) (n : Nat) (hn : n < 10000) (z : Season) (y : Int) (hv : y = if neg then -(n : Int) else n) (hy : SeasonYear y)
      (hz : z = .winter → y ≠ 9999 ∧ y ≠ -1000) :
      Denotes f (signed neg (pad4 n) ++ '-' :: pad2 z.code)
        (monthsResult f (signed neg (pad4 n) ++ '-' :: pad2 z.code) 1 (c! "Seasons") y z.firstMonth (z.lastYear y) z.lastMonth)
  /-- a season by name -/
  | seasonName (z : Season) (w t1 t2 : Str) (n : Nat) (hw : Folded z.word w) (h1 : Blank t1) (h2 : Blank t2) (hn : n < 10000)
      (hz : z = .winter → n ≠ 9999) :
      Denotes f (w ++ (t1 ++ ',' :: (t2 ++ pad4 n)))
        (monthsResult f (w ++ (t1 ++ ',' :: (t2 ++ pad4 n))) 1 (c! "Seasons") n z.firstMonth (z.lastYear n) z.lastMonth)
  /-- a letter and a year of four digits -/
  | letter (neg : Bool) (n : Nat) (h : n < 10000) :
      Denotes f ('Y' :: (⟨neg, n, .none⟩ : Date0).text)
        ((⟨neg, n, .none⟩ : Date0).result f (⟨neg, n, .none⟩ : Date0).text ('Y' :: (⟨neg, n, .none⟩ : Date0).text) 1
          (c! "Letter-prefixed calendar year") 0 0)
  /-- an exponential year of four digits -/
  | exponential (yc ec : Char) (hy : yc ∈ c! "Yy") (he : ec ∈ c! "Ee") (neg : Bool) (ms es : List Nat) (hm : Digits ms) (hes : Digits es)
      (b : Bool) (n : Nat) (h1 : 1000 ≤ n) (h2 : n ≤ 9999) (hv : ExpYear neg ms es (if b then -(n : Int) else n)) :
      Denotes f (yc :: signed neg (ms.map dig ++ ec :: es.map dig))
        ((⟨b, n, .none⟩ : Date0).result f (⟨b, n, .none⟩ : Date0).text (yc :: signed neg (ms.map dig ++ ec :: es.map dig)) 2
          (c! "Exponential year") 0 0)
  /-- a year with significant digits -/
  | significant (t : Str) (v : Int) (h : SigText t v) (ds : List Nat) (hd : Digits ds) (a b : Date0) (hk : SigYears v (value10 ds) a b) :
      Denotes f (t ++ 'S' :: ds.map dig)
        ⟨some (a.range f a.text 0 0 Prec.YEAR), some (b.range f b.text 0 0 Prec.YEAR), t ++ 'S' :: ds.map dig, 2, c! "Significant digits"⟩
  /-- a sub-year grouping -/
  | grouping (n : Nat) (hn : n < 10000) (g : Grouping) (hg : g.crosses = true → 999 ≤ n ∧ n ≤ 9998) :
      Denotes f (pad4 n ++ '-' :: pad2 g.code)
        ⟨some ((dayOf n g.firstMonth 1).range f (dayOf n g.firstMonth 1).text 0 0 Prec.YEAR),
          some ((g.lastDate n).range f (g.lastDate n).text 0 0 Prec.YEAR), pad4 n ++ '-' :: pad2 g.code, 2, c! "Sub-year groupings"⟩
  /-- a set -/
  | set (o c : Char) (hb : Brackets o c) (cs : List Chunk) (hc : ChunksOk cs) (S E : DateRange)
      (hm : SetSpan f (setFlag o) (cs.flatMap Chunk.members) (cs.any Chunk.opensStart) (cs.any Chunk.opensEnd) S E) :
      Denotes f (o :: (commaJoin (cs.map Chunk.text) ++ [c]))
        ⟨some S, some E, o :: (commaJoin (cs.map Chunk.text) ++ [c]), 2, c! "Set representation"⟩

end EDTF.Spec
