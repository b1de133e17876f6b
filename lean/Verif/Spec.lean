/-
The independent specification: calendar facts and written forms.  Nothing here
uses the model's helper functions; only its result types are shared.
-/
import Verif.Types
namespace EDTF.Spec

/-! ### The proleptic Gregorian calendar -/

/-- Leap years. -/
def Leap (y : Int) : Prop := 4 ∣ y ∧ (100 ∣ y → 400 ∣ y)

instance (y : Int) : Decidable (Leap y) := by unfold Leap; infer_instance

/-- Length of each month (months 1..12). -/
def monthLen (y : Int) (m : Nat) : Nat :=
  match m with
  | 2 => if Leap y then 29 else 28
  | 4 => 30
  | 6 => 30
  | 9 => 30
  | 11 => 30
  | _ => 31

/-- The day exists. -/
def Valid (y : Int) (m d : Nat) : Prop := 1 ≤ m ∧ m ≤ 12 ∧ 1 ≤ d ∧ d ≤ monthLen y m

instance (y : Int) (m d : Nat) : Decidable (Valid y m d) := by unfold Valid; infer_instance

/-- `f y m d` numbers the days consecutively, 1970-01-01 being day 0.  This
determines `f` on all existing days (`DayCount.unique`). -/
structure DayCount (f : Int → Nat → Nat → Int) : Prop where
  epoch : f 1970 1 1 = 0
  next_day : ∀ y m d, Valid y m d → d < monthLen y m → f y m (d + 1) = f y m d + 1
  next_month : ∀ y m, 1 ≤ m → m < 12 → f y (m + 1) 1 = f y m (monthLen y m) + 1
  next_year : ∀ y, f (y + 1) 1 1 = f y 12 31 + 1

/-! ### Written forms -/

/-- A decimal digit. -/
def dig (n : Nat) : Char := ['0', '1', '2', '3', '4', '5', '6', '7', '8', '9'].getD n '?'

/-- Two digits. -/
def pad2 (n : Nat) : Str := [dig (n / 10 % 10), dig (n % 10)]

/-- Four digits. -/
def pad4 (n : Nat) : Str := [dig (n / 1000 % 10), dig (n / 100 % 10), dig (n / 10 % 10), dig (n % 10)]

/-- The digits of a year: four, or five from 10000 on. -/
def yearDigits (n : Nat) : Str := if n < 10000 then pad4 n else dig (n / 10000) :: pad4 n

/-- A year with at least four digits and a sign if negative (up to 99999). -/
def yearText (y : Int) : Str := if y < 0 then '-' :: yearDigits y.natAbs else yearDigits y.natAbs

/-- hh:mm:ss -/
def hmsText (hh mi ss : Nat) : Str := pad2 hh ++ c! ":" ++ pad2 mi ++ c! ":" ++ pad2 ss

/-- The RFC 3339 text of an instant given by calendar date and time of day. -/
def rfcText (y : Int) (m d hh mi ss : Nat) : Str :=
  yearText y ++ c! "-" ++ pad2 m ++ c! "-" ++ pad2 d ++ c! "T" ++ hmsText hh mi ss ++ c! "Z"

/-! ### Dated boundaries -/

/-- A boundary at the given second of the given day: the text, the Unix time,
the calendar date and the flags.  `f` is the day count. -/
def dated (f : Int → Nat → Nat → Int) (y : Int) (m d hh mi ss : Nat) (u a p : Prec) : Date :=
  { dateTime := rfcText y m d hh mi ss
    timestamp := some (86400 * f y m d + (3600 * hh + 60 * mi + ss : Nat))
    ymd := some ⟨y, m, d⟩
    uncertain := u
    approximate := a
    unspecified := 0
    precision := p
    isOpen := false
    unknown := false
    inclusivity := 0 }

/-- The first second of a day. -/
def dayStart (f : Int → Nat → Nat → Int) (y : Int) (m d : Nat) (u a p : Prec) : Date := dated f y m d 0 0 0 u a p
/-- The last second of a day. -/
def dayEnd (f : Int → Nat → Nat → Int) (y : Int) (m d : Nat) (u a p : Prec) : Date := dated f y m d 23 59 59 u a p

/-- A boundary that is open: no time, no date, no flags. -/
def openEnd : Date :=
  { dateTime := [], timestamp := none, ymd := none, uncertain := 0, approximate := 0, unspecified := 0,
    precision := 0, isOpen := true, unknown := false, inclusivity := 0 }

/-- A boundary that is unknown. -/
def unknownEnd : Date :=
  { dateTime := [], timestamp := none, ymd := none, uncertain := 0, approximate := 0, unspecified := 0,
    precision := 0, isOpen := false, unknown := true, inclusivity := 0 }

/-! ### Well-formed boundaries -/

/-- A boundary without a time: no text, no time, no date. -/
def Undated (b : Date) : Prop := b.dateTime = [] ∧ b.timestamp = none ∧ b.ymd = none

/-- A boundary at a second of an existing day: the text is the RFC 3339 form of
the timestamp and the calendar date, when reported, is that day. -/
def Dated (f : Int → Nat → Nat → Int) (b : Date) : Prop :=
  ∃ (y : Int) (m d hh mi ss : Nat), Valid y m d ∧ hh < 24 ∧ mi < 60 ∧ ss < 60 ∧ -10000 ≤ y ∧ y ≤ 10000 ∧
    b.dateTime = rfcText y m d hh mi ss ∧ b.timestamp = some (86400 * f y m d + (3600 * hh + 60 * mi + ss : Nat)) ∧
    (b.ymd = none ∨ b.ymd = some ⟨y, m, d⟩)

/-- Exactly one of: dated, open, unknown. -/
def Boundary (f : Int → Nat → Nat → Int) (b : Date) : Prop :=
  (b.isOpen = false ∧ b.unknown = false ∧ Dated f b) ∨
  (b.isOpen = true ∧ b.unknown = false ∧ Undated b) ∨
  (b.isOpen = false ∧ b.unknown = true ∧ Undated b)

/-! ### Level 0 dates -/

/-- What follows the year in a date. -/
inductive Tail where
  | none
  | month (m : Nat)
  | day (m d : Nat)
  deriving DecidableEq, Repr

/-- A date as written: sign, four-digit year, and the rest. -/
structure Date0 where
  neg : Bool
  year : Nat
  tail : Tail
  deriving DecidableEq, Repr

namespace Date0

/-- The astronomical year; `-0000` is year 0. -/
def value (x : Date0) : Int := if x.neg then -(x.year : Int) else x.year

/-- At most four digits, and the month or day exists. -/
def ok (x : Date0) : Prop :=
  x.year < 10000 ∧
  match x.tail with
  | .none => True
  | .month m => 1 ≤ m ∧ m ≤ 12
  | .day m d => Valid x.value m d

instance (x : Date0) : Decidable x.ok := by
  obtain ⟨n, y, t⟩ := x
  cases t <;> (simp only [ok]; infer_instance)

/-- First month and day denoted. -/
def first (x : Date0) : Nat × Nat :=
  match x.tail with
  | .none => (1, 1)
  | .month m => (m, 1)
  | .day m d => (m, d)

/-- Last month and day denoted. -/
def last (x : Date0) : Nat × Nat :=
  match x.tail with
  | .none => (12, 31)
  | .month m => (m, monthLen x.value m)
  | .day m d => (m, d)

end Date0

/-- A qualifier on a component: none, to its left, or to its right. -/
inductive Deco where
  | none
  | left (q : Char)
  | right (q : Char)
  deriving DecidableEq, Repr

namespace Deco

def ok : Deco → Bool
  | .none => true
  | .left q => q == '?' || q == '~' || q == '%'
  | .right q => q == '?' || q == '~' || q == '%'

def text : Deco → Str → Str
  | .none, x => x
  | .left q, x => q :: x
  | .right q, x => x ++ [q]

def isLeft (p : Char → Bool) : Deco → Bool
  | .left q => p q
  | _ => false

def isRight (p : Char → Bool) : Deco → Bool
  | .right q => p q
  | _ => false

end Deco

/-- Qualifier characters that express uncertainty. -/
def saysUncertain (c : Char) : Bool := c == '?' || c == '%'
/-- Qualifier characters that express approximation. -/
def saysApproximate (c : Char) : Bool := c == '~' || c == '%'

/-- The components marked by qualifiers satisfying `p`: one on the left of a
component marks that component, one on the right also everything before it. -/
def marked (p : Char → Bool) (qy qm qd : Deco) : Prec :=
  (if qy.isLeft p || qy.isRight p || qm.isRight p || qd.isRight p then Prec.YEAR else 0) |||
  (if qm.isLeft p || qm.isRight p || qd.isRight p then Prec.MONTH else 0) |||
  (if qd.isLeft p || qd.isRight p then Prec.DAY else 0)

/-- The written form with qualifiers. -/
def Date0.qtext (x : Date0) (qy qm qd : Deco) : Str :=
  qy.text (if x.neg then '-' :: pad4 x.year else pad4 x.year) ++
  match x.tail with
  | .none => []
  | .month m => '-' :: qm.text (pad2 m)
  | .day m d => '-' :: (qm.text (pad2 m) ++ '-' :: qd.text (pad2 d))

/-- Qualifiers only where there are components. -/
def Date0.qOk (x : Date0) (qy qm qd : Deco) : Prop :=
  qy.ok = true ∧ qm.ok = true ∧ qd.ok = true ∧
  match x.tail with
  | .none => qm = .none ∧ qd = .none
  | .month _ => qd = .none
  | .day _ _ => True

/-- No qualifier to the left (right) of any component. -/
def noLeft (qy qm qd : Deco) : Prop := ∀ q ∈ [qy, qm, qd], q.isLeft (fun _ => true) = false
def noRight (qy qm qd : Deco) : Prop := ∀ q ∈ [qy, qm, qd], q.isRight (fun _ => true) = false

/-- Some component other than the last one written is qualified. -/
def Date0.early (x : Date0) (qy qm : Deco) : Prop :=
  match x.tail with
  | .none => False
  | .month _ => qy ≠ .none
  | .day _ _ => qy ≠ .none ∨ qm ≠ .none

instance (x : Date0) (qy qm qd : Deco) : Decidable (Date0.qOk x qy qm qd) := by
  obtain ⟨n, y, t⟩ := x
  cases t <;> (simp only [Date0.qOk]; infer_instance)
instance (x : Date0) (qy qm : Deco) : Decidable (Date0.early x qy qm) := by
  obtain ⟨n, y, t⟩ := x
  cases t <;> (simp only [Date0.early]; infer_instance)
instance (qy qm qd : Deco) : Decidable (noLeft qy qm qd) := by unfold noLeft; infer_instance
instance (qy qm qd : Deco) : Decidable (noRight qy qm qd) := by unfold noRight; infer_instance

/-- The written form. -/
def Date0.text (x : Date0) : Str := x.qtext .none .none .none

example : (⟨true, 480, .day 2 9⟩ : Date0).text = c! "-0480-02-09" := by decide
example : (⟨false, 2004, .day 6 11⟩ : Date0).qtext (.right '?') .none (.left '%') = c! "2004?-06-%11" := by decide

/-- The range of a date: from the first second of its first day to the last
second of its last day. -/
def Date0.range (f : Int → Nat → Nat → Int) (x : Date0) (edtf : Str) (u a p : Prec) : DateRange :=
  { edtf := edtf
    lower := some (dayStart f x.value x.first.1 x.first.2 u a p)
    upper := some (dayEnd f x.value x.last.1 x.last.2 u a p) }

/-- The result for a single date: a day has its first second as start range and
its last second as end range; a month or year has its first day as start range
and its last day as end range.  `e` is the text the ranges report. -/
def Date0.result (f : Int → Nat → Nat → Int) (x : Date0) (e s : Str) (level : Int) (feature : Str) (u a : Prec) : EDTFDate :=
  let isDay : Bool := match x.tail with
    | .day _ _ => true
    | _ => false
  { start := some { edtf := e
                    lower := some (dayStart f x.value x.first.1 x.first.2 u a Prec.YEAR)
                    upper := some (if isDay then dayStart f x.value x.first.1 x.first.2 u a Prec.YEAR
                      else dayEnd f x.value x.first.1 x.first.2 u a Prec.YEAR) }
    stop := some { edtf := e
                   lower := some (if isDay then dayEnd f x.value x.last.1 x.last.2 u a Prec.YEAR
                      else dayStart f x.value x.last.1 x.last.2 u a Prec.YEAR)
                   upper := some (dayEnd f x.value x.last.1 x.last.2 u a Prec.YEAR) }
    edtf := s
    level := level
    feature := feature }

/-! ### Sides of intervals -/

/-- One side of an interval: open (`..`), unknown (nothing), or a date. -/
inductive Side where
  | opened
  | unknown
  | date (x : Date0)
  deriving DecidableEq, Repr

/-- The written form of a side. -/
def Side.text : Side → Str
  | .opened => c! ".."
  | .unknown => []
  | .date x => x.text

/-- The range of a side. -/
def Side.range (f : Int → Nat → Nat → Int) : Side → DateRange
  | .opened => ⟨c! "..", some openEnd, some openEnd⟩
  | .unknown => ⟨[], some unknownEnd, some unknownEnd⟩
  | .date x => x.range f x.text 0 0 Prec.YEAR

/-- A dated side exists in the calendar. -/
def Side.ok : Side → Prop
  | .date x => x.ok
  | _ => True

/-! ### Sets -/

/-- One comma-separated part of a set: a date, a pair `a..b`, `..x` or `x..`. -/
inductive Part where
  | one (x : Date0)
  | pair (a b : Date0)
  | upTo (x : Date0)
  | onFrom (x : Date0)
  deriving DecidableEq, Repr

def Part.text : Part → Str
  | .one x => x.text
  | .pair a b => a.text ++ c! ".." ++ b.text
  | .upTo x => c! ".." ++ x.text
  | .onFrom x => x.text ++ c! ".."

/-- The dates written in a part. -/
def Part.dates : Part → List Date0
  | .one x => [x]
  | .pair a b => [a, b]
  | .upTo x => [x]
  | .onFrom x => [x]

def Part.isUpTo : Part → Bool
  | .upTo _ => true
  | _ => false

def Part.isOnFrom : Part → Bool
  | .onFrom _ => true
  | _ => false

/-- Joined by commas. -/
def commaJoin : List Str → Str
  | [] => []
  | [x] => x
  | x :: xs => x ++ ',' :: commaJoin xs

/-- The written form of a set with the given brackets. -/
def setText (o c : Char) (ps : List Part) : Str := o :: (commaJoin (ps.map Part.text) ++ [c])

/-- `..x` may only come first and `x..` only last. -/
def SetOk (ps : List Part) : Prop :=
  ps ≠ [] ∧ (∀ p ∈ ps.drop 1, p.isUpTo = false) ∧ (∀ p ∈ ps.dropLast, p.isOnFrom = false)

/-- An opening and a closing bracket; the code does not ask that they match. -/
def Brackets (o c : Char) : Prop := (o = '[' ∨ o = '{') ∧ (c = ']' ∨ c = '}')

instance (o c : Char) : Decidable (Brackets o c) := by unfold Brackets; infer_instance

/-- The flag of a set: `[` any of its members, `{` all of them. -/
def setFlag (o : Char) : Prec := if o = '[' then Prec.ANY else Prec.ALL

/-- Both boundaries flagged. -/
def flagged (p : Prec) (r : DateRange) : DateRange :=
  { r with lower := r.lower.map (fun b => { b with inclusivity := p }), upper := r.upper.map (fun b => { b with inclusivity := p }) }

/-- First and last second of a date. -/
def firstSecond (f : Int → Nat → Nat → Int) (x : Date0) : Int := 86400 * f x.value x.first.1 x.first.2
def lastSecond (f : Int → Nat → Nat → Int) (x : Date0) : Int := 86400 * f x.value x.last.1 x.last.2 + 86399

/-- Written with the same components. -/
def Tail.same : Tail → Tail → Bool
  | .none, .none => true
  | .month _, .month _ => true
  | .day _ _, .day _ _ => true
  | _, _ => false

/-- All dates written in a set. -/
def members (ps : List Part) : List Date0 := ps.flatMap Part.dates

example : setText '[' ']' [.upTo ⟨false, 1667, .none⟩, .pair ⟨false, 1670, .month 1⟩ ⟨false, 1670, .month 3⟩] =
    c! "[..1667,1670-01..1670-03]" := by decide

/-! ### Groups of months -/

inductive Season where
  | spring
  | summer
  | fall
  | winter
  deriving DecidableEq, Repr

namespace Season

/-- The number of a season. -/
def code : Season → Nat
  | spring => 21
  | summer => 22
  | fall => 23
  | winter => 24

/-- Its name. -/
def word : Season → Str
  | spring => c! "spring"
  | summer => c! "summer"
  | fall => c! "fall"
  | winter => c! "winter"

/-- First and last month. -/
def firstMonth : Season → Nat
  | spring => 3
  | summer => 6
  | fall => 9
  | winter => 12

def lastMonth : Season → Nat
  | spring => 5
  | summer => 8
  | fall => 11
  | winter => 2

/-- Winter ends in the following year. -/
def lastYear (z : Season) (y : Int) : Int :=
  match z with
  | winter => y + 1
  | _ => y

end Season

/-- A day as a written date. -/
def dayOf (y : Int) (m d : Nat) : Date0 := ⟨decide (y < 0), y.natAbs, .day m d⟩

/-- The result for all days from month `m1` of year `y1` to month `m2` of year
`y2`: the first day is the start range and the last day the end range. -/
def monthsResult (f : Int → Nat → Nat → Int) (s : Str) (level : Int) (feature : Str) (y1 : Int) (m1 : Nat) (y2 : Int) (m2 : Nat) :
    EDTFDate :=
  { start := some ((dayOf y1 m1 1).range f (dayOf y1 m1 1).text 0 0 Prec.YEAR)
    stop := some ((dayOf y2 m2 (monthLen y2 m2)).range f (dayOf y2 m2 (monthLen y2 m2)).text 0 0 Prec.YEAR)
    edtf := s
    level := level
    feature := feature }

/-- The sub-year groupings of level 2: seasons of a hemisphere, quarters,
quadrimesters and semesters. -/
inductive Grouping where
  | north (z : Season)
  | south (z : Season)
  | quarter (k : Fin 4)
  | quadrimester (k : Fin 3)
  | semester (k : Fin 2)
  deriving DecidableEq, Repr

namespace Grouping

/-- The number, from the table in level2/sub_year_grouping.go:13-37. -/
def code : Grouping → Nat
  | north z => z.code + 4
  | south z => z.code + 8
  | quarter k => 33 + k
  | quadrimester k => 37 + k
  | semester k => 40 + k

/-- The season in the other hemisphere. -/
def opposite : Season → Season
  | .spring => .fall
  | .summer => .winter
  | .fall => .spring
  | .winter => .summer

def firstMonth : Grouping → Nat
  | north z => z.firstMonth
  | south z => (opposite z).firstMonth
  | quarter k => 3 * k + 1
  | quadrimester k => 4 * k + 1
  | semester k => 6 * k + 1

def lastMonth : Grouping → Nat
  | north z => z.lastMonth
  | south z => (opposite z).lastMonth
  | quarter k => 3 * k + 3
  | quadrimester k => 4 * k + 4
  | semester k => 6 * k + 6

/-- Runs from December to February. -/
def crosses : Grouping → Bool
  | north z => z == .winter
  | south z => z == .summer
  | _ => false

/-- The year of the last month. -/
def lastYear (g : Grouping) (y : Nat) : Nat := if g.crosses then y + 1 else y

/-- What the end range is written as: a day, or February of the next year. -/
def lastDate (g : Grouping) (y : Nat) : Date0 :=
  if g.crosses then ⟨false, y + 1, .month g.lastMonth⟩ else ⟨false, y, .day g.lastMonth (monthLen y g.lastMonth)⟩

end Grouping

example : (Grouping.south .summer).code = 30 ∧ (Grouping.south .summer).firstMonth = 12 ∧ (Grouping.quarter 1).firstMonth = 4 ∧
    (Grouping.semester 1).code = 41 ∧ (Grouping.quadrimester 2).lastMonth = 12 := by decide

/-- `w` is the word `v` (in small letters) in some capitalisation. -/
def Caseless (v w : Str) : Prop := w.length = v.length ∧ ∀ p ∈ v.zip w, p.2 = p.1 ∨ p.2 = Char.ofNat (p.1.toNat - 32)

instance (v w : Str) : Decidable (Caseless v w) := by unfold Caseless; infer_instance

example : Caseless (c! "spring") (c! "SpRing") := by decide

/-- `w` is the word `v` (in small letters) as Unicode case folding sees it: also
the long s counts as an s. -/
def Folded (v w : Str) : Prop :=
  w.length = v.length ∧ ∀ p ∈ v.zip w, p.2 = p.1 ∨ p.2 = Char.ofNat (p.1.toNat - 32) ∨ (p.1 = 's' ∧ p.2 = '\u017f')

instance (v w : Str) : Decidable (Folded v w) := by unfold Folded; infer_instance

/-- White space. -/
def Blank (s : Str) : Prop := ∀ c ∈ s, c = ' ' ∨ c = '\t' ∨ c = '\n' ∨ c = '\x0c' ∨ c = '\r'

instance (s : Str) : Decidable (Blank s) := by unfold Blank; infer_instance

/-! ### Dates with a time of day -/

/-- The zone written after a time of day: nothing, `Z`, `±hh` or `±hh:mm`. -/
inductive Zone
  | none
  | utc
  | hours (neg : Bool) (hh : Nat)
  | full (neg : Bool) (hh mm : Nat)
  deriving DecidableEq

namespace Zone

def sign (neg : Bool) : Char := if neg then '-' else '+'

def text : Zone → Str
  | none => []
  | utc => c! "Z"
  | hours neg hh => sign neg :: pad2 hh
  | full neg hh mm => sign neg :: (pad2 hh ++ ':' :: pad2 mm)

/-- Seconds by which the local reading is ahead of UTC. -/
def offset : Zone → Int
  | none => 0
  | utc => 0
  | hours neg hh => if neg then -(3600 * hh) else 3600 * hh
  | full neg hh mm => if neg then -(3600 * hh + 60 * mm) else 3600 * hh + 60 * mm

/-- Two digits each. -/
def shape : Zone → Prop
  | hours _ hh => hh < 100
  | full _ hh mm => hh < 100 ∧ mm < 100
  | _ => True

/-- The offsets the code admits.  ISO 8601 stops at 23:59. -/
def ok : Zone → Prop
  | hours _ hh => hh ≤ 24
  | full _ hh mm => hh ≤ 24 ∧ mm ≤ 60
  | _ => True

instance (z : Zone) : Decidable z.ok := by cases z <;> unfold ok <;> infer_instance

end Zone

/-- `YYYY-MM-DDThh:mm:ss` with a zone, or with `-YYYY`. -/
def clockText (neg : Bool) (y m d hh mi ss : Nat) (z : Zone) : Str :=
  (if neg then c! "-" else []) ++ (pad4 y ++ c! "-" ++ pad2 m ++ c! "-" ++ pad2 d ++ c! "T" ++ hmsText hh mi ss ++ z.text)

example : clockText true 44 3 15 12 0 0 (.full false 5 30) = c! "-0044-03-15T12:00:00+05:30" := by decide
example : (Zone.full true 3 30).offset = -12600 := by decide

/-- The result for an instant: both ranges are that one second, and no boundary
names a calendar day. -/
def instantResult (s : Str) (b : Date) : EDTFDate :=
  { start := some { edtf := [], lower := some b, upper := some b }
    stop := some { edtf := [], lower := some b, upper := some b }
    edtf := s
    level := 0
    feature := c! "Date and Time" }

/-! ### Decimal numerals -/

/-- The value of a list of digits, most significant first. -/
def value10 (ds : List Nat) : Nat := ds.foldl (fun acc d => 10 * acc + d) 0

/-- `s` is a decimal integer (optional sign, at least one digit) with value `n`. -/
def Decimal (s : Str) (n : Int) : Prop :=
  ∃ ds : List Nat, ds ≠ [] ∧ (∀ d ∈ ds, d < 10) ∧
    (((s = ds.map dig ∨ s = '+' :: ds.map dig) ∧ n = value10 ds) ∨ (s = '-' :: ds.map dig ∧ n = -(value10 ds : Int)))

example : Decimal (c! "-042") (-42) := ⟨[0, 4, 2], by decide, by decide, Or.inr (by decide)⟩

end EDTF.Spec
