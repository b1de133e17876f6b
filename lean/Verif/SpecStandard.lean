/-
The expressions of the EDTF specification of 4 February 2019
(/repo/docs/edtf-spec-20190204.pdf), feature by feature, and what they mean.  README.md:3
says that the package is compliant with Levels 0, 1 and 2 of it.  Written from that
document, not from the code.  Where the document can be read in two ways only the
expressions that it clearly has are taken up:

* years have four digits and no sign, but for the feature "Negative calendar year"
  (a year alone) and after a `Y`;
* qualifiers are all on the left or all on the right of the components;
* an interval has at most one open or unknown side;
* a number after `Y`, `E` or `S` has no leading zero.

The precision that the document gives to a date is not looked at here.
-/
import Verif.SpecDenote
import Verif.SpecFail
namespace EDTF.Spec

/-! ### Meanings -/

/-- One limit of a time span: none, not known, or a second, with the components that are
uncertain and approximate, and with the flag of a set. -/
inductive Limit where
  | opened
  | unknown
  | second (t : Int) (u a i : Prec)

/-- A boundary says this. -/
def Limit.Is : Limit → Date → Prop
  | .opened, b => b.isOpen = true ∧ b.unknown = false ∧ b.timestamp = none
  | .unknown, b => b.isOpen = false ∧ b.unknown = true ∧ b.timestamp = none
  | .second t u a i, b =>
      b.isOpen = false ∧ b.unknown = false ∧ b.timestamp = some t ∧ b.uncertain = u ∧ b.approximate = a ∧ b.inclusivity = i

/-- The record begins and ends at these limits. -/
def Honours (d : EDTFDate) (first last : Limit) : Prop :=
  ∃ S E lo up, d.start = some S ∧ d.stop = some E ∧ S.lower = some lo ∧ E.upper = some up ∧ first.Is lo ∧ last.Is up

/-- The record is all of the years from `v` to `w`. -/
def HonoursYears (f : Int → Nat → Nat → Int) (d : EDTFDate) (v w : Int) : Prop :=
  Honours d (.second (86400 * f v 1 1) 0 0 0) (.second (86400 * f w 12 31 + 86399) 0 0 0)

/-- `t1` and `t2` are the first second of the earliest reading of a date with unspecified
digits and the last second of the latest one. -/
def XDate.Bounds (f : Int → Nat → Nat → Int) (x : XDate) (t1 t2 : Int) : Prop :=
  (∃ y m d, x.Reads y m d ∧ t1 = 86400 * f y m d) ∧ (∃ y m d, x.Reads y m d ∧ t2 = 86400 * f y m d + 86399) ∧
  ∀ y m d, x.Reads y m d → t1 ≤ 86400 * f y m d ∧ 86400 * f y m d + 86399 ≤ t2

/-! ### Numbers -/

/-- A number without leading zeros. -/
def Number (ds : List Nat) : Prop := Digits ds ∧ ds.head? ≠ some 0

instance (ds : List Nat) : Decidable (Digits ds) := by unfold Digits; infer_instance
instance (ds : List Nat) : Decidable (Number ds) := by unfold Number; infer_instance

/-- The value of `ms E es`. -/
def expValue (neg : Bool) (ms es : List Nat) : Int :=
  if neg then -((value10 ms * 10 ^ value10 es : Nat) : Int) else ((value10 ms * 10 ^ value10 es : Nat) : Int)

/-- `j` digits of `n` are left when the first `k` are taken away. -/
def Rest (n k j : Nat) : Prop := (n < 10 ^ k ∧ j = 0) ∨ (10 ^ (k - 1) ≤ n / 10 ^ j ∧ n / 10 ^ j < 10 ^ k)

/-- A year before the letter S. -/
inductive SigBase where
  | four (n : Nat)
  | letter (neg : Bool) (ds : List Nat)
  | exponential (neg : Bool) (ms es : List Nat)

namespace SigBase

def ok : SigBase → Prop
  | four n => 1000 ≤ n ∧ n ≤ 9999
  | letter _ ds => Number ds ∧ 4 < ds.length
  | exponential _ ms es => Number ms ∧ Number es

def text : SigBase → Str
  | four n => pad4 n
  | letter neg ds => 'Y' :: signed neg (ds.map dig)
  | exponential neg ms es => 'Y' :: signed neg (ms.map dig ++ 'E' :: es.map dig)

def value : SigBase → Int
  | four n => n
  | letter neg ds => if neg then -(value10 ds : Int) else value10 ds
  | exponential neg ms es => expValue neg ms es

end SigBase

/-! ### Parts of expressions -/

/-- A side of an interval of Level 1. -/
inductive Edge where
  | opened
  | unknown
  | date (x : Date0) (q : Option Char)

namespace Edge

def text : Edge → Str
  | opened => c! ".."
  | unknown => []
  | date x q => x.text ++ q.toList

def ok : Edge → Prop
  | date x q => x.ok ∧ x.neg = false ∧ ∀ c, q = some c → c ∈ c! "?~%"
  | _ => True

def isDate : Edge → Bool
  | date _ _ => true
  | _ => false

end Edge

/-- All components of a date. -/
def Date0.components (x : Date0) : Prec :=
  match x.tail with
  | .none => Prec.YEAR
  | .month _ => Prec.YEAR ||| Prec.MONTH
  | .day _ _ => Prec.YEAR ||| Prec.MONTH ||| Prec.DAY

/-- The components marked by a qualifier at the end of the date. -/
def Date0.whole (x : Date0) (p : Char → Bool) (q : Option Char) : Prec := if q.any p then x.components else 0

/-- The earliest and the latest limit of a side. -/
def Edge.first (f : Int → Nat → Nat → Int) : Edge → Limit
  | .opened => .opened
  | .unknown => .unknown
  | .date x q => .second (firstSecond f x) (x.whole saysUncertain q) (x.whole saysApproximate q) 0
def Edge.last (f : Int → Nat → Nat → Int) : Edge → Limit
  | .opened => .opened
  | .unknown => .unknown
  | .date x q => .second (lastSecond f x) (x.whole saysUncertain q) (x.whole saysApproximate q) 0

/-- The five forms with unspecified digits of Level 1. -/
inductive FromRight : XDate → Prop
  | decade (n : Nat) (h : n < 1000) : FromRight ⟨false, [dig (n / 100), dig (n / 10 % 10), dig (n % 10), 'X'], .none⟩
  | century (n : Nat) (h : n < 100) : FromRight ⟨false, [dig (n / 10), dig (n % 10), 'X', 'X'], .none⟩
  | month (n : Nat) (h : n < 10000) : FromRight ⟨false, pad4 n, .month (c! "XX")⟩
  | day (n m : Nat) (h : n < 10000) (h1 : 1 ≤ m) (h2 : m ≤ 12) : FromRight ⟨false, pad4 n, .day (pad2 m) (c! "XX")⟩
  | both (n : Nat) (h : n < 10000) : FromRight ⟨false, pad4 n, .day (c! "XX") (c! "XX")⟩

/-- A qualifier to the right or to the left of a component, or none. -/
def toRight : Option Char → Deco
  | none => .none
  | some c => .right c
def toLeft : Option Char → Deco
  | none => .none
  | some c => .left c

/-- The earlier of two dates ends no later than the other.  (Dates without sign.) -/
def Date0.EndsBy (a b : Date0) : Prop :=
  a.year < b.year ∨ (a.year = b.year ∧ (a.last.1 < b.last.1 ∨ (a.last.1 = b.last.1 ∧ a.last.2 ≤ b.last.2)))

instance (a b : Date0) : Decidable (a.EndsBy b) := by unfold Date0.EndsBy; infer_instance

/-- A part of a set: dates that exist, around dots of the same precision and in order. -/
def Part.standard (p : Part) : Prop :=
  (∀ x ∈ p.dates, x.ok ∧ x.neg = false) ∧ (∀ a b, p = .pair a b → a.tail.same b.tail = true ∧ a.EndsBy b)

/-- The brackets of a set: of all members, or of one. -/
def openBracket (all : Bool) : Char := if all then '{' else '['
def closeBracket (all : Bool) : Char := if all then '}' else ']'

/-! ### Expressions -/

/-- The expressions of the standard. -/
inductive Term where
  -- Level 0
  | date (x : Date0)
  | time (y m d hh mi ss : Nat) (z : Zone)
  | interval (a b : Date0)
  -- Level 1
  | letter (neg : Bool) (ds : List Nat)
  | season (n : Nat) (z : Season)
  | qualified (x : Date0) (q : Char)
  | fromRight (x : XDate)
  | extended (l r : Edge)
  | negative (n : Nat)
  -- Level 2
  | exponential (neg : Bool) (ms es : List Nat)
  | significant (y : SigBase) (ks : List Nat)
  | grouping (n : Nat) (g : Grouping)
  | set (all : Bool) (ps : List Part)
  | group (x : Date0) (qy qm qd : Option Char)
  | individual (x : Date0) (qy qm qd : Option Char)
  | digits (x : XDate)
  | portions (a b : Endpoint)

/-- The features by their headings in the document: of Level 0 date, date and time, time
interval; of Level 1 letter-prefixed calendar year, seasons, qualification of a date
(complete), unspecified digit(s) from the right, extended interval, negative calendar year;
of Level 2 exponential year, significant digits, sub-year groupings, set representation,
group qualification, qualification of individual component, unspecified digit, interval. -/
inductive Feature where
  | date | dateAndTime | timeInterval
  | letterPrefixed | seasons | qualification | digitsFromRight | extendedInterval | negativeYear
  | exponentialYear | significantDigits | subYear | set | groupQualification | individualQualification | unspecifiedDigit | interval
  deriving DecidableEq

def Feature.level : Feature → Nat
  | .date | .dateAndTime | .timeInterval => 0
  | .letterPrefixed | .seasons | .qualification | .digitsFromRight | .extendedInterval | .negativeYear => 1
  | _ => 2

namespace Term

/-- The feature that the expression belongs to. -/
def feature : Term → Feature
  | date _ => .date
  | time .. => .dateAndTime
  | interval .. => .timeInterval
  | letter .. => .letterPrefixed
  | season .. => .seasons
  | qualified .. => .qualification
  | fromRight _ => .digitsFromRight
  | extended .. => .extendedInterval
  | negative _ => .negativeYear
  | exponential .. => .exponentialYear
  | significant .. => .significantDigits
  | grouping .. => .subYear
  | set .. => .set
  | group .. => .groupQualification
  | individual .. => .individualQualification
  | digits _ => .unspecifiedDigit
  | portions .. => .interval

/-- As written. -/
def text : Term → Str
  | date x => x.text
  | time y m d hh mi ss z => clockText false y m d hh mi ss z
  | interval a b => a.text ++ '/' :: b.text
  | letter neg ds => 'Y' :: signed neg (ds.map dig)
  | season n z => pad4 n ++ '-' :: pad2 z.code
  | qualified x q => x.text ++ [q]
  | fromRight x => x.text
  | extended l r => l.text ++ '/' :: r.text
  | negative n => '-' :: pad4 n
  | exponential neg ms es => 'Y' :: signed neg (ms.map dig ++ 'E' :: es.map dig)
  | significant y ks => y.text ++ 'S' :: ks.map dig
  | grouping n g => pad4 n ++ '-' :: pad2 g.code
  | set all ps => setText (openBracket all) (closeBracket all) ps
  | group x qy qm qd => x.qtext (toRight qy) (toRight qm) (toRight qd)
  | individual x qy qm qd => x.qtext (toLeft qy) (toLeft qm) (toLeft qd)
  | digits x => x.text
  | portions a b => a.text ++ '/' :: b.text

/-- Belongs to the standard. -/
def ok : Term → Prop
  | date x => x.ok ∧ x.neg = false
  | time y m d hh mi ss z => y < 10000 ∧ Valid y m d ∧ hh < 24 ∧ mi < 60 ∧ ss < 60 ∧
      (match z with | .hours _ a => a < 24 | .full _ a b => a < 24 ∧ b < 60 | _ => True)
  | interval a b => a.ok ∧ a.neg = false ∧ b.ok ∧ b.neg = false
  -- "when (and only when) the year exceeds four digits"
  | letter _ ds => Number ds ∧ 4 < ds.length
  | season n _ => n < 10000
  | qualified x q => x.ok ∧ x.neg = false ∧ q ∈ c! "?~%"
  | fromRight x => FromRight x
  | extended l r => l.ok ∧ r.ok ∧ (l.isDate = true ∨ r.isDate = true)
  | negative n => 1 ≤ n ∧ n < 10000
  | exponential _ ms es => Number ms ∧ Number es
  | significant y ks => y.ok ∧ Number ks
  | grouping n _ => n < 10000
  | set _ ps => SetOk ps ∧ ∀ p ∈ ps, p.standard
  | group x qy qm qd => x.ok ∧ x.neg = false ∧ x.qOk (toRight qy) (toRight qm) (toRight qd) ∧ (qy, qm, qd) ≠ (none, none, none)
  | individual x qy qm qd => x.ok ∧ x.neg = false ∧ x.qOk (toLeft qy) (toLeft qm) (toLeft qd) ∧ (qy, qm, qd) ≠ (none, none, none)
  | digits x => x.ok ∧ x.neg = false ∧ 'X' ∈ x.text ∧ ∃ y m d, x.Reads y m d
  | portions a b => (a.shape ∧ a.date.neg = false ∧ ∃ y m d, a.date.Reads y m d) ∧ (b.shape ∧ b.date.neg = false ∧ ∃ y m d, b.date.Reads y m d) ∧
      ∀ e ∈ [a, b], noLeft e.qy e.qm e.qd ∨ noRight e.qy e.qm e.qd

/-- The record means what the standard says.  The standard does not say which months are
a season, so that nothing is asked of the record of one. -/
def Honoured (f : Int → Nat → Nat → Int) : Term → EDTFDate → Prop
  | date x, r => Honours r (.second (firstSecond f x) 0 0 0) (.second (lastSecond f x) 0 0 0)
  | time y m d hh mi ss z, r =>
      Honours r (.second (86400 * f y m d + (3600 * hh + 60 * mi + ss) - z.offset) 0 0 0)
        (.second (86400 * f y m d + (3600 * hh + 60 * mi + ss) - z.offset) 0 0 0)
  | interval a b, r => Honours r (.second (firstSecond f a) 0 0 0) (.second (lastSecond f b) 0 0 0)
  | letter neg ds, r =>
      HonoursYears f r (if neg then -(value10 ds : Int) else value10 ds) (if neg then -(value10 ds : Int) else value10 ds)
  | season _ _, _ => True
  | qualified x q, r =>
      Honours r (.second (firstSecond f x) (x.whole saysUncertain (some q)) (x.whole saysApproximate (some q)) 0)
        (.second (lastSecond f x) (x.whole saysUncertain (some q)) (x.whole saysApproximate (some q)) 0)
  | fromRight x, r => ∃ t1 t2, x.Bounds f t1 t2 ∧ Honours r (.second t1 0 0 0) (.second t2 0 0 0)
  | extended a b, r => Honours r (a.first f) (b.last f)
  | negative n, r => HonoursYears f r (-n) (-n)
  | exponential neg ms es, r => HonoursYears f r (expValue neg ms es) (expValue neg ms es)
  -- the years with the same first digits
  | significant y ks, r =>
      ∃ j, Rest y.value.natAbs (value10 ks) j ∧
        if y.value < 0 then
          HonoursYears f r (-((y.value.natAbs / 10 ^ j * 10 ^ j + (10 ^ j - 1) : Nat) : Int)) (-((y.value.natAbs / 10 ^ j * 10 ^ j : Nat) : Int))
        else
          HonoursYears f r ((y.value.natAbs / 10 ^ j * 10 ^ j : Nat) : Int) ((y.value.natAbs / 10 ^ j * 10 ^ j + (10 ^ j - 1) : Nat) : Int)
  | grouping _ (.north _), _ => True
  | grouping _ (.south _), _ => True
  | grouping n g, r =>
      Honours r (.second (86400 * f n g.firstMonth 1) 0 0 0) (.second (86400 * f n g.lastMonth (monthLen n g.lastMonth) + 86399) 0 0 0)
  | set all ps, r =>
      ∃ t1 t2, (∃ x ∈ members ps, t1 = firstSecond f x) ∧ (∃ x ∈ members ps, t2 = lastSecond f x) ∧
        (∀ x ∈ members ps, t1 ≤ firstSecond f x ∧ lastSecond f x ≤ t2) ∧
        Honours r (if ps.any Part.isUpTo then .opened else .second t1 0 0 (if all then Prec.ALL else Prec.ANY))
          (if ps.any Part.isOnFrom then .opened else .second t2 0 0 (if all then Prec.ALL else Prec.ANY))
  | group x qy qm qd, r =>
      Honours r (.second (firstSecond f x) (marked saysUncertain (toRight qy) (toRight qm) (toRight qd)) (marked saysApproximate (toRight qy) (toRight qm) (toRight qd)) 0)
        (.second (lastSecond f x) (marked saysUncertain (toRight qy) (toRight qm) (toRight qd)) (marked saysApproximate (toRight qy) (toRight qm) (toRight qd)) 0)
  | individual x qy qm qd, r =>
      Honours r (.second (firstSecond f x) (marked saysUncertain (toLeft qy) (toLeft qm) (toLeft qd)) (marked saysApproximate (toLeft qy) (toLeft qm) (toLeft qd)) 0)
        (.second (lastSecond f x) (marked saysUncertain (toLeft qy) (toLeft qm) (toLeft qd)) (marked saysApproximate (toLeft qy) (toLeft qm) (toLeft qd)) 0)
  | digits x, r => ∃ t1 t2, x.Bounds f t1 t2 ∧ Honours r (.second t1 0 0 0) (.second t2 0 0 0)
  | portions a b, r =>
      ∃ t1 t2 t3 t4, a.date.Bounds f t1 t2 ∧ b.date.Bounds f t3 t4 ∧
        Honours r (.second t1 (marked saysUncertain a.qy a.qm a.qd) (marked saysApproximate a.qy a.qm a.qd) 0)
          (.second t4 (marked saysUncertain b.qy b.qm b.qd) (marked saysApproximate b.qy b.qm b.qd) 0)

end Term

/-! ### What the package supports -/

/-- The places of unspecified digits that are understood: in the year the last digit but
not the first, in the month both or the second after a 1, in the day both or the second
after 1, 2 or 3.  A day 29 or 2X of February needs a leap year without unspecified
digits. -/
def XDate.Understood (x : XDate) : Prop :=
  ('X' ∈ x.year → x.year.head? ≠ some 'X' ∧ x.year.getLast? = some 'X') ∧
  ('X' ∈ x.mx → x.mx = c! "XX" ∨ x.mx = c! "1X") ∧
  ('X' ∈ x.dx → x.dx = c! "XX" ∨ x.dx = c! "1X" ∨ x.dx = c! "2X" ∨ x.dx = c! "3X") ∧
  (x.mx = c! "02" → (x.dx = c! "29" ∨ x.dx = c! "2X") → 'X' ∉ x.year ∧ ∀ n < 10000, x.year = pad4 n → Leap n)

/-- Year and month are in digits, and the day may be the first and may be the last one. -/
def XDate.AnyDay (x : XDate) : Prop :=
  x.dx = c! "XX" ∨ (x.dx = c! "X1" ∧ x.mx ∉ [c! "02", c! "04", c! "06", c! "09", c! "11"])

namespace Term

/-- The expressions that are read as the standard says. -/
def Supported : Term → Prop
  | date _ | time .. | interval .. => True
  | letter .. => False
  | season n z => z = .winter → n ≠ 9999
  | qualified x _ => x.tail = .none
  | fromRight _ => True
  -- no qualifiers, and an open or unknown end only after a year
  | extended (.date x q) (.date y q') => q = none ∧ q' = none
  | extended (.date x q) _ => q = none ∧ x.tail = .none
  | extended _ (.date _ q) => q = none
  | extended _ _ => False
  | negative _ => True
  | exponential neg ms es => 1000 ≤ (expValue neg ms es).natAbs ∧ (expValue neg ms es).natAbs ≤ 9999
  -- the last digits are dropped instead of the first ones kept
  | significant y ks => 1000 ≤ y.value.natAbs ∧ y.value.natAbs ≤ 9999 ∧ value10 ks = 2
  | grouping n g => g.crosses = true → 999 ≤ n ∧ n ≤ 9998
  -- not open at both ends, and the greatest text ends last
  | set _ ps => ps.any Part.isOnFrom = true ∧ ps.any Part.isUpTo = false ∨
      ps.any Part.isOnFrom = false ∧ ∀ b ∈ members ps, (∀ x ∈ members ps, TextLe x.text b.text) → ∀ x ∈ members ps, x.EndsBy b
  -- not at the end of a month or of a day alone
  | group x qy qm _ => x.tail = .none ∨ x.early (toRight qy) (toRight qm)
  | individual .. => True
  | digits x => if 'X' ∈ x.year ∨ 'X' ∈ x.mx then x.Understood else x.AnyDay
  | portions a b => (noRight a.qy a.qm a.qd ∧ a.date.Understood) ∧ (noRight b.qy b.qm b.qd ∧ b.date.Understood)

/-- The expressions that are read at all. -/
def Taken : Term → Prop
  | date _ | time .. | interval .. => True
  | letter .. => False
  | season n z => z = .winter → n ≠ 9999
  | qualified .. => True
  | fromRight _ => True
  | extended (.date _ q) (.date _ q') => q = none ∧ q' = none
  | extended (.date _ q) _ => q = none
  | extended _ (.date _ q) => q = none
  | extended _ _ => False
  | negative _ => True
  | exponential neg ms es => ∃ v, ExpYear neg ms es v ∧ 1000 ≤ v.natAbs
  | significant (.four _) ks => value10 ks ≤ 4
  | significant (.letter ..) _ => False
  | significant (.exponential neg ms es) ks => ∃ v, ExpYear neg ms es v ∧ SigFits v (value10 ks)
  | grouping n g => g.crosses = true → 999 ≤ n ∧ n ≤ 9998
  | set .. => True
  | group .. => True
  | individual .. => True
  | digits x => 'X' ∈ x.year ∨ 'X' ∈ x.mx → x.Readable
  | portions a b => (noRight a.qy a.qm a.qd ∧ a.date.Readable) ∧ (noRight b.qy b.qm b.qd ∧ b.date.Readable)

/-- The expressions that make the program panic: an exponent for which the floating-point
number is infinite, and more significant digits than the year has. -/
def Crashes : Term → Prop
  | exponential _ ms es => ¬ TooLarge ms es ∧ Overflows ms es
  | significant (.four _) ks => 4 < value10 ks ∧ value10 ks < 10000
  | significant (.exponential neg ms es) ks => (¬ TooLarge ms es ∧ Overflows ms es) ∨
      ∃ v u, ExpReads neg ms es v ∧ Numeral v u ∧ u.length < value10 ks ∧ value10 ks < 10 ^ u.length
  | _ => False

end Term
end EDTF.Spec
