/-
Go's time package, as far as go-edtf uses it: the proleptic Gregorian calendar
in UTC, time.Parse for the layouts that occur, Time.AddDate, Format(RFC3339).
A `time.Time` (in UTC, whole seconds) is its Unix time, an `Int`.
-/
import Verif.GoStr
namespace EDTF

/-- time: isLeap -/
def isLeap (y : Int) : Bool := y % 4 == 0 && (y % 100 != 0 || y % 400 == 0)

/-- time: daysIn(month, year); 0 outside 1..12. -/
def daysIn (m y : Int) : Int :=
  if m = 1 then 31 else if m = 2 then (if isLeap y then 29 else 28) else if m = 3 then 31
  else if m = 4 then 30 else if m = 5 then 31 else if m = 6 then 30 else if m = 7 then 31
  else if m = 8 then 31 else if m = 9 then 30 else if m = 10 then 31 else if m = 11 then 30
  else if m = 12 then 31 else 0

/-- time: daysBefore[m-1], plus one from March on in a leap year. -/
def daysBefore (m y : Int) : Int :=
  let l : Int := if isLeap y then 1 else 0
  if m = 1 then 0 else if m = 2 then 31 else if m = 3 then 59 + l else if m = 4 then 90 + l
  else if m = 5 then 120 + l else if m = 6 then 151 + l else if m = 7 then 181 + l
  else if m = 8 then 212 + l else if m = 9 then 243 + l else if m = 10 then 273 + l
  else if m = 11 then 304 + l else 334 + l

/-- Days from 0001-01-01 to the first day of year `y`. -/
def daysBeforeYear (y : Int) : Int :=
  365 * (y - 1) + (y - 1) / 4 - (y - 1) / 100 + (y - 1) / 400

/-- Days from 1970-01-01 to the given date; the day may lie outside the month
(it is then counted on), the month must be 1..12. -/
def unixDay (y m d : Int) : Int := daysBeforeYear y + daysBefore m y + (d - 1) - 719162

/-- time.Date(y, m, d, hh, mi, ss, 0, time.UTC) for 1 ≤ m ≤ 12. -/
def goDate (y m d hh mi ss : Int) : Int := unixDay y m d * 86400 + hh * 3600 + mi * 60 + ss

/-- Month and day from the zero-based day of the year. -/
def monthDay (y yday : Int) : Int × Int :=
  let l : Int := if isLeap y then 1 else 0
  if yday < 31 then (1, yday + 1)
  else if yday < 59 + l then (2, yday - 31 + 1)
  else if yday < 90 + l then (3, yday - (59 + l) + 1)
  else if yday < 120 + l then (4, yday - (90 + l) + 1)
  else if yday < 151 + l then (5, yday - (120 + l) + 1)
  else if yday < 181 + l then (6, yday - (151 + l) + 1)
  else if yday < 212 + l then (7, yday - (181 + l) + 1)
  else if yday < 243 + l then (8, yday - (212 + l) + 1)
  else if yday < 273 + l then (9, yday - (243 + l) + 1)
  else if yday < 304 + l then (10, yday - (273 + l) + 1)
  else if yday < 334 + l then (11, yday - (304 + l) + 1)
  else (12, yday - (334 + l) + 1)

/-- Year and zero-based day of the year of the day `z` days after 1970-01-01:
time.absDate's cycles of 400, 100, 4 and 1 years. -/
def yearYday (z : Int) : Int × Int :=
  let d := z + 719162
  let n400 := d / 146097
  let d := d - 146097 * n400
  let n100 := d / 36524
  let n100 := n100 - n100 / 4
  let d := d - 36524 * n100
  let n4 := d / 1461
  let d := d - 1461 * n4
  let n := d / 365
  let n := n - n / 4
  let d := d - 365 * n
  (400 * n400 + 100 * n100 + 4 * n4 + n + 1, d)

/-- Year, month, day of the day `z` days after 1970-01-01. -/
def civil (z : Int) : Int × Int × Int :=
  let (y, yd) := yearYday z
  (y, monthDay y yd)

/-- Time.Year -/
def timeYear (t : Int) : Int := (civil (t / 86400)).1
/-- Time.Month -/
def timeMonth (t : Int) : Int := (civil (t / 86400)).2.1
/-- Time.Day -/
def timeDay (t : Int) : Int := (civil (t / 86400)).2.2
/-- Seconds since midnight (Time.Clock). -/
def timeOfDay (t : Int) : Int := t % 86400

/-- Time.AddDate(years, 0, days): go-edtf never passes months. -/
def addDate (t : Int) (years days : Int) : Int :=
  unixDay (timeYear t + years) (timeMonth t) (timeDay t + days) * 86400 + timeOfDay t

/-! ### time.Parse -/

/-- The layout elements that occur in go-edtf's layouts. -/
inductive Tok where
  | lit (c : Char)
  | year4
  | mon2
  | day2
  | hour2
  | min2
  | sec2
  | tzColon
  | tzShort
  deriving DecidableEq, Repr

/-- Fields collected by time.Parse. -/
structure Fields where
  year : Int := 0
  month : Int := 0
  day : Int := 0
  hour : Int := 0
  min : Int := 0
  sec : Int := 0
  offset : Int := 0
  deriving DecidableEq, Repr

/-- time: getnum(s, fixed) -/
def getnum (fixed : Bool) : Str → Option (Int × Str)
  | a :: b :: rest =>
    if !isDig a then none
    else if !isDig b then (if fixed then none else some ((digVal a : Int), b :: rest))
    else some ((digVal a : Int) * 10 + digVal b, rest)
  | [a] => if isDig a && !fixed then some ((digVal a : Int), []) else none
  | [] => none

/-- The offset `±hh:mm` from its sign and digits; hr > 24 and mm > 60 are
range errors (time.Parse since Go 1.20). -/
def zoneOffset (sign h1 h2 m1 m2 : Char) : Option Int :=
  match getnum true [h1, h2], getnum true [m1, m2] with
  | some (hr, _), some (mm, _) =>
    if hr > 24 ∨ mm > 60 then none
    else if sign = '+' then some ((hr * 60 + mm) * 60)
    else if sign = '-' then some (-((hr * 60 + mm) * 60))
    else none
  | _, _ => none

/-- time.Parse reads a fraction of a second after the seconds although the
layout has none: a `.` or (since Go 1.17) a `,` and at least one digit.  Only
whole seconds are modelled, so the fraction is dropped; every use of the result
in go-edtf is by whole seconds or days. -/
def dropFraction : Str → Str
  | c :: d :: rest => if (c = '.' ∨ c = ',') ∧ isDig d = true then rest.dropWhile isDig else c :: d :: rest
  | s => s

/-- One layout element of time.Parse. -/
def parseTok (t : Tok) (f : Fields) (s : Str) : Option (Fields × Str) :=
  match t with
  | .lit c => match s with
    | x :: rest => if x = c then some (f, rest) else none
    | [] => none
  | .year4 => match s with
    | a :: b :: c :: d :: rest =>
      if isDig a && isDig b && isDig c && isDig d then
        some ({ f with year := (digitsVal [a, b, c, d] : Nat) }, rest)
      else none
    | _ => none
  | .mon2 => match getnum true s with
    | some (n, rest) => if n ≤ 0 ∨ 12 < n then none else some ({ f with month := n }, rest)
    | none => none
  | .day2 => match getnum true s with
    | some (n, rest) => some ({ f with day := n }, rest)
    | none => none
  | .hour2 => match getnum false s with
    | some (n, rest) => if n < 0 ∨ 24 ≤ n then none else some ({ f with hour := n }, rest)
    | none => none
  | .min2 => match getnum true s with
    | some (n, rest) => if n < 0 ∨ 60 ≤ n then none else some ({ f with min := n }, rest)
    | none => none
  | .sec2 => match getnum true s with
    | some (n, rest) => if n < 0 ∨ 60 ≤ n then none else some ({ f with sec := n }, dropFraction rest)
    | none => none
  | .tzColon => match s with
    | sg :: h1 :: h2 :: c :: m1 :: m2 :: rest =>
      if c = ':' then (zoneOffset sg h1 h2 m1 m2).map (fun o => ({ f with offset := o }, rest))
      else none
    | _ => none
  | .tzShort => match s with
    | sg :: h1 :: h2 :: rest => (zoneOffset sg h1 h2 '0' '0').map (fun o => ({ f with offset := o }, rest))
    | _ => none

def parseToks : List Tok → Fields → Str → Option Fields
  | [], f, s => if s.isEmpty then some f else none
  | t :: ts, f, s =>
    match parseTok t f s with
    | some (f', rest) => parseToks ts f' rest
    | none => none

/-- time.Parse(layout, s): Unix time of the result. -/
def timeParse (layout : List Tok) (s : Str) : Option Int :=
  match parseToks layout {} s with
  | some f =>
    if f.day < 1 ∨ f.day > daysIn f.month f.year then none
    else some (goDate f.year f.month f.day f.hour f.min f.sec - f.offset)
  | none => none

/-- "2006-01-02" -/
def layoutDate : List Tok := [.year4, .lit '-', .mon2, .lit '-', .day2]
/-- "2006-01-02T15:04:05" -/
def layoutDateTime : List Tok :=
  layoutDate ++ [.lit 'T', .hour2, .lit ':', .min2, .lit ':', .sec2]

/-! ### Format(time.RFC3339) -/

/-- time: appendInt(x, 4) — a sign does not count towards the width. -/
def fmtYear (y : Int) : Str :=
  if y < 0 then '-' :: zeroPad 4 (natDigits y.natAbs) else zeroPad 4 (natDigits y.natAbs)

def fmt2 (n : Int) : Str := zeroPad 2 (natDigits n.natAbs)

/-- Time.Format(time.RFC3339) of a UTC time. -/
def formatRFC3339 (t : Int) : Str :=
  fmtYear (timeYear t) ++ c! "-" ++ fmt2 (timeMonth t) ++ c! "-" ++ fmt2 (timeDay t) ++ c! "T" ++
  fmt2 (timeOfDay t / 3600) ++ c! ":" ++ fmt2 (timeOfDay t / 60 % 60) ++ c! ":" ++
  fmt2 (timeOfDay t % 60) ++ c! "Z"

end EDTF
