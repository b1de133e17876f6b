/-
The same code once more with the texts of its errors.  A function `f` of the other model
files that can return a plain error has here a twin `fM` that gives the text with it;
functions that return none are used as they are.  `Told.forget` drops the texts again,
and `PropsMessage` proves that each twin then is the function it repeats.
-/
import Verif.Parser
import Verif.Text
import Verif.Printable
namespace EDTF

/-- An error with its text, `err.Error()`. -/
structure Fault where
  err : Err
  text : Str
  deriving DecidableEq, Repr

/-- One of the error types of errors.go, whose text is made of its label and string. -/
@[reducible] def Fault.known (e : Err) : Fault := ⟨e, e.text.getD []⟩

/-- A plain error. -/
@[reducible] def Fault.says (text : Str) : Fault := ⟨.plain, text⟩

/-- Outcome of a call, with the text of the error. -/
inductive Told (α : Type) where
  | ok (a : α)
  | fault (f : Fault)
  | panic
  deriving DecidableEq, Repr

namespace Told

/-- As `Res.bind`. -/
@[reducible] def bind {α β : Type} (x : Told α) (f : α → Told β) : Told β :=
  match x with
  | ok a => f a
  | fault e => fault e
  | panic => panic

instance : Monad Told where
  pure := ok
  bind := bind

/-- The outcome without the text. -/
def forget {α : Type} : Told α → Res α
  | ok a => .ok a
  | fault f => .err f.err
  | panic => .panic

/-- The outcome of a function that returns no plain error. -/
def lift {α : Type} : Res α → Told α
  | .ok a => ok a
  | .err e => fault (.known e)
  | .panic => panic

/-- A plain error. -/
@[reducible] def says {α : Type} (text : Str) : Told α := fault (.says text)

end Told

/-! ### Texts of the standard library -/

/-- A byte as two hexadecimal digits, in small letters. -/
def hexByte (b : UInt8) : Str :=
  let d (n : Nat) : Char := (c! "0123456789abcdef").getD n '0'
  [d (b.toNat / 16), d (b.toNat % 16)]

/-- time: quote (format.go). -/
def quoteText (s : Str) : Str :=
  c! "\"" ++ s.flatMap (fun c =>
    if c = '"' ∨ c = '\\' then ['\\', c]
    else if 32 ≤ c.toNat ∧ c.toNat < 128 then [c]
    else (String.utf8EncodeChar c).flatMap (fun b => c! "\\x" ++ hexByte b)) ++ c! "\""

/-- A character in strconv.Quote.  Outside of ASCII those that are not printable are written as
numbers, as U+0085 is as `\u0085`. -/
def escapeGo (c : Char) : Str :=
  if c = '"' ∨ c = '\\' then ['\\', c]
  else if c.toNat = 7 then c! "\\a"
  else if c.toNat = 8 then c! "\\b"
  else if c.toNat = 9 then c! "\\t"
  else if c.toNat = 10 then c! "\\n"
  else if c.toNat = 11 then c! "\\v"
  else if c.toNat = 12 then c! "\\f"
  else if c.toNat = 13 then c! "\\r"
  else if c.toNat < 32 ∨ c.toNat = 127 then c! "\\x" ++ hexByte c.toNat.toUInt8
  else if c.toNat < 127 ∨ isPrint c then [c]
  else if c.toNat < 0x10000 then c! "\\u" ++ hexByte (c.toNat / 256).toUInt8 ++ hexByte (c.toNat % 256).toUInt8
  else c! "\\U" ++ hexByte (c.toNat / 256 / 256 / 256).toUInt8 ++ hexByte (c.toNat / 256 / 256 % 256).toUInt8 ++ hexByte (c.toNat / 256 % 256).toUInt8 ++
    hexByte (c.toNat % 256).toUInt8

/-- strconv.Quote, which the errors of strconv use. -/
def quoteGo (s : Str) : Str := c! "\"" ++ s.flatMap escapeGo ++ c! "\""

/-- The message of strconv for a text that is no number of the size wanted.  The digits are
read from the left, so that a number too large without its sign is found before a character
that is no digit. -/
def numMessage (bits : Nat) (s : Str) : Str :=
  let ds := match s with
    | '-' :: ds => ds
    | '+' :: ds => ds
    | ds => ds
  if digitsVal (ds.takeWhile isDig) < 2 ^ bits && (ds.isEmpty || !ds.all isDig) then c! "invalid syntax" else c! "value out of range"

/-- strconv: NumError.Error; the function is "Atoi" or "ParseInt". -/
def numError (fn : Str) (bits : Nat) (s : Str) : Str :=
  c! "strconv." ++ fn ++ c! ": parsing " ++ quoteGo s ++ c! ": " ++ numMessage bits s

/-- strconv.ParseInt(s, 10, bits) -/
def parseIntM (bits : Nat) (s : Str) : Told Int :=
  match parseInt bits s with
  | some v => .ok v
  | none => .says (numError (c! "ParseInt") bits s)

/-- strconv.Atoi -/
def atoiM (s : Str) : Told Int :=
  match atoi s with
  | some v => .ok v
  | none => .says (numError (c! "Atoi") 64 s)

/-- The text of an element in a layout of package time. -/
def Tok.text : Tok → Str
  | .lit c => [c]
  | .year4 => c! "2006"
  | .mon2 => c! "01"
  | .day2 => c! "02"
  | .hour2 => c! "15"
  | .min2 => c! "04"
  | .sec2 => c! "05"
  | .tzColon => c! "-07:00"
  | .tzShort => c! "-07"

/-- How time.Parse fails: at an element of the layout, with what was left to read; or with
a message of its own. -/
inductive TimeFault where
  | bad (elem value : Str)
  | message (m : Str)
  deriving DecidableEq, Repr

/-- time: ParseError.Error -/
def timeError (layout : List Tok) (value : Str) : TimeFault → Str
  | .bad elem rest =>
    c! "parsing time " ++ quoteText value ++ c! " as " ++ quoteText (layout.flatMap Tok.text) ++ c! ": cannot parse " ++ quoteText rest ++ c! " as " ++ quoteText elem
  | .message m => c! "parsing time " ++ quoteText value ++ m

/-- The message for a value out of range. -/
def outOfRange (what : Str) : TimeFault := .message (c! ": " ++ what ++ c! " out of range")

/-- What is wrong with an offset from UTC `±hh:mm`: minutes above 60 come before hours
above 24, and both before anything else. -/
def zoneFault (elem value : Str) (h1 h2 m1 m2 : Char) : TimeFault :=
  match getnum true [h1, h2], getnum true [m1, m2] with
  | some (hr, _), some (mm, _) =>
    if mm > 60 then outOfRange (c! "time zone offset minute")
    else if hr > 24 then outOfRange (c! "time zone offset hour")
    else .bad elem value
  | some (hr, _), none => if hr > 24 then outOfRange (c! "time zone offset hour") else .bad elem value
  | none, _ => .bad elem value

/-- What is wrong at an element of the layout that `parseTok` cannot read.  (The text of
a literal is a single character in every layout used.) -/
def tokFault (t : Tok) (s : Str) : TimeFault :=
  match t with
  | .mon2 => if (getnum true s).isSome then outOfRange (c! "month") else .bad t.text s
  | .hour2 => if (getnum false s).isSome then outOfRange (c! "hour") else .bad t.text s
  | .min2 => if (getnum true s).isSome then outOfRange (c! "minute") else .bad t.text s
  | .sec2 => if (getnum true s).isSome then outOfRange (c! "second") else .bad t.text s
  | .tzColon => match s with
    | _ :: h1 :: h2 :: c :: m1 :: m2 :: _ => if c = ':' then zoneFault t.text s h1 h2 m1 m2 else .bad t.text s
    | _ => .bad t.text s
  | .tzShort => match s with
    | _ :: h1 :: h2 :: _ => zoneFault t.text s h1 h2 '0' '0'
    | _ => .bad t.text s
  | _ => .bad t.text s

/-- The elements of a layout one after the other. -/
def parseToksM : List Tok → Fields → Str → Fields ⊕ TimeFault
  | [], f, s => if s.isEmpty then .inl f else .inr (.message (c! ": extra text: " ++ quoteText s))
  | t :: ts, f, s =>
    match parseTok t f s with
    | some (f', rest) => parseToksM ts f' rest
    | none => .inr (tokFault t s)

/-- time.Parse(layout, s) -/
def timeParseM (layout : List Tok) (s : Str) : Told Int :=
  match parseToksM layout {} s with
  | .inl f =>
    if f.day < 1 ∨ f.day > daysIn f.month f.year then .says (timeError layout s (outOfRange (c! "day")))
    else .ok (goDate f.year f.month f.day f.hour f.min f.sec - f.offset)
  | .inr e => .says (timeError layout s e)

/-! ### The shared code -/

/-- calendar/calendar.go:47-74 -/
def daysInMonthM (yyyy mm : Int) : Told Int := do
  let yyyy := if yyyy < 0 then wrap64 (yyyy - wrap64 (yyyy * 2)) else yyyy
  let next_mm := if mm ≥ 12 then 1 else mm + 1
  let next_ymd := padInt 4 yyyy ++ c! "-" ++ padInt 2 next_mm ++ c! "-01"
  let next_t ← timeParseM layoutDate next_ymd
  .ok (timeDay (addDate next_t 0 (-1)))

/-- calendar/calendar.go:13-44 -/
def daysInMonthWithStringM (yyyymm : Str) : Told Int :=
  let go (str_yyyy str_mm : Str) : Told Int := do
    let yyyy ← atoiM str_yyyy
    let mm ← atoiM str_mm
    daysInMonthM yyyy mm
  match splitChar '-' yyyymm with
  | [_, b, c] => go ('-' :: b) c
  | [a, b] => go a b
  | _ => .says (c! "Invalid YYYYMM string")

/-- common/ymd.go:76-99 -/
def atoiOrZeroM (s : Str) : Told Int := if s ≠ [] then atoiM s else .ok 0

/-- common/ymd.go:44-153 -/
def ymdFromStringsM (str_yyyy str_mm str_dd : Str) : Told YMD :=
  if str_yyyy = [] then .says (c! "Missing year")
  else if str_mm = [] ∧ str_dd ≠ [] then .says (c! "Missing month")
  else do
    let yyyy ← atoiM str_yyyy
    let is_bce : Bool := yyyy < 0
    let yyyy := if is_bce then flipYear yyyy else yyyy
    let mm ← atoiOrZeroM str_mm
    let dd ← atoiOrZeroM str_dd
    if yyyy > MAX_YEARS then .fault (.known (Unsupported (c! "year") (itoa yyyy)))
    else if mm = 0 ∧ dd ≠ 0 then .says (c! "Missing month")
    else if mm > 12 then .says (c! "Invalid month")
    else do
      let mm := if mm = 0 then 1 else mm
      let days ← daysInMonthM yyyy mm
      if dd ≠ 0 ∧ dd > days then .says (c! "Invalid days for month")
      else
        let dd := if dd = 0 then days else dd
        let yyyy := if is_bce then flipYear yyyy else yyyy
        .ok ⟨yyyy, mm, dd⟩

/-- common/ymd.go:15-42 -/
def ymdFromStringM (str_ymd : Str) : Told YMD :=
  match splitChar '-' str_ymd with
  | [_, b, c, d] => ymdFromStringsM ('-' :: b) c d
  | [a, b, c] => ymdFromStringsM a b c
  | [a, b] => ymdFromStringsM a b []
  | [a] => ymdFromStringsM a [] []
  | _ => .says (c! "Invalid YMD string")

/-- common/time.go:20-56 -/
def timeWithYMDM (ymd : YMD) (hms : Str) : Told Int := do
  let is_bce : Bool := ymd.year < 0
  let yyyy := if is_bce then flipYear ymd.year else ymd.year
  let t_str := padInt 4 yyyy ++ c! "-" ++ padInt 2 ymd.month ++ c! "-" ++ padInt 2 ymd.day ++ c! "T" ++ hms
  let t ← timeParseM layoutDateTime t_str
  .ok (if is_bce then timeToBCE t else t)

/-- common/range.go:297-310 and the two like it. -/
def yearDigitM (c : Char) (scale : Int) (prec here : Prec) : Told (Int × Int × Prec) :=
  if c ≠ 'X' then do
    let v ← parseIntM 32 [c]
    .ok (v * scale, v * scale, here)
  else .ok (0, 9 * scale, prec)

/-- common/range.go:261-351 -/
def yearRangeM (edtf_str yyyy : Str) : Told (Str × Str × Prec) :=
  if !hasSuffix yyyy (c! "X") then .ok (yyyy, yyyy, Prec.YEAR)
  else do
    let c0 ← Told.lift (idx yyyy 0)
    if c0 = 'X' then .fault (.known (NotImplemented (c! "date") edtf_str))
    else do
      let m ← parseIntM 32 [c0]
      let c1 ← Told.lift (idx yyyy 1)
      let (sc, ec, p) ← yearDigitM c1 100 Prec.MILLENIUM Prec.CENTURY
      let c2 ← Told.lift (idx yyyy 2)
      let (sd, ed, p) ← yearDigitM c2 10 p Prec.DECADE
      let c3 ← Told.lift (idx yyyy 3)
      let (sy, ey, p) ← yearDigitM c3 1 p Prec.YEAR
      .ok (itoa (m * 1000 + sc + sd + sy), itoa (m * 1000 + ec + ed + ey), p)

/-- common/range.go:436-447 -/
def endDayM (end_dd end_yyyy end_mm : Str) : Told Str :=
  if end_dd = [] then do
    let n ← daysInMonthWithStringM (end_yyyy ++ c! "-" ++ end_mm)
    .ok (itoa n)
  else .ok end_dd

/-- common/range.go:64-470 -/
def stringRangeFromYMDM (edtf_str : Str) : Told StringRange :=
  match Rx.YMD.submatch edtf_str with
  | none => .fault (.known (Invalid (c! "date") edtf_str))
  | some parts => do
    let (yyyy, yq) ← Told.lift (componentIf (parts 1))
    let (mm, mq) ← Told.lift (componentIf (parts 2))
    let (dd, dq) ← Told.lift (componentIf (parts 3))
    let ua := qualFlags yq mq dq
    let (start_yyyy, end_yyyy, p) ← yearRangeM edtf_str yyyy
    let (start_mm, end_mm, p) := monthRange mm p
    let (start_dd, end_dd, p) ← Told.lift (dayRange edtf_str dd p)
    let p := if dd = c! "XX" ∧ mm = c! "XX" then Prec.YEAR else if dd = c! "XX" then Prec.MONTH else p
    let start_mm := if start_mm = [] then c! "01" else start_mm
    let start_dd := if start_dd = [] then c! "01" else start_dd
    let end_mm := if end_mm = [] then c! "12" else end_mm
    let end_dd ← endDayM end_dd end_yyyy end_mm
    .ok ⟨⟨start_yyyy, start_mm, start_dd⟩, ⟨end_yyyy, end_mm, end_dd⟩, p, ua.1, ua.2⟩

/-- common/span.go:122-179 -/
def spanTimesM (same : Bool) (start_ymd end_ymd : YMD) : Told (Int × Int × Int × Int) :=
  if same then do
    let st ← timeWithYMDM start_ymd HMS_LOWER
    let et ← timeWithYMDM end_ymd HMS_UPPER
    .ok (st, st, et, et)
  else do
    let sl ← timeWithYMDM start_ymd HMS_LOWER
    let su ← timeWithYMDM start_ymd HMS_UPPER
    let el ← timeWithYMDM end_ymd HMS_LOWER
    let eu ← timeWithYMDM end_ymd HMS_UPPER
    .ok (sl, su, el, eu)

/-- common/span.go:90-245 -/
def dateSpanFromYMDM (edtf_str : Str) : Told DateSpan := do
  let r ← stringRangeFromYMDM edtf_str
  let start_ymd ← ymdFromStringsM r.start.year r.start.month r.start.day
  let end_ymd ← ymdFromStringsM r.stop.year r.stop.month r.stop.day
  let (sl, su, el, eu) ← spanTimesM (r.stop.equals r.start) start_ymd end_ymd
  .ok ⟨some ⟨edtf_str, some (mkDate r start_ymd sl), some (mkDate r start_ymd su)⟩,
       some ⟨edtf_str, some (mkDate r end_ymd el), some (mkDate r end_ymd eu)⟩⟩

/-- common/span.go:57-88 -/
def halfSpanM (edtf_str : Str) : Told DateSpan :=
  if edtf_str = UNKNOWN then
    .ok ⟨some { unknownDateRange with edtf := edtf_str }, some { unknownDateRange with edtf := edtf_str }⟩
  else if edtf_str = OPEN then
    .ok ⟨some { openDateRange with edtf := edtf_str }, some { openDateRange with edtf := edtf_str }⟩
  else dateSpanFromYMDM edtf_str

/-- common/span.go:9-53 -/
def dateSpanFromEDTFM (edtf_str : Str) : Told DateSpan :=
  match splitChar '/' edtf_str with
  | [l, r] => do
    let left ← halfSpanM l
    let right ← halfSpanM r
    Told.lift (joinHalves left right)
  | [l] => dateSpanFromYMDM l
  | _ => .fault (.known (Invalid (c! "date span") edtf_str))

/-- common/exponential.go:9-26, of texts `-?\d+[eE]\d+` as in `parseExponentialNotation`.
The two errors come from `scanExponent` and `Float.scan` of math/big. -/
def parseExponentialNotationM (notation_ : Str) : Told Int :=
  let (neg, body) : Bool × Str := match notation_ with
    | '-' :: rest => (true, rest)
    | s => (false, s)
  match splitE body with
  | none => .says []
  | some (ms, es) =>
    if ms.isEmpty || !ms.all isDig || es.isEmpty || !es.all isDig then .says []
    else do
      let e ← parseIntM 64 es
      match BF.ofExp (digitsVal ms) e.toNat with
      | none => .says (c! "exponent overflow")
      | some .inf => .panic
      | some (.fin m x) =>
        let v := wrap64 (BF.low64 m x)
        let v := if neg then wrap64 (-v) else v
        if v > MAX_YEARS ∨ v < 0 - MAX_YEARS then
          .fault (.known (Unsupported (c! "exponential notation") notation_))
        else .ok v

/-! ### Level 0 -/

/-- `if !re.X.MatchString(s) { return nil, edtf.Invalid(label, s) }`, then
DateSpanFromEDTF and the date: level0/date.go:26-47, level0/time_interval.go:28-49,
level1/qualified_date.go:25-46, level1/unspecified_digits.go:32-53,
level1/negative_calendar_year.go:23-44, level1/extended_interval.go:81-141,
level2/qualification.go:27-56 and 75-103, level2/unspecified_digit.go:36-67,
level2/interval.go:27-55. -/
def parseWholeM (matched : Bool) (s : Str) (level : Int) (feature : Str) : Told EDTFDate :=
  if !matched then .fault (.known (Invalid feature s))
  else do
    let sp ← dateSpanFromEDTFM s
    .ok (mkEDTF sp s level feature)

namespace L0

/-- level0/date.go:26-47 -/
def parseDateM (s : Str) : Told EDTFDate := parseWholeM (Rx.Date.matchString s) s 0 DATE

/-- level0/date_and_time.go:35-104 -/
def parseDateAndTimeM (s : Str) : Told EDTFDate :=
  match Rx.DateAndTime.submatch s with
  | none => .fault (.known (Invalid DATE_AND_TIME s))
  | some m => do
    let t ← timeParseM (layoutFor m s) s
    let t := if hasPrefix s (c! "-") then timeToBCE t else t
    let d : Date := Date.setTime {} t
    let r : DateRange := { lower := some d, upper := some d }
    .ok ⟨some r, some r, s, 0, DATE_AND_TIME⟩

/-- level0/time_interval.go:28-49 -/
def parseTimeIntervalM (s : Str) : Told EDTFDate := parseWholeM (Rx.TimeInterval.matchString s) s 0 TIME_INTERVAL

/-- level0/level0.go:35-50 -/
def parseStringM (s : Str) : Told EDTFDate :=
  if isDate s then parseDateM s
  else if isDateAndTime s then parseDateAndTimeM s
  else if isTimeInterval s then parseTimeIntervalM s
  else .fault (.known (Invalid (c! "Invalid Level 0 string") s))

end L0

/-! ### Level 1 -/

namespace L1

/-- level1/letter_prefixed_calendar_year.go:23-69 -/
def parseLetterPrefixedCalendarYearM (s : Str) : Told EDTFDate :=
  match Rx.LetterPrefixedCalendarYear.submatch s with
  | none => .fault (.known (Invalid LETTER_PREFIXED_CALENDAR_YEAR s))
  | some m =>
    let yyyy := m 1
    let max_length := if hasPrefix yyyy (c! "-") then 5 else 4
    if yyyy.length > max_length then .fault (.known (Unsupported LETTER_PREFIXED_CALENDAR_YEAR s))
    else do
      let sp ← dateSpanFromEDTFM yyyy
      .ok (mkEDTF sp s 1 LETTER_PREFIXED_CALENDAR_YEAR)

/-- level1/season.go:50-100 -/
def seasonOfTextM (s season str_yyyy : Str) : Told SeasonSpan := do
  let yyyy ← atoiM str_yyyy
  let u := toUpper season
  if u = c! "WINTER" then .ok ⟨yyyy, 12, yyyy + 1, 2⟩
  else if u = c! "SPRING" then .ok ⟨yyyy, 3, yyyy, 5⟩
  else if u = c! "SUMMER" then .ok ⟨yyyy, 6, yyyy, 8⟩
  else if u = c! "FALL" then .ok ⟨yyyy, 9, yyyy, 11⟩
  else .fault (.known (Invalid SEASON s))

/-- level1/season.go:102-166 -/
def seasonOfNumM (str_yyyy str_mm : Str) : Told SeasonSpan := do
  let yyyy ← atoiM str_yyyy
  let mm ← atoiM str_mm
  if mm = 21 then .ok ⟨yyyy, 3, yyyy, 5⟩
  else if mm = 22 then .ok ⟨yyyy, 6, yyyy, 8⟩
  else if mm = 23 then .ok ⟨yyyy, 9, yyyy, 11⟩
  else if mm = 24 then .ok ⟨yyyy, 12, yyyy + 1, 2⟩
  else .ok ⟨yyyy, mm, yyyy, mm⟩

/-- level1/season.go:42-166 -/
def seasonSpanM (s : Str) (m : Nat → Str) : Told SeasonSpan :=
  if m 1 = [] then seasonOfTextM s (m 3) (m 4) else seasonOfNumM (m 1) (m 2)

/-- level1/season.go:27-193 -/
def parseSeasonM (s : Str) : Told EDTFDate :=
  match Rx.Season.submatch s with
  | none => .fault (.known (Invalid SEASON s))
  | some m => do
    let w ← seasonSpanM s m
    let dm ← daysInMonthM w.end_yyyy w.end_mm
    let sp ← dateSpanFromEDTFM (seasonString w dm)
    .ok (mkEDTF sp s 1 SEASON)

/-- level1/qualified_date.go:25-46 -/
def parseQualifiedDateM (s : Str) : Told EDTFDate := parseWholeM (Rx.QualifiedDate.matchString s) s 1 QUALIFIED_DATE

/-- level1/unspecified_digits.go:32-53 -/
def parseUnspecifiedDigitsM (s : Str) : Told EDTFDate := parseWholeM (Rx.UnspecifiedDigits.matchString s) s 1 UNSPECIFIED_DIGITS

/-- level1/negative_calendar_year.go:23-44 -/
def parseNegativeCalendarYearM (s : Str) : Told EDTFDate := parseWholeM (Rx.NegativeYear.matchString s) s 1 NEGATIVE_CALENDAR_YEAR

/-- level1/extended_interval.go:68-141 -/
def parseExtendedIntervalM (s : Str) : Told EDTFDate :=
  if Rx.IntervalStart.matchString s then parseWholeM (Rx.IntervalStart.matchString s) s 1 EXTENDED_INTERVAL_START
  else if Rx.IntervalEnd.matchString s then parseWholeM (Rx.IntervalEnd.matchString s) s 1 EXTENDED_INTERVAL_END
  else .fault (.known (Invalid EXTENDED_INTERVAL s))

/-- level1/level1.go:59-86 -/
def parseStringM (s : Str) : Told EDTFDate :=
  if isLetterPrefixedCalendarYear s then parseLetterPrefixedCalendarYearM s
  else if isSeason s then parseSeasonM s
  else if isQualifiedDate s then parseQualifiedDateM s
  else if isUnspecifiedDigits s then parseUnspecifiedDigitsM s
  else if isNegativeCalendarYear s then parseNegativeCalendarYearM s
  else if isExtendedInterval s then parseExtendedIntervalM s
  else .fault (.known (Invalid (c! "Invalid or unsupported Level 1 EDTF string") s))

end L1

/-! ### Level 2 -/

namespace L2

/-- level2/exponential_year.go:25-67 -/
def parseExponentialYearM (s : Str) : Told EDTFDate :=
  match Rx.ExponentialYear.submatch s with
  | none => .fault (.known (Invalid EXPONENTIAL_YEAR s))
  | some m => do
    let yyyy ← parseExponentialNotationM (m 1)
    let sp ← dateSpanFromEDTFM (itoa yyyy)
    .ok (mkEDTF sp s 2 EXPONENTIAL_YEAR)

/-- level2/significant_digits.go:54-92 -/
def sigYearM (s str_yyyy str_year notation_ : Str) : Told Int :=
  if str_yyyy ≠ [] then
    match atoi str_yyyy with
    | some y => .ok y
    | none => .fault (.known (Invalid SIGNIFICANT_DIGITS s))
  else if str_year ≠ [] then
    if str_year.length > 4 then .fault (.known (Unsupported SIGNIFICANT_DIGITS s))
    else match atoi str_year with
      | some y => .ok y
      | none => .fault (.known (Invalid SIGNIFICANT_DIGITS s))
  else if notation_ ≠ [] then parseExponentialNotationM notation_
  else .fault (.known (Invalid SIGNIFICANT_DIGITS s))

/-- level2/significant_digits.go:31-138 -/
def parseSignificantDigitsM (s : Str) : Told EDTFDate :=
  match Rx.SignificantDigits.submatch s with
  | none => .fault (.known (Invalid SIGNIFICANT_DIGITS s))
  | some m => do
    let yyyy ← sigYearM s (m 1) (m 2) (m 3)
    if yyyy > MAX_YEARS then .fault (.known (Unsupported SIGNIFICANT_DIGITS s))
    else match atoi (m 4) with
      | none => .fault (.known (Invalid SIGNIFICANT_DIGITS s))
      | some digits =>
        if (itoa digits).length > (itoa yyyy).length then .fault (.known (Invalid SIGNIFICANT_DIGITS s))
        else do
          let str ← Told.lift (sigString yyyy digits.toNat)
          let sp ← dateSpanFromEDTFM str
          .ok (mkEDTF sp s 2 SIGNIFICANT_DIGITS)

/-- level2/sub_year_grouping.go:93-99, 113-119 -/
def groupingEndYearM (year : Str) (next : Bool) : Told Str :=
  if next then do
    let y ← atoiM year
    .ok (itoa (y + 1))
  else .ok year

/-- level2/sub_year_grouping.go:46-204 -/
def parseSubYearGroupingsM (s : Str) : Told EDTFDate :=
  match Rx.SubYearGrouping.submatch s with
  | none => .fault (.known (Invalid SUB_YEAR_GROUPINGS s))
  | some m =>
    let year := m 1
    match groupingMonths (m 2) with
    | none => .fault (.known (Invalid SUB_YEAR_GROUPINGS s))
    | some (start_mm, end_mm, end_dd, next) => do
      let end_yyyy ← groupingEndYearM year next
      let sp ← dateSpanFromEDTFM (groupingString year start_mm end_yyyy end_mm end_dd)
      .ok (mkEDTF sp s 2 SUB_YEAR_GROUPINGS)

/-- level2/set_representation.go:157-232 -/
def setSpanM (possible : List Str) (start_open end_open : Bool) (inclusivity : Prec) : Told DateSpan :=
  let start_ymd := possible.headD []
  let end_ymd := possible.getLastD []
  let (str, post) := setString possible start_ymd end_ymd start_open end_open
  do
    let sp ← dateSpanFromEDTFM str
    let sp ← Told.lift (openPostFactoIf post sp start_open end_open)
    let st ← Told.lift (setInclusivityIf (!start_open) sp.start inclusivity)
    let en ← Told.lift (setInclusivityIf (!end_open) sp.stop inclusivity)
    .ok ⟨st, en⟩

/-- level2/set_representation.go:54-243 -/
def parseSetRepresentationsM (s : Str) : Told EDTFDate :=
  match Rx.SetRepresentations.submatch s with
  | none => .fault (.known (Invalid SET_REPRESENTATIONS s))
  | some m => do
    let inclusivity ← Told.lift (setKind s (m 1))
    let mem ← Told.lift (collectMembers s (splitChar ',' (m 2)) ⟨[], false, false⟩)
    let possible := sortStrings mem.possible
    if possible.length = 0 then .fault (.known (Invalid SET_REPRESENTATIONS s))
    else do
      let sp ← setSpanM possible mem.start_open mem.end_open inclusivity
      .ok (mkEDTF sp s 2 SET_REPRESENTATIONS)

/-- level2/qualification.go:27-56 -/
def parseGroupQualificationM (s : Str) : Told EDTFDate := parseWholeM (Rx.GroupQualification.matchString s) s 2 GROUP_QUALIFICATION

/-- level2/qualification.go:75-103 -/
def parseIndividualQualificationM (s : Str) : Told EDTFDate :=
  parseWholeM (Rx.IndividualQualification.matchString s) s 2 INDIVIDUAL_QUALIFICATION

/-- level2/unspecified_digit.go:36-67 -/
def parseUnspecifiedDigitM (s : Str) : Told EDTFDate := parseWholeM (Rx.UnspecifiedDigit.matchString s) s 2 UNSPECIFIED_DIGIT

/-- level2/interval.go:27-55 -/
def parseIntervalM (s : Str) : Told EDTFDate := parseWholeM (Rx.Interval.matchString s) s 2 INTERVAL

/-- level2/level2.go:60-95 -/
def parseStringM (s : Str) : Told EDTFDate :=
  if isExponentialYear s then parseExponentialYearM s
  else if isSignificantDigits s then parseSignificantDigitsM s
  else if isSubYearGrouping s then parseSubYearGroupingsM s
  else if isSetRepresentation s then parseSetRepresentationsM s
  else if isGroupQualification s then parseGroupQualificationM s
  else if isIndividualQualification s then parseIndividualQualificationM s
  else if isUnspecifiedDigit s then parseUnspecifiedDigitM s
  else if isInterval s then parseIntervalM s
  else .fault (.known (Invalid (c! "Invalid or unsupported Level 2 string") s))

end L2

/-- parser/parser.go:37-81 -/
def parseStringM (s : Str) : Told EDTFDate :=
  if L0.isLevel0 s then L0.parseStringM s
  else if L1.isLevel1 s then L1.parseStringM s
  else if L2.isLevel2 s then L2.parseStringM s
  else if s = OPEN then .ok (mkEDTF openDateSpan s (-1) (c! "Open"))
  else if s = UNKNOWN then .ok (mkEDTF unknownDateSpan s (-1) (c! "Unknown"))
  else .fault (.known (Unrecognized (c! "Invalid or unsupported EDTF string") s))

end EDTF
