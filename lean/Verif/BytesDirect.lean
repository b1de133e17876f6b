/-
The parsers of the single features and levels, the span of a text and the helpers for years,
months and days, on bytes.  As in `Bytes`, the functions repeat those of `Message` and
`MessageDirect`.  Simplification: where a pattern matches, what follows is given the runes of the
string and not its bytes, except for seasons, whose pattern also matches strings that are not
UTF-8; for the others see C104_matched.
-/
import Verif.Bytes
import Verif.MessageDirect
namespace EDTF

/-- A date whose text is a string of bytes. -/
structure ByteDate where
  start : Option DateRange
  stop : Option DateRange
  edtf : Bytes
  level : Int
  feature : Str
  deriving DecidableEq, Repr

/-- The date with the bytes that were given. -/
def EDTFDate.withBytes (b : Bytes) (d : EDTFDate) : ByteDate := ⟨d.start, d.stop, b, d.level, d.feature⟩

/-- The outcome with the bytes that were given. -/
def Said.withBytes (b : Bytes) : Said EDTFDate → Said ByteDate
  | .ok d => .ok (d.withBytes b)
  | .fault t => .fault t
  | .panic => .panic

/-- A function that refuses what its pattern does not match: `if !re.X.MatchString(s)` or
`len(re.X.FindStringSubmatch(s)) != n`, then `return nil, edtf.Invalid(label, s)`. -/
def featureBytes (r : Re) (label : Str) (P : Str → Told EDTFDate) (b : Bytes) : Said ByteDate :=
  if r.matchString (runes b) then ((P (runes b)).bytes).withBytes b else .fault (invalidBytes label b)

namespace L0

/-- level0/date.go:26-47 on bytes -/
def parseDateBytes : Bytes → Said ByteDate := featureBytes Rx.Date DATE parseDateM
/-- level0/date_and_time.go:35-104 on bytes -/
def parseDateAndTimeBytes : Bytes → Said ByteDate := featureBytes Rx.DateAndTime DATE_AND_TIME parseDateAndTimeM
/-- level0/time_interval.go:28-49 on bytes -/
def parseTimeIntervalBytes : Bytes → Said ByteDate := featureBytes Rx.TimeInterval TIME_INTERVAL parseTimeIntervalM

/-- level0/level0.go:35-50 on bytes -/
def parseStringBytes (b : Bytes) : Said ByteDate :=
  if isDate (runes b) then parseDateBytes b
  else if isDateAndTime (runes b) then parseDateAndTimeBytes b
  else if isTimeInterval (runes b) then parseTimeIntervalBytes b
  else .fault (invalidBytes (c! "Invalid Level 0 string") b)

end L0

namespace L1

/-- level1/letter_prefixed_calendar_year.go:23-69 on bytes -/
def parseLetterPrefixedCalendarYearBytes : Bytes → Said ByteDate :=
  featureBytes Rx.LetterPrefixedCalendarYear LETTER_PREFIXED_CALENDAR_YEAR parseLetterPrefixedCalendarYearM

/-- level1/season.go:50-100 on bytes; the texts of the groups are runes, as none of them has a
byte that begins no rune. -/
def seasonOfTextBytes (b : Bytes) (season str_yyyy : Str) : Said SeasonSpan := do
  let yyyy ← (atoiM str_yyyy).bytes
  let u := toUpper season
  if u = c! "WINTER" then .ok ⟨yyyy, 12, yyyy + 1, 2⟩
  else if u = c! "SPRING" then .ok ⟨yyyy, 3, yyyy, 5⟩
  else if u = c! "SUMMER" then .ok ⟨yyyy, 6, yyyy, 8⟩
  else if u = c! "FALL" then .ok ⟨yyyy, 9, yyyy, 11⟩
  else .fault (invalidBytes SEASON b)

/-- level1/season.go:42-166 on bytes -/
def seasonSpanBytes (b : Bytes) (m : Nat → Str) : Said SeasonSpan :=
  if m 1 = [] then seasonOfTextBytes b (m 3) (m 4) else (seasonOfNumM (m 1) (m 2)).bytes

/-- level1/season.go:27-193 on bytes -/
def parseSeasonBytes (b : Bytes) : Said ByteDate :=
  match Rx.Season.submatch (runes b) with
  | none => .fault (invalidBytes SEASON b)
  | some m => do
    let w ← seasonSpanBytes b m
    let dm ← (daysInMonthM w.end_yyyy w.end_mm).bytes
    let sp ← (dateSpanFromEDTFM (seasonString w dm)).bytes
    .ok ⟨sp.start, sp.stop, b, 1, SEASON⟩

/-- level1/qualified_date.go:25-46 on bytes -/
def parseQualifiedDateBytes : Bytes → Said ByteDate := featureBytes Rx.QualifiedDate QUALIFIED_DATE parseQualifiedDateM
/-- level1/unspecified_digits.go:32-53 on bytes -/
def parseUnspecifiedDigitsBytes : Bytes → Said ByteDate := featureBytes Rx.UnspecifiedDigits UNSPECIFIED_DIGITS parseUnspecifiedDigitsM
/-- level1/negative_calendar_year.go:23-44 on bytes -/
def parseNegativeCalendarYearBytes : Bytes → Said ByteDate := featureBytes Rx.NegativeYear NEGATIVE_CALENDAR_YEAR parseNegativeCalendarYearM
/-- level1/extended_interval.go:81-113 on bytes -/
def parseExtendedIntervalStartBytes : Bytes → Said ByteDate := featureBytes Rx.IntervalStart EXTENDED_INTERVAL_START parseExtendedIntervalStartM
/-- level1/extended_interval.go:115-141 on bytes -/
def parseExtendedIntervalEndBytes : Bytes → Said ByteDate := featureBytes Rx.IntervalEnd EXTENDED_INTERVAL_END parseExtendedIntervalEndM

/-- level1/extended_interval.go:68-79 on bytes -/
def parseExtendedIntervalBytes (b : Bytes) : Said ByteDate :=
  if Rx.IntervalStart.matchString (runes b) then parseExtendedIntervalStartBytes b
  else if Rx.IntervalEnd.matchString (runes b) then parseExtendedIntervalEndBytes b
  else .fault (invalidBytes EXTENDED_INTERVAL b)

/-- level1/level1.go:59-86 on bytes -/
def parseStringBytes (b : Bytes) : Said ByteDate :=
  if isLetterPrefixedCalendarYear (runes b) then parseLetterPrefixedCalendarYearBytes b
  else if isSeason (runes b) then parseSeasonBytes b
  else if isQualifiedDate (runes b) then parseQualifiedDateBytes b
  else if isUnspecifiedDigits (runes b) then parseUnspecifiedDigitsBytes b
  else if isNegativeCalendarYear (runes b) then parseNegativeCalendarYearBytes b
  else if isExtendedInterval (runes b) then parseExtendedIntervalBytes b
  else .fault (invalidBytes (c! "Invalid or unsupported Level 1 EDTF string") b)

end L1

namespace L2

/-- level2/exponential_year.go:25-67 on bytes -/
def parseExponentialYearBytes : Bytes → Said ByteDate := featureBytes Rx.ExponentialYear EXPONENTIAL_YEAR parseExponentialYearM
/-- level2/significant_digits.go:31-138 on bytes -/
def parseSignificantDigitsBytes : Bytes → Said ByteDate := featureBytes Rx.SignificantDigits SIGNIFICANT_DIGITS parseSignificantDigitsM
/-- level2/sub_year_grouping.go:46-204 on bytes -/
def parseSubYearGroupingsBytes : Bytes → Said ByteDate := featureBytes Rx.SubYearGrouping SUB_YEAR_GROUPINGS parseSubYearGroupingsM
/-- level2/set_representation.go:54-243 on bytes -/
def parseSetRepresentationsBytes : Bytes → Said ByteDate := featureBytes Rx.SetRepresentations SET_REPRESENTATIONS parseSetRepresentationsM
/-- level2/qualification.go:27-56 on bytes -/
def parseGroupQualificationBytes : Bytes → Said ByteDate := featureBytes Rx.GroupQualification GROUP_QUALIFICATION parseGroupQualificationM
/-- level2/qualification.go:75-103 on bytes -/
def parseIndividualQualificationBytes : Bytes → Said ByteDate :=
  featureBytes Rx.IndividualQualification INDIVIDUAL_QUALIFICATION parseIndividualQualificationM
/-- level2/unspecified_digit.go:36-67 on bytes -/
def parseUnspecifiedDigitBytes : Bytes → Said ByteDate := featureBytes Rx.UnspecifiedDigit UNSPECIFIED_DIGIT parseUnspecifiedDigitM
/-- level2/interval.go:27-55 on bytes -/
def parseIntervalBytes : Bytes → Said ByteDate := featureBytes Rx.Interval INTERVAL parseIntervalM

/-- level2/level2.go:60-95 on bytes -/
def parseStringBytes (b : Bytes) : Said ByteDate :=
  if isExponentialYear (runes b) then parseExponentialYearBytes b
  else if isSignificantDigits (runes b) then parseSignificantDigitsBytes b
  else if isSubYearGrouping (runes b) then parseSubYearGroupingsBytes b
  else if isSetRepresentation (runes b) then parseSetRepresentationsBytes b
  else if isGroupQualification (runes b) then parseGroupQualificationBytes b
  else if isIndividualQualification (runes b) then parseIndividualQualificationBytes b
  else if isUnspecifiedDigit (runes b) then parseUnspecifiedDigitBytes b
  else if isInterval (runes b) then parseIntervalBytes b
  else .fault (invalidBytes (c! "Invalid or unsupported Level 2 string") b)

end L2

/-! ### The shared code -/

/-- strings.Split with a separator of one byte. -/
def splitByte (sep : UInt8) : Bytes → List Bytes
  | [] => [[]]
  | c :: cs =>
    if c = sep then [] :: splitByte sep cs
    else match splitByte sep cs with
      | [] => [[c]]
      | p :: ps => (c :: p) :: ps

/-- common/range.go:64-470 on bytes -/
def stringRangeFromYMDBytes (b : Bytes) : Said StringRange :=
  match Rx.YMD.submatch (runes b) with
  | none => .fault (invalidBytes (c! "date") b)
  | some _ => (stringRangeFromYMDM (runes b)).bytes

/-- common/span.go:90-245 on bytes -/
def dateSpanFromYMDBytes (b : Bytes) : Said DateSpan := do
  let r ← stringRangeFromYMDBytes b
  let start_ymd ← (ymdFromStringsM r.start.year r.start.month r.start.day).bytes
  let end_ymd ← (ymdFromStringsM r.stop.year r.stop.month r.stop.day).bytes
  let (sl, su, el, eu) ← (spanTimesM (r.stop.equals r.start) start_ymd end_ymd).bytes
  .ok ⟨some ⟨runes b, some (mkDate r start_ymd sl), some (mkDate r start_ymd su)⟩,
       some ⟨runes b, some (mkDate r end_ymd el), some (mkDate r end_ymd eu)⟩⟩

/-- common/span.go:57-88 on bytes -/
def halfSpanBytes (b : Bytes) : Said DateSpan :=
  if b = encode UNKNOWN then
    .ok ⟨some { unknownDateRange with edtf := runes b }, some { unknownDateRange with edtf := runes b }⟩
  else if b = encode OPEN then
    .ok ⟨some { openDateRange with edtf := runes b }, some { openDateRange with edtf := runes b }⟩
  else dateSpanFromYMDBytes b

/-- common/span.go:9-53 on bytes -/
def dateSpanFromEDTFBytes (b : Bytes) : Said DateSpan :=
  match splitByte 0x2F b with
  | [l, r] => do
    let left ← halfSpanBytes l
    let right ← halfSpanBytes r
    (Told.lift (joinHalves left right)).bytes
  | [l] => dateSpanFromYMDBytes l
  | _ => .fault (invalidBytes (c! "date span") b)

/-- The loop of strconv.Quote: a byte that begins no rune is written as `\x` and two digits.
What is said of other characters is as in `escapeGo`. -/
def quoteRunes : Nat → Bytes → Str
  | 0, _ => []
  | _ + 1, [] => []
  | n + 1, b0 :: rest =>
    match decodeRune b0 rest with
    | some (c, r) => escapeGo c ++ quoteRunes n r
    | none => c! "\\x" ++ hexByte b0 ++ quoteRunes n rest

/-- strconv.Quote on bytes -/
def quoteBytes (b : Bytes) : Str := c! "\"" ++ quoteRunes b.length b ++ c! "\""

/-- strconv.Atoi on bytes; the digits are ASCII. -/
def atoiBytes (b : Bytes) : Said Int :=
  match atoi (runes b) with
  | some v => .ok v
  | none => .fault (encode (c! "strconv.Atoi: parsing " ++ quoteBytes b ++ c! ": " ++ numMessage 64 (runes b)))

/-- common/ymd.go:76-99 on bytes -/
def atoiOrZeroBytes (b : Bytes) : Said Int := if b ≠ [] then atoiBytes b else .ok 0

/-- common/ymd.go:44-153 on bytes -/
def ymdFromStringsBytes (str_yyyy str_mm str_dd : Bytes) : Said YMD :=
  if str_yyyy = [] then .fault (encode (c! "Missing year"))
  else if str_mm = [] ∧ str_dd ≠ [] then .fault (encode (c! "Missing month"))
  else do
    let yyyy ← atoiBytes str_yyyy
    let is_bce : Bool := yyyy < 0
    let yyyy := if is_bce then flipYear yyyy else yyyy
    let mm ← atoiOrZeroBytes str_mm
    let dd ← atoiOrZeroBytes str_dd
    if yyyy > MAX_YEARS then .fault (encode (Fault.known (Unsupported (c! "year") (itoa yyyy))).text)
    else if mm = 0 ∧ dd ≠ 0 then .fault (encode (c! "Missing month"))
    else if mm > 12 then .fault (encode (c! "Invalid month"))
    else do
      let mm := if mm = 0 then 1 else mm
      let days ← (daysInMonthM yyyy mm).bytes
      if dd ≠ 0 ∧ dd > days then .fault (encode (c! "Invalid days for month"))
      else
        let dd := if dd = 0 then days else dd
        let yyyy := if is_bce then flipYear yyyy else yyyy
        .ok ⟨yyyy, mm, dd⟩

/-- common/ymd.go:15-42 on bytes -/
def ymdFromStringBytes (str_ymd : Bytes) : Said YMD :=
  match splitByte 0x2D str_ymd with
  | [_, b, c, d] => ymdFromStringsBytes (0x2D :: b) c d
  | [a, b, c] => ymdFromStringsBytes a b c
  | [a, b] => ymdFromStringsBytes a b []
  | [a] => ymdFromStringsBytes a [] []
  | _ => .fault (encode (c! "Invalid YMD string"))

/-- calendar/calendar.go:13-44 on bytes -/
def daysInMonthWithStringBytes (yyyymm : Bytes) : Said Int :=
  let go (str_yyyy str_mm : Bytes) : Said Int := do
    let yyyy ← atoiBytes str_yyyy
    let mm ← atoiBytes str_mm
    (daysInMonthM yyyy mm).bytes
  match splitByte 0x2D yyyymm with
  | [_, b, c] => go (0x2D :: b) c
  | [a, b] => go a b
  | _ => .fault (encode (c! "Invalid YYYYMM string"))

end EDTF
