/- level1/*.go -/
import Verif.Common
namespace EDTF
namespace L1

/-- level1/level1.go:10 -/
def LETTER_PREFIXED_CALENDAR_YEAR : Str := c! "Letter-prefixed calendar year"
/-- level1/level1.go:11 -/
def SEASON : Str := c! "Seasons"
/-- level1/level1.go:12 -/
def QUALIFIED_DATE : Str := c! "Qualification of a date (complete)"
/-- level1/level1.go:13 -/
def UNSPECIFIED_DIGITS : Str := c! "Unspecified digit(s) from the right"
/-- level1/level1.go:14 -/
def EXTENDED_INTERVAL : Str := c! "Extended Interval"
/-- level1/level1.go:15 -/
def EXTENDED_INTERVAL_START : Str := c! "Extended Interval (Start)"
/-- level1/level1.go:16 -/
def EXTENDED_INTERVAL_END : Str := c! "Extended Interval (End)"
/-- level1/level1.go:17 -/
def NEGATIVE_CALENDAR_YEAR : Str := c! "Negative calendar year"

/-- level1/level1.go:19-21 -/
def isLevel1 (s : Str) : Bool := Rx.Level1.matchString s
/-- level1/letter_prefixed_calendar_year.go:19-21 -/
def isLetterPrefixedCalendarYear (s : Str) : Bool := Rx.LetterPrefixedCalendarYear.matchString s
/-- level1/season.go:23-25 -/
def isSeason (s : Str) : Bool := Rx.Season.matchString s
/-- level1/qualified_date.go:21-23 -/
def isQualifiedDate (s : Str) : Bool := Rx.QualifiedDate.matchString s
/-- level1/unspecified_digits.go:28-30 -/
def isUnspecifiedDigits (s : Str) : Bool := Rx.UnspecifiedDigits.matchString s
/-- level1/negative_calendar_year.go:19-21 -/
def isNegativeCalendarYear (s : Str) : Bool := Rx.NegativeYear.matchString s
/-- level1/extended_interval.go:55-66 — the last line of the source is
`return true`. -/
def isExtendedInterval (s : Str) : Bool :=
  if Rx.IntervalEnd.matchString s then true
  else if Rx.IntervalStart.matchString s then true
  else true

/-- level1/letter_prefixed_calendar_year.go:23-69 -/
def parseLetterPrefixedCalendarYear (s : Str) : Res EDTFDate :=
  match Rx.LetterPrefixedCalendarYear.submatch s with
  | none => .err (Invalid LETTER_PREFIXED_CALENDAR_YEAR s)
  | some m =>
    let yyyy := m 1
    let max_length := if hasPrefix yyyy (c! "-") then 5 else 4
    if yyyy.length > max_length then .err (Unsupported LETTER_PREFIXED_CALENDAR_YEAR s)
    else do
      let sp ← dateSpanFromEDTF yyyy
      .ok (mkEDTF sp s 1 LETTER_PREFIXED_CALENDAR_YEAR)

/-- The months chosen in level1/season.go:42-166. -/
structure SeasonSpan where
  start_yyyy : Int
  start_mm : Int
  end_yyyy : Int
  end_mm : Int
  deriving DecidableEq, Repr

/-- level1/season.go:50-100 (the textual form) -/
def seasonOfText (s season str_yyyy : Str) : Res SeasonSpan := do
  let yyyy ← Res.ofOption (atoi str_yyyy)
  let u := toUpper season
  if u = c! "WINTER" then .ok ⟨yyyy, 12, yyyy + 1, 2⟩
  else if u = c! "SPRING" then .ok ⟨yyyy, 3, yyyy, 5⟩
  else if u = c! "SUMMER" then .ok ⟨yyyy, 6, yyyy, 8⟩
  else if u = c! "FALL" then .ok ⟨yyyy, 9, yyyy, 11⟩
  else .err (Invalid SEASON s)

/-- level1/season.go:102-166 (the numeric form) -/
def seasonOfNum (str_yyyy str_mm : Str) : Res SeasonSpan := do
  let yyyy ← Res.ofOption (atoi str_yyyy)
  let mm ← Res.ofOption (atoi str_mm)
  if mm = 21 then .ok ⟨yyyy, 3, yyyy, 5⟩
  else if mm = 22 then .ok ⟨yyyy, 6, yyyy, 8⟩
  else if mm = 23 then .ok ⟨yyyy, 9, yyyy, 11⟩
  else if mm = 24 then .ok ⟨yyyy, 12, yyyy + 1, 2⟩
  else .ok ⟨yyyy, mm, yyyy, mm⟩

/-- The string built in level1/season.go:168-176. -/
def seasonString (w : SeasonSpan) (dm : Int) : Str :=
  padInt 4 w.start_yyyy ++ c! "-" ++ padInt 2 w.start_mm ++ c! "-" ++ padInt 2 1 ++ c! "/" ++
  padInt 4 w.end_yyyy ++ c! "-" ++ padInt 2 w.end_mm ++ c! "-" ++ padInt 2 dm

/-- level1/season.go:42-166: which of the two forms was matched. -/
def seasonSpan (s : Str) (m : Nat → Str) : Res SeasonSpan :=
  if m 1 = [] then seasonOfText s (m 3) (m 4) else seasonOfNum (m 1) (m 2)

/-- level1/season.go:27-193 -/
def parseSeason (s : Str) : Res EDTFDate :=
  match Rx.Season.submatch s with
  | none => .err (Invalid SEASON s)
  | some m => do
    let w ← seasonSpan s m
    let dm ← daysInMonth w.end_yyyy w.end_mm
    let sp ← dateSpanFromEDTF (seasonString w dm)
    .ok (mkEDTF sp s 1 SEASON)

/-- level1/qualified_date.go:25-46 -/
def parseQualifiedDate (s : Str) : Res EDTFDate :=
  if !Rx.QualifiedDate.matchString s then .err (Invalid QUALIFIED_DATE s)
  else do
    let sp ← dateSpanFromEDTF s
    .ok (mkEDTF sp s 1 QUALIFIED_DATE)

/-- level1/unspecified_digits.go:32-53 -/
def parseUnspecifiedDigits (s : Str) : Res EDTFDate :=
  if !Rx.UnspecifiedDigits.matchString s then .err (Invalid UNSPECIFIED_DIGITS s)
  else do
    let sp ← dateSpanFromEDTF s
    .ok (mkEDTF sp s 1 UNSPECIFIED_DIGITS)

/-- level1/negative_calendar_year.go:23-44 -/
def parseNegativeCalendarYear (s : Str) : Res EDTFDate :=
  if !Rx.NegativeYear.matchString s then .err (Invalid NEGATIVE_CALENDAR_YEAR s)
  else do
    let sp ← dateSpanFromEDTF s
    .ok (mkEDTF sp s 1 NEGATIVE_CALENDAR_YEAR)

/-- level1/extended_interval.go:81-113 -/
def parseExtendedIntervalStart (s : Str) : Res EDTFDate :=
  if !Rx.IntervalStart.matchString s then .err (Invalid EXTENDED_INTERVAL_START s)
  else do
    let sp ← dateSpanFromEDTF s
    .ok (mkEDTF sp s 1 EXTENDED_INTERVAL_START)

/-- level1/extended_interval.go:115-141 -/
def parseExtendedIntervalEnd (s : Str) : Res EDTFDate :=
  if !Rx.IntervalEnd.matchString s then .err (Invalid EXTENDED_INTERVAL_END s)
  else do
    let sp ← dateSpanFromEDTF s
    .ok (mkEDTF sp s 1 EXTENDED_INTERVAL_END)

/-- level1/extended_interval.go:68-79 -/
def parseExtendedInterval (s : Str) : Res EDTFDate :=
  if Rx.IntervalStart.matchString s then parseExtendedIntervalStart s
  else if Rx.IntervalEnd.matchString s then parseExtendedIntervalEnd s
  else .err (Invalid EXTENDED_INTERVAL s)

/-- level1/level1.go:23-57 -/
def matchesStr (s : Str) : Res Str :=
  if isLetterPrefixedCalendarYear s then .ok LETTER_PREFIXED_CALENDAR_YEAR
  else if isSeason s then .ok SEASON
  else if isQualifiedDate s then .ok QUALIFIED_DATE
  else if isUnspecifiedDigits s then .ok UNSPECIFIED_DIGITS
  else if isNegativeCalendarYear s then .ok NEGATIVE_CALENDAR_YEAR
  else if isExtendedInterval s && Rx.IntervalStart.matchString s then .ok EXTENDED_INTERVAL_START
  else if isExtendedInterval s && Rx.IntervalEnd.matchString s then .ok EXTENDED_INTERVAL_END
  else .err (Invalid (c! "Invalid Level 1 string") s)

/-- level1/level1.go:59-86 -/
def parseString (s : Str) : Res EDTFDate :=
  if isLetterPrefixedCalendarYear s then parseLetterPrefixedCalendarYear s
  else if isSeason s then parseSeason s
  else if isQualifiedDate s then parseQualifiedDate s
  else if isUnspecifiedDigits s then parseUnspecifiedDigits s
  else if isNegativeCalendarYear s then parseNegativeCalendarYear s
  else if isExtendedInterval s then parseExtendedInterval s
  else .err (Invalid (c! "Invalid or unsupported Level 1 EDTF string") s)

end L1
end EDTF
