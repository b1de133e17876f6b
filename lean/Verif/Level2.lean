/- level2/*.go -/
import Verif.Common
import Verif.BigFloat
namespace EDTF
namespace L2

/-- level2/level2.go:10 -/
def EXPONENTIAL_YEAR : Str := c! "Exponential year"
/-- level2/level2.go:11 -/
def SIGNIFICANT_DIGITS : Str := c! "Significant digits"
/-- level2/level2.go:12 -/
def SUB_YEAR_GROUPINGS : Str := c! "Sub-year groupings"
/-- level2/level2.go:13 -/
def SET_REPRESENTATIONS : Str := c! "Set representation"
/-- level2/level2.go:14 -/
def GROUP_QUALIFICATION : Str := c! "Qualification (Group)"
/-- level2/level2.go:15 -/
def INDIVIDUAL_QUALIFICATION : Str := c! "Qualification (Individual)"
/-- level2/level2.go:16 -/
def UNSPECIFIED_DIGIT : Str := c! "Unspecified Digit"
/-- level2/level2.go:17 -/
def INTERVAL : Str := c! "Interval"

/-- level2/level2.go:19-21 -/
def isLevel2 (s : Str) : Bool := Rx.Level2.matchString s
/-- level2/exponential_year.go:21-23 -/
def isExponentialYear (s : Str) : Bool := Rx.ExponentialYear.matchString s
/-- level2/significant_digits.go:27-29 -/
def isSignificantDigits (s : Str) : Bool := Rx.SignificantDigits.matchString s
/-- level2/sub_year_grouping.go:42-44 -/
def isSubYearGrouping (s : Str) : Bool := Rx.SubYearGrouping.matchString s
/-- level2/set_representation.go:50-52 -/
def isSetRepresentation (s : Str) : Bool := Rx.SetRepresentations.matchString s
/-- level2/qualification.go:23-25 -/
def isGroupQualification (s : Str) : Bool := Rx.GroupQualification.matchString s
/-- level2/qualification.go:71-73 -/
def isIndividualQualification (s : Str) : Bool := Rx.IndividualQualification.matchString s
/-- level2/unspecified_digit.go:32-34 -/
def isUnspecifiedDigit (s : Str) : Bool := Rx.UnspecifiedDigit.matchString s
/-- level2/interval.go:23-25 -/
def isInterval (s : Str) : Bool := Rx.Interval.matchString s

/-- level2/exponential_year.go:25-67 -/
def parseExponentialYear (s : Str) : Res EDTFDate :=
  match Rx.ExponentialYear.submatch s with
  | none => .err (Invalid EXPONENTIAL_YEAR s)
  | some m => do
    let yyyy ← parseExponentialNotation (m 1)
    let sp ← dateSpanFromEDTF (itoa yyyy)
    .ok (mkEDTF sp s 2 EXPONENTIAL_YEAR)

/-- level2/significant_digits.go:54-92: the year. -/
def sigYear (s str_yyyy str_year notation_ : Str) : Res Int :=
  if str_yyyy ≠ [] then
    match atoi str_yyyy with
    | some y => .ok y
    | none => .err (Invalid SIGNIFICANT_DIGITS s)
  else if str_year ≠ [] then
    if str_year.length > 4 then .err (Unsupported SIGNIFICANT_DIGITS s)
    else match atoi str_year with
      | some y => .ok y
      | none => .err (Invalid SIGNIFICANT_DIGITS s)
  else if notation_ ≠ [] then parseExponentialNotation notation_
  else .err (Invalid SIGNIFICANT_DIGITS s)

/-- level2/significant_digits.go:108-121: the interval string.  The slice
expression panics when there are more digits than characters. -/
def sigString (yyyy : Int) (digits : Nat) : Res Str :=
  let str_yyyy := itoa yyyy
  if digits > str_yyyy.length then .panic
  else
    let prefix_yyyy := str_yyyy.take (str_yyyy.length - digits)
    let start_yyyy := prefix_yyyy ++ List.replicate digits '0'
    let end_yyyy := prefix_yyyy ++ List.replicate digits '9'
    if hasPrefix start_yyyy (c! "-") && hasPrefix end_yyyy (c! "-") then
      .ok (end_yyyy ++ c! "/" ++ start_yyyy)
    else .ok (start_yyyy ++ c! "/" ++ end_yyyy)

/-- level2/significant_digits.go:31-138.  `digits` comes from `\d+`, so it is
not negative. -/
def parseSignificantDigits (s : Str) : Res EDTFDate :=
  match Rx.SignificantDigits.submatch s with
  | none => .err (Invalid SIGNIFICANT_DIGITS s)
  | some m => do
    let yyyy ← sigYear s (m 1) (m 2) (m 3)
    if yyyy > MAX_YEARS then .err (Unsupported SIGNIFICANT_DIGITS s)
    else match atoi (m 4) with
      | none => .err (Invalid SIGNIFICANT_DIGITS s)
      | some digits =>
        if (itoa digits).length > (itoa yyyy).length then .err (Invalid SIGNIFICANT_DIGITS s)
        else do
          let str ← sigString yyyy digits.toNat
          let sp ← dateSpanFromEDTF str
          .ok (mkEDTF sp s 2 SIGNIFICANT_DIGITS)

/-- The switch of level2/sub_year_grouping.go:71-178: start month, end month,
end day ("" = look up), and whether the end is in the following year. -/
def groupingMonths (g : Str) : Option (Str × Str × Str × Bool) :=
  if g = c! "21" ∨ g = c! "25" then some (c! "03", c! "05", c! "31", false)
  else if g = c! "22" ∨ g = c! "26" then some (c! "06", c! "08", c! "31", false)
  else if g = c! "23" ∨ g = c! "27" then some (c! "09", c! "11", c! "30", false)
  else if g = c! "24" ∨ g = c! "28" then some (c! "12", c! "02", [], true)
  else if g = c! "29" then some (c! "09", c! "11", c! "30", false)
  else if g = c! "30" then some (c! "12", c! "02", [], true)
  else if g = c! "31" then some (c! "03", c! "05", c! "31", false)
  else if g = c! "32" then some (c! "06", c! "08", c! "31", false)
  else if g = c! "33" then some (c! "01", c! "03", c! "31", false)
  else if g = c! "34" then some (c! "04", c! "06", c! "30", false)
  else if g = c! "35" then some (c! "07", c! "09", c! "30", false)
  else if g = c! "36" then some (c! "10", c! "12", c! "31", false)
  else if g = c! "37" then some (c! "01", c! "04", c! "30", false)
  else if g = c! "38" then some (c! "05", c! "08", c! "31", false)
  else if g = c! "39" then some (c! "09", c! "12", c! "31", false)
  else if g = c! "40" then some (c! "01", c! "06", c! "30", false)
  else if g = c! "41" then some (c! "07", c! "12", c! "31", false)
  else none

/-- level2/sub_year_grouping.go:93-99, 113-119: the year of the end month. -/
def groupingEndYear (year : Str) (next : Bool) : Res Str :=
  if next then do
    let y ← Res.ofOption (atoi year)
    .ok (itoa (y + 1))
  else .ok year

/-- The string built in level2/sub_year_grouping.go:180-187. -/
def groupingString (year start_mm end_yyyy end_mm end_dd : Str) : Str :=
  let start := year ++ c! "-" ++ start_mm ++ c! "-01"
  let stop := end_yyyy ++ c! "-" ++ end_mm
  let stop := if end_dd ≠ [] then stop ++ c! "-" ++ end_dd else stop
  start ++ c! "/" ++ stop

/-- level2/sub_year_grouping.go:46-204 (start_dd is always "01") -/
def parseSubYearGroupings (s : Str) : Res EDTFDate :=
  match Rx.SubYearGrouping.submatch s with
  | none => .err (Invalid SUB_YEAR_GROUPINGS s)
  | some m =>
    let year := m 1
    match groupingMonths (m 2) with
    | none => .err (Invalid SUB_YEAR_GROUPINGS s)
    | some (start_mm, end_mm, end_dd, next) => do
      let end_yyyy ← groupingEndYear year next
      let sp ← dateSpanFromEDTF (groupingString year start_mm end_yyyy end_mm end_dd)
      .ok (mkEDTF sp s 2 SUB_YEAR_GROUPINGS)

/-- What the loop of level2/set_representation.go:100-141 collects. -/
structure SetMembers where
  possible : List Str
  start_open : Bool
  end_open : Bool
  deriving DecidableEq, Repr

/-- level2/set_representation.go:102-141, one iteration per comma-separated part. -/
def collectMembers (s : Str) : List Str → SetMembers → Res SetMembers
  | [], acc => .ok acc
  | date :: rest, acc =>
    match splitDots date with
    | [_] => collectMembers s rest { acc with possible := acc.possible ++ [date] }
    | [a, b] =>
      if a ≠ [] ∧ b ≠ [] then collectMembers s rest { acc with possible := acc.possible ++ [a, b] }
      else if a = [] then
        collectMembers s rest { acc with possible := acc.possible ++ [b], start_open := true }
      else collectMembers s rest { acc with possible := acc.possible ++ [a], end_open := true }
    | _ => .err (Invalid SET_REPRESENTATIONS s)

/-- The string handed to DateSpanFromEDTF and the flag open_post_facto,
level2/set_representation.go:157-200; `possible` is sorted. -/
def setString (possible : List Str) (start_ymd end_ymd : Str) (start_open end_open : Bool) : Str × Bool :=
  let str :=
    if start_open then c! "../" ++ start_ymd
    else if end_open then start_ymd ++ c! "/.."
    else if start_ymd ≠ end_ymd then start_ymd ++ c! "/" ++ end_ymd
    else start_ymd
  if (start_open || end_open) && possible.length > 1 then (start_ymd ++ c! "/" ++ end_ymd, true)
  else (str, false)

/-- level2/set_representation.go:208-222.  When both sides are open the two
ranges are the same object in the source, whose Upper is then overwritten; the
model writes the resulting value on both sides. -/
def openPostFacto (sp : DateSpan) (start_open end_open : Bool) : Res DateSpan := do
  let st ← Res.deref sp.start
  let en ← Res.deref sp.stop
  let en := if start_open then { en with lower := st.lower } else en
  let st := if start_open then openDateRange else st
  if end_open then
    let st := { st with upper := en.upper }
    .ok ⟨some st, some (if start_open then st else openDateRange)⟩
  else .ok ⟨some st, some en⟩

/-- level2/set_representation.go:225-226 and 230-231. -/
def setInclusivity (r : Option DateRange) (p : Prec) : Res (Option DateRange) := do
  let r ← Res.deref r
  let l ← Res.deref r.lower
  let u ← Res.deref r.upper
  .ok (some { r with lower := some { l with inclusivity := p }, upper := some { u with inclusivity := p } })

/-- level2/set_representation.go:208-222 is guarded by open_post_facto. -/
def openPostFactoIf (post : Bool) (sp : DateSpan) (start_open end_open : Bool) : Res DateSpan :=
  if post then openPostFacto sp start_open end_open else .ok sp

/-- level2/set_representation.go:224-232: an open side is left alone. -/
def setInclusivityIf (b : Bool) (r : Option DateRange) (p : Prec) : Res (Option DateRange) :=
  if b then setInclusivity r p else .ok r

/-- level2/set_representation.go:157-232: from the members to the span. -/
def setSpan (possible : List Str) (start_open end_open : Bool) (inclusivity : Prec) : Res DateSpan :=
  let start_ymd := possible.headD []
  let end_ymd := possible.getLastD []
  let (str, post) := setString possible start_ymd end_ymd start_open end_open
  do
    let sp ← dateSpanFromEDTF str
    let sp ← openPostFactoIf post sp start_open end_open
    let st ← setInclusivityIf (!start_open) sp.start inclusivity
    let en ← setInclusivityIf (!end_open) sp.stop inclusivity
    .ok ⟨st, en⟩

/-- level2/set_representation.go:87-94: the kind of set from its opening bracket. -/
def setKind (s bracket : Str) : Res Prec :=
  if bracket = c! "[" then .ok Prec.ANY
  else if bracket = c! "{" then .ok Prec.ALL
  else .err (Invalid SET_REPRESENTATIONS s)

/-- level2/set_representation.go:54-243 -/
def parseSetRepresentations (s : Str) : Res EDTFDate :=
  match Rx.SetRepresentations.submatch s with
  | none => .err (Invalid SET_REPRESENTATIONS s)
  | some m => do
    let inclusivity ← setKind s (m 1)
    let mem ← collectMembers s (splitChar ',' (m 2)) ⟨[], false, false⟩
    let possible := sortStrings mem.possible
    if possible.length = 0 then .err (Invalid SET_REPRESENTATIONS s)
    else do
      let sp ← setSpan possible mem.start_open mem.end_open inclusivity
      .ok (mkEDTF sp s 2 SET_REPRESENTATIONS)

/-- level2/qualification.go:27-56 -/
def parseGroupQualification (s : Str) : Res EDTFDate :=
  if !Rx.GroupQualification.matchString s then .err (Invalid GROUP_QUALIFICATION s)
  else do
    let sp ← dateSpanFromEDTF s
    .ok (mkEDTF sp s 2 GROUP_QUALIFICATION)

/-- level2/qualification.go:75-103 -/
def parseIndividualQualification (s : Str) : Res EDTFDate :=
  if !Rx.IndividualQualification.matchString s then .err (Invalid INDIVIDUAL_QUALIFICATION s)
  else do
    let sp ← dateSpanFromEDTF s
    .ok (mkEDTF sp s 2 INDIVIDUAL_QUALIFICATION)

/-- level2/unspecified_digit.go:36-67 -/
def parseUnspecifiedDigit (s : Str) : Res EDTFDate :=
  if !Rx.UnspecifiedDigit.matchString s then .err (Invalid UNSPECIFIED_DIGIT s)
  else do
    let sp ← dateSpanFromEDTF s
    .ok (mkEDTF sp s 2 UNSPECIFIED_DIGIT)

/-- level2/interval.go:27-55 -/
def parseInterval (s : Str) : Res EDTFDate :=
  if !Rx.Interval.matchString s then .err (Invalid INTERVAL s)
  else do
    let sp ← dateSpanFromEDTF s
    .ok (mkEDTF sp s 2 INTERVAL)

/-- level2/level2.go:23-58 -/
def matchesStr (s : Str) : Res Str :=
  if isExponentialYear s then .ok EXPONENTIAL_YEAR
  else if isSignificantDigits s then .ok SIGNIFICANT_DIGITS
  else if isSubYearGrouping s then .ok SUB_YEAR_GROUPINGS
  else if isSetRepresentation s then .ok SET_REPRESENTATIONS
  else if isGroupQualification s then .ok GROUP_QUALIFICATION
  else if isIndividualQualification s then .ok INDIVIDUAL_QUALIFICATION
  else if isUnspecifiedDigit s then .ok UNSPECIFIED_DIGIT
  else if isInterval s then .ok INTERVAL
  else .err (Invalid (c! "Invalid or unsupported Level 2 string") s)

/-- level2/level2.go:60-95 -/
def parseString (s : Str) : Res EDTFDate :=
  if isExponentialYear s then parseExponentialYear s
  else if isSignificantDigits s then parseSignificantDigits s
  else if isSubYearGrouping s then parseSubYearGroupings s
  else if isSetRepresentation s then parseSetRepresentations s
  else if isGroupQualification s then parseGroupQualification s
  else if isIndividualQualification s then parseIndividualQualification s
  else if isUnspecifiedDigit s then parseUnspecifiedDigit s
  else if isInterval s then parseInterval s
  else .err (Invalid (c! "Invalid or unsupported Level 2 string") s)

end L2
end EDTF
