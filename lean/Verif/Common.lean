/-
common/*.go and calendar/calendar.go.
-/
import Verif.Types
import Verif.Patterns
namespace EDTF

/-- common/year.go:7-9 -/
def flipYear (yyyy : Int) : Int := wrap64 (yyyy - wrap64 (yyyy * 2))

/-- common/year.go:11-13 -/
def timeToBCE (t : Int) : Int := addDate t (-2 * timeYear t) 0

/-- calendar/calendar.go:47-74 -/
def daysInMonth (yyyy mm : Int) : Res Int :=
  let yyyy := if yyyy < 0 then wrap64 (yyyy - wrap64 (yyyy * 2)) else yyyy
  let next_mm := if mm ≥ 12 then 1 else mm + 1
  let next_ymd := padInt 4 yyyy ++ c! "-" ++ padInt 2 next_mm ++ c! "-01"
  match timeParse layoutDate next_ymd with
  | none => .err .plain
  | some next_t => .ok (timeDay (addDate next_t 0 (-1)))

/-- calendar/calendar.go:13-44 -/
def daysInMonthWithString (yyyymm : Str) : Res Int :=
  let go (str_yyyy str_mm : Str) : Res Int := do
    let yyyy ← Res.ofOption (atoi str_yyyy)
    let mm ← Res.ofOption (atoi str_mm)
    daysInMonth yyyy mm
  match splitChar '-' yyyymm with
  | [_, b, c] => go ('-' :: b) c
  | [a, b] => go a b
  | _ => .err .plain

/-- common/ymd.go:76-99: an absent month or day counts as 0. -/
def atoiOrZero (s : Str) : Res Int := if s ≠ [] then Res.ofOption (atoi s) else .ok 0

/-- common/ymd.go:44-153.  For the messages of plain errors see `Message`. -/
def ymdFromStrings (str_yyyy str_mm str_dd : Str) : Res YMD :=
  if str_yyyy = [] then .err .plain
  else if str_mm = [] ∧ str_dd ≠ [] then .err .plain
  else do
    let yyyy ← Res.ofOption (atoi str_yyyy)
    let is_bce : Bool := yyyy < 0
    let yyyy := if is_bce then flipYear yyyy else yyyy
    let mm ← atoiOrZero str_mm
    let dd ← atoiOrZero str_dd
    if yyyy > MAX_YEARS then .err (Unsupported (c! "year") (itoa yyyy))
    else if mm = 0 ∧ dd ≠ 0 then .err .plain
    else if mm > 12 then .err .plain
    else do
      let mm := if mm = 0 then 1 else mm
      let days ← daysInMonth yyyy mm
      if dd ≠ 0 ∧ dd > days then .err .plain
      else
        let dd := if dd = 0 then days else dd
        let yyyy := if is_bce then flipYear yyyy else yyyy
        .ok ⟨yyyy, mm, dd⟩

/-- common/ymd.go:15-42 -/
def ymdFromString (str_ymd : Str) : Res YMD :=
  match splitChar '-' str_ymd with
  | [_, b, c, d] => ymdFromStrings ('-' :: b) c d
  | [a, b, c] => ymdFromStrings a b c
  | [a, b] => ymdFromStrings a b []
  | [a] => ymdFromStrings a [] []
  | _ => .err .plain

/-- common/time.go:20-56 -/
def timeWithYMD (ymd : YMD) (hms : Str) : Res Int :=
  let is_bce : Bool := ymd.year < 0
  let yyyy := if is_bce then flipYear ymd.year else ymd.year
  let t_str := padInt 4 yyyy ++ c! "-" ++ padInt 2 ymd.month ++ c! "-" ++ padInt 2 ymd.day ++ c! "T" ++ hms
  match timeParse layoutDateTime t_str with
  | none => .err .plain
  | some t => .ok (if is_bce then timeToBCE t else t)

/-- common/time.go:9-18 -/
def timeWithYMDString (str_yyyy str_mm str_dd hms : Str) : Res Int := do
  let ymd ← ymdFromStrings str_yyyy str_mm str_dd
  timeWithYMD ymd hms

/-- common/range.go:24-28 -/
structure StringDate where
  year : Str
  month : Str
  day : Str
  deriving DecidableEq, Repr

/-- common/range.go:34-49 -/
def StringDate.equals (d e : StringDate) : Bool :=
  if d.year ≠ e.year then false
  else if d.month ≠ e.month then false
  else if d.day ≠ e.day then false
  else true

/-- common/ymd.go:11-13 (`dateSpanFromYMD` below calls `ymdFromStrings` itself) -/
def ymdFromStringDate (d : StringDate) : Res YMD := ymdFromStrings d.year d.month d.day

/-- common/range.go:51-58 (its EDTF field is never read and is left out) -/
structure StringRange where
  start : StringDate
  stop : StringDate
  precision : Prec
  uncertain : Prec
  approximate : Prec
  deriving DecidableEq, Repr

/-- common/range.go:12-15; the type is "Group" or "Individual". -/
structure Qualifier where
  value : Str
  group : Bool
  deriving DecidableEq, Repr

/-- common/range.go:501-538 -/
def parseYMDComponent (date : Str) : Res (Str × Option Qualifier) :=
  match Rx.QualifiedIndividual.submatch date with
  | some m => .ok (m 2, if m 1 ≠ [] then some ⟨m 1, false⟩ else none)
  | none =>
    match Rx.QualifiedGroup.submatch date with
    | some m => .ok (m 1, if m 2 ≠ [] then some ⟨m 2, true⟩ else none)
    | none => .err (Invalid (c! "date") date)

/-- The guarded calls of parseYMDComponent, common/range.go:97-131. -/
def componentIf (s : Str) : Res (Str × Option Qualifier) :=
  if s ≠ [] then parseYMDComponent s else .ok ([], none)

/-- The `switch q.Value` blocks of common/range.go:137-249: add `flags` to the
uncertain and/or approximate set.  (Successive AddFlag calls are one `|||`.) -/
def addQual (value : Str) (flags : Prec) (ua : Prec × Prec) : Prec × Prec :=
  if value = UNCERTAIN then (ua.1 ||| flags, ua.2)
  else if value = APPROXIMATE then (ua.1, ua.2 ||| flags)
  else if value = UNCERTAIN_AND_APPROXIMATE then (ua.1 ||| flags, ua.2 ||| flags)
  else ua

/-- `if q != nil && q.Type == …` around such a block. -/
def addQualIf (group : Bool) (q : Option Qualifier) (flags : Prec) (ua : Prec × Prec) : Prec × Prec :=
  match q with
  | some q => if q.group = group then addQual q.value flags ua else ua
  | none => ua

/-- common/range.go:137-249: (uncertain, approximate). -/
def qualFlags (yq mq dq : Option Qualifier) : Prec × Prec :=
  let ua : Prec × Prec := (0, 0)
  let ua := addQualIf true dq (Prec.YEAR ||| Prec.MONTH ||| Prec.DAY) ua
  let ua := addQualIf true mq (Prec.YEAR ||| Prec.MONTH) ua
  let ua := addQualIf true yq Prec.YEAR ua
  let ua := addQualIf false yq Prec.YEAR ua
  let ua := addQualIf false mq Prec.MONTH ua
  let ua := addQualIf false dq Prec.DAY ua
  ua

/-- One digit of the year: common/range.go:297-310 and the two like it.
`scale` is the place value; gives start, end and precision. -/
def yearDigit (c : Char) (scale : Int) (prec here : Prec) : Res (Int × Int × Prec) :=
  if c ≠ 'X' then do
    let v ← Res.ofOption (parseInt 32 [c])
    .ok (v * scale, v * scale, here)
  else .ok (0, 9 * scale, prec)

/-- common/range.go:261-351: start year, end year, precision. -/
def yearRange (edtf_str yyyy : Str) : Res (Str × Str × Prec) :=
  if !hasSuffix yyyy (c! "X") then .ok (yyyy, yyyy, Prec.YEAR)
  else do
    let c0 ← idx yyyy 0
    if c0 = 'X' then .err (NotImplemented (c! "date") edtf_str)
    else do
      let m ← Res.ofOption (parseInt 32 [c0])
      let c1 ← idx yyyy 1
      let (sc, ec, p) ← yearDigit c1 100 Prec.MILLENIUM Prec.CENTURY
      let c2 ← idx yyyy 2
      let (sd, ed, p) ← yearDigit c2 10 p Prec.DECADE
      let c3 ← idx yyyy 3
      let (sy, ey, p) ← yearDigit c3 1 p Prec.YEAR
      .ok (itoa (m * 1000 + sc + sd + sy), itoa (m * 1000 + ec + ed + ey), p)

/-- common/range.go:355-377: start month, end month, precision. -/
def monthRange (mm : Str) (p : Prec) : Str × Str × Prec :=
  if !hasSuffix mm (c! "X") then
    (mm, mm, if mm ≠ [] ∧ p = Prec.NONE then Prec.MONTH else p)
  else if hasPrefix mm (c! "X") then (c! "01", c! "12", p)
  else (c! "10", c! "12", Prec.MONTH)

/-- common/range.go:381-406: start day, end day, precision. -/
def dayRange (edtf_str dd : Str) (p : Prec) : Res (Str × Str × Prec) :=
  if !hasSuffix dd (c! "X") then
    .ok (dd, dd, if dd ≠ [] ∧ p = Prec.NONE then Prec.DAY else p)
  else do
    let c ← idx dd 0
    if c = 'X' then .ok (c! "01", [], p)
    else if c = '1' then .ok (c! "10", c! "19", p)
    else if c = '2' then .ok (c! "20", c! "29", p)
    else if c = '3' then .ok (c! "30", [], p)
    else .err (Invalid (c! "date") edtf_str)

/-- common/range.go:436-447: an absent end day is the last day of the month. -/
def endDay (end_dd end_yyyy end_mm : Str) : Res Str :=
  if end_dd = [] then do
    let n ← daysInMonthWithString (end_yyyy ++ c! "-" ++ end_mm)
    .ok (itoa n)
  else .ok end_dd

/-- common/range.go:64-470.  The precision assigned at lines 83-89 is always
overwritten at lines 261-351 and is left out. -/
def stringRangeFromYMD (edtf_str : Str) : Res StringRange :=
  match Rx.YMD.submatch edtf_str with
  | none => .err (Invalid (c! "date") edtf_str)
  | some parts => do
    let (yyyy, yq) ← componentIf (parts 1)
    let (mm, mq) ← componentIf (parts 2)
    let (dd, dq) ← componentIf (parts 3)
    let ua := qualFlags yq mq dq
    let (start_yyyy, end_yyyy, p) ← yearRange edtf_str yyyy
    let (start_mm, end_mm, p) := monthRange mm p
    let (start_dd, end_dd, p) ← dayRange edtf_str dd p
    let p := if dd = c! "XX" ∧ mm = c! "XX" then Prec.YEAR else if dd = c! "XX" then Prec.MONTH else p
    let start_mm := if start_mm = [] then c! "01" else start_mm
    let start_dd := if start_dd = [] then c! "01" else start_dd
    let end_mm := if end_mm = [] then c! "12" else end_mm
    let end_dd ← endDay end_dd end_yyyy end_mm
    .ok ⟨⟨start_yyyy, start_mm, start_dd⟩, ⟨end_yyyy, end_mm, end_dd⟩, p, ua.1, ua.2⟩

/-- common/range.go:472-483 -/
def emptyDateRange : DateRange := { lower := some {}, upper := some {} }
/-- common/range.go:485-491 -/
def unknownDateRange : DateRange :=
  { lower := some { unknown := true }, upper := some { unknown := true } }
/-- common/range.go:493-499 -/
def openDateRange : DateRange :=
  { lower := some { isOpen := true }, upper := some { isOpen := true } }

/-- common/span.go:247-258 -/
def emptyDateSpan : DateSpan := ⟨some emptyDateRange, some emptyDateRange⟩
/-- common/span.go:260-271 -/
def unknownDateSpan : DateSpan := ⟨some unknownDateRange, some unknownDateRange⟩
/-- common/span.go:273-284 -/
def openDateSpan : DateSpan := ⟨some openDateRange, some openDateRange⟩

/-- A dated boundary as built in common/span.go:183-225. -/
def mkDate (r : StringRange) (ymd : YMD) (t : Int) : Date :=
  Date.setTime { ymd := some ymd, uncertain := r.uncertain, approximate := r.approximate,
                 precision := r.precision } t

/-- common/span.go:122-179: the four times (start lower, start upper, end lower, end upper). -/
def spanTimes (same : Bool) (start_ymd end_ymd : YMD) : Res (Int × Int × Int × Int) :=
  if same then do
    let st ← timeWithYMD start_ymd HMS_LOWER
    let et ← timeWithYMD end_ymd HMS_UPPER
    .ok (st, st, et, et)
  else do
    let sl ← timeWithYMD start_ymd HMS_LOWER
    let su ← timeWithYMD start_ymd HMS_UPPER
    let el ← timeWithYMD end_ymd HMS_LOWER
    let eu ← timeWithYMD end_ymd HMS_UPPER
    .ok (sl, su, el, eu)

/-- common/span.go:90-245 -/
def dateSpanFromYMD (edtf_str : Str) : Res DateSpan := do
  let r ← stringRangeFromYMD edtf_str
  let start_ymd ← ymdFromStrings r.start.year r.start.month r.start.day
  let end_ymd ← ymdFromStrings r.stop.year r.stop.month r.stop.day
  let (sl, su, el, eu) ← spanTimes (r.stop.equals r.start) start_ymd end_ymd
  .ok ⟨some ⟨edtf_str, some (mkDate r start_ymd sl), some (mkDate r start_ymd su)⟩,
       some ⟨edtf_str, some (mkDate r end_ymd el), some (mkDate r end_ymd eu)⟩⟩

/-- common/span.go:57-88.  (In the source the name differs from the exported
function only in the case of its first letter.) -/
def halfSpan (edtf_str : Str) : Res DateSpan :=
  if edtf_str = UNKNOWN then
    .ok ⟨some { unknownDateRange with edtf := edtf_str }, some { unknownDateRange with edtf := edtf_str }⟩
  else if edtf_str = OPEN then
    .ok ⟨some { openDateRange with edtf := edtf_str }, some { openDateRange with edtf := edtf_str }⟩
  else dateSpanFromYMD edtf_str

/-- common/span.go:46-52: pointer assignments between the two halves.  The
objects involved are freshly allocated and distinct, so updating copies gives
the same result. -/
def joinHalves (left right : DateSpan) : Res DateSpan := do
  let ls ← Res.deref left.start
  let le ← Res.deref left.stop
  let re ← Res.deref right.stop
  let rs ← Res.deref right.start
  .ok ⟨some { ls with upper := le.upper }, some { re with lower := rs.lower }⟩

/-- common/span.go:9-53 -/
def dateSpanFromEDTF (edtf_str : Str) : Res DateSpan :=
  match splitChar '/' edtf_str with
  | [l, r] => do
    let left ← halfSpan l
    let right ← halfSpan r
    joinHalves left right
  | [l] => dateSpanFromYMD l
  | _ => .err (Invalid (c! "date span") edtf_str)

/-- The `d := &edtf.EDTFDate{…}` at the end of every feature parser. -/
def mkEDTF (sp : DateSpan) (edtf_str : Str) (level : Int) (feature : Str) : EDTFDate :=
  ⟨sp.start, sp.stop, edtf_str, level, feature⟩

end EDTF
