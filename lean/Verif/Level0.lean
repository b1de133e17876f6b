/- level0/*.go -/
import Verif.Common
namespace EDTF
namespace L0

/-- level0/level0.go:10 -/
def DATE : Str := c! "Date"
/-- level0/level0.go:11 -/
def DATE_AND_TIME : Str := c! "Date and Time"
/-- level0/level0.go:12 -/
def TIME_INTERVAL : Str := c! "Time Interval"

/-- level0/level0.go:14-16 -/
def isLevel0 (s : Str) : Bool := Rx.Level0.matchString s
/-- level0/date.go:22-24 -/
def isDate (s : Str) : Bool := Rx.Date.matchString s
/-- level0/date_and_time.go:31-33 -/
def isDateAndTime (s : Str) : Bool := Rx.DateAndTime.matchString s
/-- level0/time_interval.go:24-26 -/
def isTimeInterval (s : Str) : Bool := Rx.TimeInterval.matchString s

/-- level0/date.go:26-47 -/
def parseDate (s : Str) : Res EDTFDate :=
  if !Rx.Date.matchString s then .err (Invalid DATE s)
  else do
    let sp ← dateSpanFromEDTF s
    .ok (mkEDTF sp s 0 DATE)

/-- The layout chosen in level0/date_and_time.go:43-64. -/
def layoutFor (m : Nat → Str) (s : Str) : List Tok :=
  let t_fmt := layoutDateTime
  let t_fmt := if m 7 = c! "Z" then layoutDateTime ++ [.lit 'Z'] else t_fmt
  let t_fmt :=
    if m 8 = c! "-" ∨ m 8 = c! "+" then
      if hasPrefix (m 10) (c! ":") then layoutDateTime ++ [.tzColon] else layoutDateTime ++ [.tzShort]
    else t_fmt
  if hasPrefix s (c! "-") then .lit '-' :: t_fmt else t_fmt

/-- level0/date_and_time.go:35-104.  `Lower` and `Upper` of each range are the
same object in the source; nothing modifies them afterwards. -/
def parseDateAndTime (s : Str) : Res EDTFDate :=
  match Rx.DateAndTime.submatch s with
  | none => .err (Invalid DATE_AND_TIME s)
  | some m =>
    match timeParse (layoutFor m s) s with
    | none => .err .plain
    | some t =>
      let t := if hasPrefix s (c! "-") then timeToBCE t else t
      let d : Date := Date.setTime {} t
      let r : DateRange := { lower := some d, upper := some d }
      .ok ⟨some r, some r, s, 0, DATE_AND_TIME⟩

/-- level0/time_interval.go:28-49 -/
def parseTimeInterval (s : Str) : Res EDTFDate :=
  if !Rx.TimeInterval.matchString s then .err (Invalid TIME_INTERVAL s)
  else do
    let sp ← dateSpanFromEDTF s
    .ok (mkEDTF sp s 0 TIME_INTERVAL)

/-- level0/level0.go:18-33 -/
def matchesStr (s : Str) : Res Str :=
  if isDate s then .ok DATE
  else if isDateAndTime s then .ok DATE_AND_TIME
  else if isTimeInterval s then .ok TIME_INTERVAL
  else .err (Invalid (c! "Invalid Level 0 string") s)

/-- level0/level0.go:35-50 -/
def parseString (s : Str) : Res EDTFDate :=
  if isDate s then parseDate s
  else if isDateAndTime s then parseDateAndTime s
  else if isTimeInterval s then parseTimeInterval s
  else .err (Invalid (c! "Invalid Level 0 string") s)

end L0
end EDTF
