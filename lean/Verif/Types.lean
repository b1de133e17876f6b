/-
The package's data types and their methods: edtf.go, date.go, daterange.go,
datespan.go, ymd.go, precision.go, timestamp.go, deprecated.go.
-/
import Verif.Calendar
namespace EDTF

/-- precision.go:20 (uint32) -/
abbrev Prec := BitVec 32

namespace Prec
/-- precision.go:6 -/
def NONE : Prec := 0
/-- precision.go:7: `1 << iota` with iota = 1 -/
def ALL : Prec := 2
/-- precision.go:8 -/
def ANY : Prec := 4
/-- precision.go:9 -/
def DAY : Prec := 8
/-- precision.go:10 -/
def WEEK : Prec := 16
/-- precision.go:11 -/
def MONTH : Prec := 32
/-- precision.go:12 -/
def YEAR : Prec := 64
/-- precision.go:13 -/
def DECADE : Prec := 128
/-- precision.go:14 -/
def CENTURY : Prec := 256
/-- precision.go:15 -/
def MILLENIUM : Prec := 512

/-- precision.go:22 -/
def hasFlag (f flag : Prec) : Bool := f &&& flag != 0
/-- precision.go:23 -/
def addFlag (f flag : Prec) : Prec := f ||| flag
/-- precision.go:24 -/
def clearFlag (f flag : Prec) : Prec := f &&& ~~~flag
/-- precision.go:25 -/
def toggleFlag (f flag : Prec) : Prec := f ^^^ flag
/-- precision.go:27-29 -/
def isAnnual (f : Prec) : Bool := hasFlag f YEAR
/-- precision.go:31-33 -/
def isMonthly (f : Prec) : Bool := hasFlag f MONTH
/-- precision.go:35-37 -/
def isDaily (f : Prec) : Bool := hasFlag f DAY
end Prec

/-- ymd.go:7-11 -/
structure YMD where
  year : Int
  month : Int
  day : Int
  deriving DecidableEq, Repr

/-- ymd.go:17-32 -/
def YMD.equals (a b : YMD) : Bool :=
  if a.year ≠ b.year then false
  else if a.month ≠ b.month then false
  else if a.day ≠ b.day then false
  else true

/-- date.go:8-19.  The zero value is `{}`. -/
structure Date where
  dateTime : Str := []
  timestamp : Option Int := none
  ymd : Option YMD := none
  uncertain : Prec := 0
  approximate : Prec := 0
  unspecified : Prec := 0
  precision : Prec := 0
  isOpen : Bool := false
  unknown : Bool := false
  inclusivity : Prec := 0
  deriving DecidableEq, Repr

/-- date.go:21-24, timestamp.go:13-15 -/
def Date.setTime (d : Date) (t : Int) : Date :=
  { d with dateTime := formatRFC3339 t, timestamp := some t }

/-- daterange.go:7-11.  Pointers are options. -/
structure DateRange where
  edtf : Str := []
  lower : Option Date := none
  upper : Option Date := none
  deriving DecidableEq, Repr

/-- datespan.go:7-10.  (`stop` is the field `End`.) -/
structure DateSpan where
  start : Option DateRange
  stop : Option DateRange
  deriving DecidableEq, Repr

/-- edtf.go:58-64 -/
structure EDTFDate where
  start : Option DateRange
  stop : Option DateRange
  edtf : Str
  level : Int
  feature : Str
  deriving DecidableEq, Repr

/-- edtf.go:8 -/
def UNCERTAIN : Str := c! "?"
/-- edtf.go:9 -/
def APPROXIMATE : Str := c! "~"
/-- edtf.go:10 -/
def UNCERTAIN_AND_APPROXIMATE : Str := c! "%"
/-- edtf.go:11 -/
def OPEN : Str := c! ".."
/-- edtf.go:12 -/
def OPEN_2012 : Str := c! "open"
/-- edtf.go:13 -/
def UNSPECIFIED : Str := []
/-- edtf.go:14 -/
def UNSPECIFIED_2012 : Str := c! "uuuu"
/-- edtf.go:15 -/
def UNKNOWN : Str := UNSPECIFIED
/-- edtf.go:16 -/
def UNKNOWN_2012 : Str := UNSPECIFIED_2012
/-- edtf.go:20 -/
def HMS_LOWER : Str := c! "00:00:00"
/-- edtf.go:21 -/
def HMS_UPPER : Str := c! "23:59:59"
/-- edtf.go:23 -/
def MAX_YEARS : Int := 9999

/-- edtf.go:26-34 -/
def isOpenStr (s : Str) : Bool := s == OPEN || s == OPEN_2012
/-- edtf.go:37-45 -/
def isUnspecifiedStr (s : Str) : Bool := s == UNSPECIFIED || s == UNSPECIFIED_2012
/-- edtf.go:48-56 -/
def isUnknownStr (s : Str) : Bool := s == UNKNOWN || s == UNKNOWN_2012

/-- edtf.go:66-75: the Unix time of Lower().  timestamp.go:17-23 converts to
`time.Time`; taking the Unix time of that gives back the same number (see
`goSeconds` for comparisons). -/
def EDTFDate.lower (d : EDTFDate) : Res Int := do
  let r ← Res.deref d.start
  let l ← Res.deref r.lower
  match l.timestamp with
  | none => .err NotSet
  | some t => .ok t

/-- edtf.go:77-86 -/
def EDTFDate.upper (d : EDTFDate) : Res Int := do
  let r ← Res.deref d.stop
  let u ← Res.deref r.upper
  match u.timestamp with
  | none => .err NotSet
  | some t => .ok t

/-- edtf.go:96-98 -/
def EDTFDate.string (d : EDTFDate) : Str := d.edtf

/-- `fmt.Errorf("… %w", err)`: the error is wrapped, a panic stays a panic. -/
def wrapErr {α : Type} : Res α → Res α
  | .err e => .err (.wrapped e)
  | r => r

/-- timestamp.go:17-23: `time.Unix(t, 0)` keeps the seconds since the year 1, a
64-bit sum that wraps around; `time.Time.After` and `Before` compare these. -/
def goSeconds (t : Int) : Int := wrap64 (t + 62135596800)

/-- edtf.go:101-124 -/
def EDTFDate.after (d u : EDTFDate) : Res Bool :=
  if isOpenStr d.edtf then .ok false
  else do
    let ut ← wrapErr u.upper
    let t ← wrapErr d.lower
    if goSeconds ut > goSeconds t then .ok false else .ok true

/-- edtf.go:127-150 -/
def EDTFDate.before (d u : EDTFDate) : Res Bool :=
  if isOpenStr d.edtf then .ok false
  else do
    let ut ← wrapErr u.lower
    let t ← wrapErr d.upper
    if goSeconds ut < goSeconds t then .ok false else .ok true

/-- deprecated.go:11-14 (a map; the keys are distinct) -/
def deprecatedTable : List (Str × Str) :=
  [(OPEN_2012, OPEN), (UNSPECIFIED_2012, UNSPECIFIED)]

/-- deprecated.go:19-29 -/
def isDeprecated (s : Str) : Bool := deprecatedTable.any (fun p => s == p.1)

/-- deprecated.go:32-42 -/
def replaceDeprecated (old : Str) : Res Str :=
  match deprecatedTable.lookup old with
  | some new => .ok new
  | none => .err .plain

/-- timestamp.go:29-40: trims quotes on both sides, then ParseInt. -/
def unmarshalTimestamp (b : Str) : Res Int :=
  Res.ofOption (parseInt 64 (trimChar '"' b))

/-- timestamp.go:42-45 -/
def marshalTimestamp (ts : Int) : Str := itoa ts

end EDTF
