/-
Texts for people: `Error()` of the error types and `String()` of the records.
-/
import Verif.Common
namespace EDTF

/-- `fmt` with `'%s' (%s)`: errors.go:34, 60, 86, 112 -/
def quotedWith (before edtf label : Str) : Str := before ++ c! " '" ++ edtf ++ c! "' (" ++ label ++ c! ")"

/-- The text of an error, errors.go:10-12, 33-35, 59-61, 85-87, 111-113.  The texts of
plain errors come from the standard library (see `Message`), and those of wrapped errors
are made of two texts by `fmt.Errorf`. -/
def Err.text : Err → Option Str
  | .notSet => some (c! "This property has not (or can not) been set")
  | .notImplemented label edtf => some (quotedWith (c! "Not implemented") edtf label)
  | .invalid label edtf => some (quotedWith (c! "Invalid EDTF string") edtf label)
  | .unsupported label edtf => some (quotedWith (c! "Unsupported EDTF string") edtf label)
  | .unrecognized label edtf => some (quotedWith (c! "Unrecognized EDTF string") edtf label)
  | .plain => none
  | .wrapped _ => none

/-- `%v` of a pointer whose type has a `String` method: fmt recovers from the panic of a
nil receiver and prints `<nil>`. -/
def viaString {α : Type} (f : α → Str) : Option α → Str
  | some a => f a
  | none => c! "<nil>"

/-- ymd.go:13-15 -/
def YMD.string (v : YMD) : Str :=
  c! "[*edtf.YMD] Y: '" ++ itoa v.year ++ c! "' M: '" ++ itoa v.month ++ c! "' D: '" ++ itoa v.day ++ c! "'"

/-- `%v` of a pointer to a Timestamp, which has no `String` method: `&` and the fields
in braces (timestamp.go:9-11). -/
def timestampString (t : Int) : Str := c! "&{" ++ itoa t ++ c! "}"

/-- date.go:26-28 -/
def Date.string (d : Date) : Str :=
  c! "[[*edtf.Date] Time: '" ++ viaString timestampString d.timestamp ++ c! "' YMD: '" ++ viaString YMD.string d.ymd ++ c! "']"

/-- daterange.go:13-15; the last bracket is an opening one, as in the source. -/
def DateRange.string (r : DateRange) : Str :=
  c! "[[*edtf.DateRange] Lower: '" ++ viaString Date.string r.lower ++ c! "' Upper: '" ++ viaString Date.string r.upper ++ c! "'["

/-- datespan.go:12-14 -/
def DateSpan.string (s : DateSpan) : Str :=
  c! "[[*edtf.DateSpan] Start: '" ++ viaString DateRange.string s.start ++ c! "' End: '" ++ viaString DateRange.string s.stop ++ c! "']"

/-- common/range.go:17-19; the type is "Group" or "Individual" (lines 511-531). -/
def Qualifier.string (q : Qualifier) : Str :=
  c! "[*common.Qualifier] Value: '" ++ q.value ++ c! "' Type: '" ++ (if q.group then c! "Group" else c! "Individual") ++ c! "'"

/-- common/range.go:30-32 -/
def StringDate.string (d : StringDate) : Str :=
  c! "[[*common.StringDate] Y: '" ++ d.year ++ c! "' M: '" ++ d.month ++ c! "' D: '" ++ d.day ++ c! "']"

/-- common/range.go:60-62.  (The pointers of a range are never nil.) -/
def StringRange.string (r : StringRange) : Str :=
  c! "[[*common.StringRange] Start: '" ++ r.start.string ++ c! "' End: '" ++ r.stop.string ++ c! "']"

end EDTF
