/-
The exported functions that `ParseString` does not call by themselves, with the texts of
their errors.
-/
import Verif.Message
namespace EDTF
namespace L1

/-- level1/extended_interval.go:81-113 -/
def parseExtendedIntervalStartM (s : Str) : Told EDTFDate := parseWholeM (Rx.IntervalStart.matchString s) s 1 EXTENDED_INTERVAL_START

/-- level1/extended_interval.go:115-141 -/
def parseExtendedIntervalEndM (s : Str) : Told EDTFDate := parseWholeM (Rx.IntervalEnd.matchString s) s 1 EXTENDED_INTERVAL_END

end L1

/-- common/ymd.go:11-13 -/
def ymdFromStringDateM (d : StringDate) : Told YMD := ymdFromStringsM d.year d.month d.day

/-- common/time.go:9-18 -/
def timeWithYMDStringM (str_yyyy str_mm str_dd hms : Str) : Told Int := do
  let ymd ← ymdFromStringsM str_yyyy str_mm str_dd
  timeWithYMDM ymd hms

end EDTF
