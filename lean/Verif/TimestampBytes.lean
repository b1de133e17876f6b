/- The methods of Timestamp for JSON on bytes, with the texts of their errors. -/
import Verif.BytesDirect
namespace EDTF

/-- strings.Trim(string(b), "\"") (timestamp.go:31) -/
def trimQuotes (b : Bytes) : Bytes := ((b.dropWhile (· == 0x22)).reverse.dropWhile (· == 0x22)).reverse

/-- strconv.ParseInt(s, 10, 64) on bytes (timestamp.go:32), with the text of its *NumError. -/
def parseIntBytes (b : Bytes) : Said Int :=
  match parseInt 64 (runes b) with
  | some v => .ok v
  | none => .fault (encode (c! "strconv.ParseInt: parsing " ++ quoteBytes b ++ c! ": " ++ numMessage 64 (runes b)))

/-- timestamp.go:29-40: the timestamp `ts` afterwards, and the text of the error if there is one.
ParseInt does not panic (`parseIntBytes_panic`); the last line is there because `Said` has that outcome. -/
def unmarshalTimestampBytes (ts : Int) (b : Bytes) : Int × Option Bytes :=
  match parseIntBytes (trimQuotes b) with
  | .ok i => (i, none)
  | .fault e => (ts, some e)
  | .panic => (ts, none)

/-- timestamp.go:42-45; there is no error. -/
def marshalTimestampBytes (ts : Int) : Bytes := encode (itoa ts)

end EDTF
