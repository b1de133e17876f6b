/- What the methods of Timestamp for JSON do with bytes. -/
import Verif.TimestampBytes
import Verif.SpecBytesYmd
namespace EDTF.Spec

/-- `m` is `b` without the quotes at both ends, however many there are. -/
def InQuotes (b m : Bytes) : Prop :=
  (∃ i j, b = List.replicate i 0x22 ++ m ++ List.replicate j 0x22) ∧ m.head? ≠ some 0x22 ∧ m.getLast? ≠ some 0x22

/-- What becomes of the timestamp `ts`, and the error if there is one. -/
inductive TimestampRead (ts : Int) (b : Bytes) : Int × Option Bytes → Prop
  | ok (m : Bytes) (h : InQuotes b m) (v : Int) (hv : IntBytes m v) : TimestampRead ts b (v, none)
  | error (m : Bytes) (h : InQuotes b m) (q r : Str) (hq : EscapedBytes m q) (hr : NoIntBytesReason m r) (t : Bytes)
      (ht : IsUtf8 t (c! "strconv.ParseInt: parsing \"" ++ q ++ c! "\": " ++ r)) : TimestampRead ts b (ts, some t)

end EDTF.Spec
