/- What TimeWithYMD and TimeWithYMDString return for strings of bytes, whether they are UTF-8 or not. -/
import Verif.SpecFloat
import Verif.SpecBytesYmd
import Verif.SpecYmd
namespace EDTF.Spec

/-- Bytes, as characters, in quotation marks, as package time writes them. -/
def bytesQuoted (s : Str) : Str :=
  c! "\"" ++ s.flatMap (fun c => if c = '"' ∨ c = '\\' then ['\\', c] else if c.toNat < 32 ∨ 127 < c.toNat then byteText (.ofNat c.toNat) else [c]) ++ c! "\""

/-- The first part that cannot be read, and what is said of it. -/
inductive BytesStop (layout : Str) : List TimePart → Str → Str → Prop
  | here (p : TimePart) (ps : List TimePart) (s : Str) (h1 : ∀ n rest, ¬ Takes p s n rest) (h2 : ∀ w, ¬ Over p s w) :
      BytesStop layout (p :: ps) s (c! " as " ++ bytesQuoted layout ++ c! ": cannot parse " ++ bytesQuoted s ++ c! " as " ++ bytesQuoted p.sign)
  | over (p : TimePart) (ps : List TimePart) (s w : Str) (h : Over p s w) : BytesStop layout (p :: ps) s (c! ": " ++ w ++ c! " out of range")
  | extra (s : Str) (h : s ≠ []) : BytesStop layout [] s (c! ": extra text: " ++ bytesQuoted s)
  | later (p : TimePart) (ps : List TimePart) (s rest : Str) (n : Nat) (h : Takes p s n rest) (w : Str) (k : BytesStop layout ps rest w) :
      BytesStop layout (p :: ps) s w

/-- What is said of bytes that are no date and time; that there is no such day comes last. -/
inductive TimeBytesSays (s : Str) : Str → Prop
  | stops (w : Str) (h : BytesStop (c! "2006-01-02T15:04:05") dateTimeParts s w) : TimeBytesSays s (c! "parsing time " ++ bytesQuoted s ++ w)
  | day (y m d : Nat) (ns : List Nat) (h : TakesAll dateTimeParts s (y :: 0 :: m :: 0 :: d :: ns)) (hd : d = 0 ∨ monthLen y m < d) :
      TimeBytesSays s (c! "parsing time " ++ bytesQuoted s ++ c! ": day out of range")

/-- The instant of a date and the bytes of a time of day. -/
inductive InstantBytes (f : Int → Nat → Nat → Int) (v : YMD) (b : Bytes) : Said Int → Prop
  | ok (n : Int) (h : InstantOutcome f v (byteChars b) (.ok n)) : InstantBytes f v b (.ok n)
  | fault (w : Str) (h : TimeBytesSays (instantText v (byteChars b)) w) (t : Bytes) (ht : IsUtf8 t w) : InstantBytes f v b (.fault t)

/-- The same from four strings of bytes. -/
inductive InstantBytesText (f : Int → Nat → Nat → Int) (y m d b : Bytes) : Said Int → Prop
  | date (t : Bytes) (h : YmdBytes y m d (.fault t)) : InstantBytesText f y m d b (.fault t)
  | time (v : YMD) (h : YmdBytes y m d (.ok v)) (r : Said Int) (hr : InstantBytes f v b r) : InstantBytesText f y m d b r

end EDTF.Spec
