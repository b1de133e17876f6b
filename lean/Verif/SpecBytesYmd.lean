/-
What the helpers for years, months and days return for strings of bytes, whether they are UTF-8 or
not.
-/
import Verif.SpecBytesDirect
import Verif.SpecMessageYmd
namespace EDTF.Spec

/-! ### Numbers -/

/-- Bytes in quotation marks, as package strconv writes them: a byte where no character begins is
written as a number. -/
inductive EscapedBytes : Bytes → Str → Prop
  | nil : EscapedBytes [] []
  | char (c : Char) (p b : Bytes) (u v : Str) (hp : IsUtf8 p [c]) (hu : Escaped c u) (h : EscapedBytes b v) : EscapedBytes (p ++ b) (u ++ v)
  | byte (x : UInt8) (b : Bytes) (v : Str) (hx : ∀ c p q, x :: b = p ++ q → ¬ IsUtf8 p [c]) (h : EscapedBytes b v) :
      EscapedBytes (x :: b) (c! "\\x" ++ hex2 x.toNat ++ v)

/-- A decimal integer of 64 bits. -/
def IntBytes (b : Bytes) (v : Int) : Prop := ∃ s, IsUtf8 b s ∧ IntText s v

/-- Bytes that begin with a number of more than 64 bits. -/
def LongBytes (b : Bytes) : Prop :=
  ∃ sg ds rest, (sg = [] ∨ sg = c! "-" ∨ sg = c! "+") ∧ (∀ d ∈ ds, d < 10) ∧ 2 ^ 64 ≤ value10 ds ∧ b = ascii (sg ++ ds.map dig) ++ rest

/-- Why bytes are no decimal integer of 64 bits. -/
inductive NoIntBytesReason (b : Bytes) : Str → Prop
  | long (h : LongBytes b) : NoIntBytesReason b (c! "value out of range")
  | range (s : Str) (v : Int) (hs : IsUtf8 b s) (h : Decimal s v) (hv : v < -2 ^ 63 ∨ 2 ^ 63 ≤ v) : NoIntBytesReason b (c! "value out of range")
  | other (h1 : ∀ s v, IsUtf8 b s → ¬ Decimal s v) (h2 : ¬ LongBytes b) : NoIntBytesReason b (c! "invalid syntax")

/-- What is said of bytes that are no decimal integer of 64 bits. -/
def NoIntBytes (b t : Bytes) : Prop :=
  ∃ q r, EscapedBytes b q ∧ NoIntBytesReason b r ∧ IsUtf8 t (c! "strconv.Atoi: parsing \"" ++ q ++ c! "\": " ++ r)

/-! ### Pieces -/

/-- The pieces of bytes between the hyphens. -/
inductive DashBytes : Bytes → List Bytes → Prop
  | last (p : Bytes) (h : 0x2D ∉ p) : DashBytes p [p]
  | more (p q : Bytes) (ps : List Bytes) (h : 0x2D ∉ p) (k : DashBytes q ps) : DashBytes (p ++ 0x2D :: q) (p :: ps)

/-! ### Days of a month -/

/-- The number of days for the bytes of a year and of a month: the year first, then the month. -/
inductive DaysBytes (a b : Bytes) : Said Int → Prop
  | year (t : Bytes) (h : NoIntBytes a t) : DaysBytes a b (.fault t)
  | month (y : Int) (hy : IntBytes a y) (t : Bytes) (h : NoIntBytes b t) : DaysBytes a b (.fault t)
  | days (y m : Int) (hy : IntBytes a y) (hm : IntBytes b m) (w : Str) (h : DaysComplaint y m w) (t : Bytes) (ht : IsUtf8 t w) : DaysBytes a b (.fault t)
  | ok (y m n : Int) (hy : IntBytes a y) (hm : IntBytes b m) (h : DaysOutcome y m (.ok n)) : DaysBytes a b (.ok n)

/-- The same from one string.  What stands before the first of two hyphens may be any bytes. -/
inductive DaysBytesText (b : Bytes) : Said Int → Prop
  | two (p q : Bytes) (h : DashBytes b [p, q]) (r : Said Int) (hr : DaysBytes p q r) : DaysBytesText b r
  | three (x p q : Bytes) (h : DashBytes b [x, p, q]) (r : Said Int) (hr : DaysBytes (0x2D :: p) q r) : DaysBytesText b r
  | error (ps : List Bytes) (h : DashBytes b ps) (h2 : ps.length ≠ 2) (h3 : ps.length ≠ 3) :
      DaysBytesText b (.fault (ascii (c! "Invalid YYYYMM string")))

/-! ### Year, month and day -/

/-- What is said of the bytes of a year, a month and a day, one of which is not UTF-8. -/
inductive BrokenYmd (y m d : Bytes) : Bytes → Prop
  | noYear (h : y = []) : BrokenYmd y m d (ascii (c! "Missing year"))
  | noMonth (h : y ≠ []) (hm : m = []) (hd : d ≠ []) : BrokenYmd y m d (ascii (c! "Missing month"))
  | year (h : y ≠ []) (hm : m = [] → d = []) (t : Bytes) (ht : NoIntBytes y t) : BrokenYmd y m d t
  | month (v : Int) (hy : IntBytes y v) (h : m ≠ []) (t : Bytes) (ht : NoIntBytes m t) : BrokenYmd y m d t
  | day (v w : Int) (hy : IntBytes y v) (hm : IntBytes m w) (t : Bytes) (ht : NoIntBytes d t) : BrokenYmd y m d t

/-- The outcome for the bytes of a year, a month and a day. -/
inductive YmdBytes (y m d : Bytes) : Said YMD → Prop
  | ok (s t u : Str) (hy : IsUtf8 y s) (hm : IsUtf8 m t) (hd : IsUtf8 d u) (v : YMD) (h : YmdOutcome s t u (.ok v)) : YmdBytes y m d (.ok v)
  | says (s t u : Str) (hy : IsUtf8 y s) (hm : IsUtf8 m t) (hd : IsUtf8 d u) (w : Str) (h : YmdSays s t u w) (x : Bytes) (hx : IsUtf8 x w) :
      YmdBytes y m d (.fault x)
  | broken (h : ¬ ∃ s t u, IsUtf8 y s ∧ IsUtf8 m t ∧ IsUtf8 d u) (x : Bytes) (hx : BrokenYmd y m d x) : YmdBytes y m d (.fault x)

/-- The same from one string.  What stands before the first of three hyphens may be any bytes. -/
inductive YmdBytesText (b : Bytes) : Said YMD → Prop
  | one (p : Bytes) (h : DashBytes b [p]) (r : Said YMD) (hr : YmdBytes p [] [] r) : YmdBytesText b r
  | two (p q : Bytes) (h : DashBytes b [p, q]) (r : Said YMD) (hr : YmdBytes p q [] r) : YmdBytesText b r
  | three (p q s : Bytes) (h : DashBytes b [p, q, s]) (r : Said YMD) (hr : YmdBytes p q s r) : YmdBytesText b r
  | four (x p q s : Bytes) (h : DashBytes b [x, p, q, s]) (r : Said YMD) (hr : YmdBytes (0x2D :: p) q s r) : YmdBytesText b r
  | error (ps : List Bytes) (h : DashBytes b ps) (hl : 4 < ps.length) : YmdBytesText b (.fault (ascii (c! "Invalid YMD string")))

end EDTF.Spec
