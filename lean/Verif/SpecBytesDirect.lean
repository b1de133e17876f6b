/-
The specification of what the single functions do with strings of bytes.
-/
import Verif.SpecBytes
import Verif.SpecMessageDirect
import Verif.BytesDirect
namespace EDTF.Spec

/-- What is said of bytes that have not the form. -/
def invalidBytesText (label : Str) (b : Bytes) : Bytes := ascii (c! "Invalid EDTF string '") ++ b ++ ascii (c! "' (" ++ label ++ c! ")")

/-- The outcome for bytes, given that for the characters: the text of the result is the bytes, and
what an error says is written in UTF-8. -/
inductive SaidOf (b : Bytes) : Told EDTFDate → Said ByteDate → Prop
  | ok (d : EDTFDate) : SaidOf b (.ok d) (.ok ⟨d.start, d.stop, b, d.level, d.feature⟩)
  | fault (e : Fault) (t : Bytes) (h : IsUtf8 t e.text) : SaidOf b (.fault e) (.fault t)
  | panic : SaidOf b .panic .panic

/-- The function says of UTF-8 what the other says of the characters. -/
def SameOnUtf8 (F : Bytes → Said ByteDate) (P : Str → Told EDTFDate) : Prop := ∀ b s, IsUtf8 b s → SaidOf b (P s) (F b)

/-- The function refuses all other bytes and repeats them as they are. -/
def RefusesBroken (F : Bytes → Said ByteDate) (label : Str) : Prop := ∀ b, (¬ ∃ s, IsUtf8 b s) → F b = .fault (invalidBytesText label b)

/-- Bytes that begin with a year and a month or season. -/
def SeasonBytesStart (b : Bytes) : Prop :=
  ∃ (neg : Bool) (n m : Nat) (rest : Bytes), n < 10000 ∧ ((1 ≤ m ∧ m ≤ 12) ∨ (21 ≤ m ∧ m ≤ 24)) ∧
    b = ascii (signed neg (pad4 n) ++ '-' :: pad2 m) ++ rest

/-- The first year and month and the last year and month of the season in a string of bytes.  What
comes after a number, and what comes before a name, is any bytes. -/
inductive SeasonBytes : Bytes → Int → Nat → Int → Nat → Prop
  | month (neg : Bool) (n m : Nat) (hn : n < 10000) (h1 : 1 ≤ m) (h2 : m ≤ 12) (rest : Bytes) :
      SeasonBytes (ascii (signed neg (pad4 n) ++ '-' :: pad2 m) ++ rest) (if neg then -(n : Int) else n) m (if neg then -(n : Int) else n) m
  | season (neg : Bool) (n : Nat) (hn : n < 10000) (z : Season) (rest : Bytes) :
      SeasonBytes (ascii (signed neg (pad4 n) ++ '-' :: pad2 z.code) ++ rest) (if neg then -(n : Int) else n) z.firstMonth
        (z.lastYear (if neg then -(n : Int) else n)) z.lastMonth
  | name (pre x : Bytes) (w t1 t2 : Str) (z : Season) (n : Nat) (hw : Folded z.word w) (h1 : Blank t1) (h2 : Blank t2) (hn : n < 10000)
      (hx : IsUtf8 x (w ++ (t1 ++ ',' :: (t2 ++ pad4 n)))) (hp : ¬ SeasonBytesStart (pre ++ x)) :
      SeasonBytes (pre ++ x) n z.firstMonth (z.lastYear n) z.lastMonth

/-- What the error for the span of bytes that are not UTF-8 says.  The left side comes first. -/
inductive BrokenSpan : Bytes → Bytes → Prop
  | one {b : Bytes} (h : 0x2F ∉ b) : BrokenSpan b (invalidBytesText (c! "date") b)
  | left {l r : Bytes} (hl : 0x2F ∉ l) (hr : 0x2F ∉ r) (h : ¬ ∃ s, IsUtf8 l s) : BrokenSpan (l ++ 0x2F :: r) (invalidBytesText (c! "date") l)
  | failed {l r t : Bytes} {s w : Str} (hr : 0x2F ∉ r) (hs : IsUtf8 l s) (hn : '/' ∉ s) (ho : s ≠ [] ∧ s ≠ c! "..")
      (h : SpanErrorText s w) (ht : IsUtf8 t w) : BrokenSpan (l ++ 0x2F :: r) t
  | right {l r : Bytes} {s : Str} (hr : 0x2F ∉ r) (hs : IsUtf8 l s) (hn : '/' ∉ s) (h : s = [] ∨ s = c! ".." ∨ ∀ w, ¬ SpanErrorText s w) :
      BrokenSpan (l ++ 0x2F :: r) (invalidBytesText (c! "date") r)
  | many {a b c : Bytes} : BrokenSpan (a ++ 0x2F :: (b ++ 0x2F :: c)) (invalidBytesText (c! "date span") (a ++ 0x2F :: (b ++ 0x2F :: c)))

end EDTF.Spec
