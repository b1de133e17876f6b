/-
What common.ParseExponentialNotation returns for every string: which strings are numbers, what
the number is, and what is said of the others.  A byte is taken as the character with its number.
-/
import Verif.SpecBytesDirect
import Verif.SpecMessageYmd
namespace EDTF.Spec

/-- The bytes as characters. -/
def byteChars (b : Bytes) : Str := b.map fun x => Char.ofNat x.toNat

/-- The names of infinities. -/
def infinities : List Str := [c! "Inf", c! "inf", c! "+Inf", c! "+inf", c! "-Inf", c! "-inf"]

/-- A sign, if there is one, and what follows. -/
inductive SignThen : Str → Bool → Str → Prop
  | minus (t : Str) : SignThen ('-' :: t) true t
  | plus (t : Str) : SignThen ('+' :: t) false t
  | none (t : Str) (h1 : ∀ u, t ≠ '-' :: u) (h2 : ∀ u, t ≠ '+' :: u) : SignThen t false t

/-- Digits with or without a point, how many of them are after the point, and what follows.  There
may be no digits at all. -/
inductive MantissaThen : Str → List Nat → Nat → Str → Prop
  | whole (us : List Nat) (hu : ∀ d ∈ us, d < 10) (rest : Str) (hr : NoDigitNext rest) (hp : ∀ t, rest ≠ '.' :: t) :
      MantissaThen (us.map dig ++ rest) us 0 rest
  | point (us vs : List Nat) (hu : ∀ d ∈ us, d < 10) (hv : ∀ d ∈ vs, d < 10) (rest : Str) (hr : NoDigitNext rest) :
      MantissaThen (us.map dig ++ '.' :: (vs.map dig ++ rest)) (us ++ vs) vs.length rest

/-- An exponent of 64 bits, if there is one, to base 2 or 10, and what follows. -/
inductive ExponentThen : Str → Bool → Int → Str → Prop
  | none (rest : Str) (h : ∀ c t, c ∈ c! "eEpP" → rest ≠ c :: t) : ExponentThen rest false 0 rest
  | some (c : Char) (hc : c ∈ c! "eEpP") (t : Str) (neg : Bool) (es : List Nat) (he : Digits es) (rest : Str) (hr : NoDigitNext rest)
      (ht : SignThen t neg (es.map dig ++ rest)) (h1 : neg = false → value10 es < 2 ^ 63) (h2 : neg = true → value10 es ≤ 2 ^ 63) :
      ExponentThen (c :: t) (c ∈ c! "pP") (if neg then -(value10 es : Int) else value10 es) rest

/-- What is said of an exponent without digits or of more than 64 bits. -/
inductive BadExponent : Str → Str → Prop
  | empty (c : Char) (hc : c ∈ c! "eEpP") (t : Str) (neg : Bool) (rest : Str) (hr : NoDigitNext rest) (ht : SignThen t neg rest) :
      BadExponent (c :: t) (c! "number has no digits")
  | large (c : Char) (hc : c ∈ c! "eEpP") (t : Str) (neg : Bool) (es : List Nat) (he : Digits es) (rest : Str) (hr : NoDigitNext rest)
      (ht : SignThen t neg (es.map dig ++ rest)) (h1 : neg = false → 2 ^ 63 ≤ value10 es) (h2 : neg = true → 2 ^ 63 < value10 es) :
      BadExponent (c :: t) (c! "strconv.ParseInt: parsing " ++ quoted (signed neg (es.map dig)) ++ c! ": value out of range")

/-- A number with an exponent that a float of package big can have, and what follows. -/
def NumberThen (s : Str) (neg : Bool) (ds : List Nat) (d : Nat) (binary : Bool) (e : Int) (rest : Str) : Prop :=
  ∃ t u, SignThen s neg t ∧ MantissaThen t ds d u ∧ ds ≠ [] ∧ ExponentThen u binary e rest ∧
    (value10 ds = 0 ∨ (-2 ^ 31 ≤ (Nat.log2 (value10 ds) : Int) + 1 + (e - d) ∧ (Nat.log2 (value10 ds) : Int) + 1 + (e - d) ≤ 2 ^ 31 - 1))

/-- A byte in quotation marks, as `%q` writes it. -/
inductive QuotedByte : Char → Str → Prop
  | mark (c : Char) (h : c = '\'' ∨ c = '\\') : QuotedByte c ['\'', '\\', c, '\'']
  | named (n : Nat) (l : Char) (h : (n, l) ∈ [(7, 'a'), (8, 'b'), (9, 't'), (10, 'n'), (11, 'v'), (12, 'f'), (13, 'r')]) :
      QuotedByte (Char.ofNat n) ['\'', '\\', l, '\'']
  | control (c : Char) (h : c.toNat < 7 ∨ (13 < c.toNat ∧ c.toNat < 32) ∨ c.toNat = 127) :
      QuotedByte c (c! "'\\x" ++ hex2 c.toNat ++ c! "'")
  | latin (c : Char) (h : (128 ≤ c.toNat ∧ c.toNat ≤ 160) ∨ c.toNat = 173) : QuotedByte c (c! "'\\u00" ++ hex2 c.toNat ++ c! "'")
  | plain (c : Char) (h1 : c ≠ '\'') (h2 : c ≠ '\\') (h : (32 ≤ c.toNat ∧ c.toNat < 127) ∨ (161 ≤ c.toNat ∧ c.toNat ≠ 173)) :
      QuotedByte c ['\'', c, '\'']

/-- What is said of a string that is no number. -/
inductive NotationSays (s : Str) : Str → Prop
  | empty (h : s = []) : NotationSays s (c! "EOF")
  | digits (h0 : s ≠ []) (hi : s ∉ infinities) (neg : Bool) (t u : Str) (d : Nat) (ht : SignThen s neg t) (hu : MantissaThen t [] d u) :
      NotationSays s (c! "number has no digits")
  | exponent (neg : Bool) (t u w : Str) (ds : List Nat) (d : Nat) (ht : SignThen s neg t) (hu : MantissaThen t ds d u) (h : ds ≠ [])
      (hw : BadExponent u w) : NotationSays s w
  | overflow (neg binary : Bool) (t u rest : Str) (ds : List Nat) (d : Nat) (e : Int) (ht : SignThen s neg t) (hu : MantissaThen t ds d u)
      (h : ds ≠ []) (he : ExponentThen u binary e rest) (h0 : value10 ds ≠ 0)
      (hr : (Nat.log2 (value10 ds) : Int) + 1 + (e - d) < -2 ^ 31 ∨ 2 ^ 31 - 1 < (Nat.log2 (value10 ds) : Int) + 1 + (e - d)) :
      NotationSays s (c! "exponent overflow")
  | extra (neg binary : Bool) (ds : List Nat) (d : Nat) (e : Int) (c : Char) (rest q : Str) (h : NumberThen s neg ds d binary e (c :: rest))
      (hq : QuotedByte c q) : NotationSays s (c! "expected end of string, found " ++ q)

/-- The base of an exponent. -/
def base (binary : Bool) : Nat := if binary then 2 else 10

/-- The number with the digits `ds`, of which `d` are after the point, and the exponent `e` is
`top / bottom`. -/
def top (ds : List Nat) (binary : Bool) (e : Int) : Nat := value10 ds * base binary ^ e.toNat
def bottom (d : Nat) (binary : Bool) (e : Int) : Nat := 10 ^ d * base binary ^ (-e).toNat

/-- What is said of a number that is too large. -/
def unsupportedBytesText (b : Bytes) : Bytes := ascii (c! "Unsupported EDTF string '") ++ b ++ ascii (c! "' (exponential notation)")

end EDTF.Spec
