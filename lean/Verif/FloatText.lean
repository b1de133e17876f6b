/-
common.ParseExponentialNotation on every string.  `BigFloat` has the part of math/big.Float
that is needed for the strings with which the parser calls it; here is the rest: fractions,
negative and binary exponents, infinities and the errors.  math/big reads a string byte by byte.
-/
import Verif.BytesDirect
namespace EDTF

/-- A byte as a character. -/
def byteChar (x : UInt8) : Char := Char.ofNat x.toNat

/-- The absolute value of a big.Float: `mant * 2^exp` (zero if `mant` is), or Inf. -/
inductive Fl where
  | fin (mant : Nat) (exp : Int)
  | inf
  deriving DecidableEq, Repr

namespace Fl

/-- big.MinExp = math.MinInt32 -/
def minExp : Int := -2 ^ 31

/-- A mantissa rounded to `prec` bits, nearest even, and the number of bits dropped. -/
def roundMant (prec m : Nat) : Nat × Nat :=
  let b := BF.bitLen m
  if b ≤ prec then (m, 0)
  else
    let k := b - prec
    let q := m / 2 ^ k
    let r := m % 2 ^ k
    let half := 2 ^ (k - 1)
    (if r > half then q + 1 else if r < half then q else if q % 2 = 1 then q + 1 else q, k)

/-- setExpAndRound: Float.round to `prec` bits, Inf above MaxExp and zero below MinExp. -/
def round (prec m : Nat) (e : Int) : Fl :=
  let (m', k) := roundMant prec m
  if (BF.bitLen m' : Int) + (e + k) > BF.maxExp then .inf
  else if (BF.bitLen m' : Int) + (e + k) < minExp then .fin 0 0
  else .fin m' (e + k)

/-- Float.Quo of `m * 2^e` and `p * 2^x`, both not zero: uquo computes a quotient of more bits than are
asked for and remembers whether there is a remainder, which is as good as an exact one.  The
number of bits is not that of uquo, which divides whole words. -/
def quo (prec m : Nat) (e : Int) (p x : Nat) : Fl :=
  let s := 2 * prec + BF.bitLen p
  let q := m * 2 ^ s / p
  let r := m * 2 ^ s % p
  round prec (2 * q + (if r = 0 then 0 else 1)) (e - x - s - 1)

/-- Float.scan (floatconv.go) for the mantissa `m` with `d` digits after the point and the exponent `e`, to
base 2 or 10: with a mantissa of 64 bits, or "exponent overflow".  The sums of exponents are
not taken modulo 2^64: that would need more than 2^62 digits to be seen. -/
def ofParts (m d : Nat) (binary : Bool) (e : Int) : Option Fl :=
  if m = 0 then some (.fin 0 0)
  else
    let exp5 : Int := if binary then -(d : Int) else e - d
    let shift : Int := e - d
    if (BF.bitLen m : Int) + shift < minExp ∨ (BF.bitLen m : Int) + shift > BF.maxExp then none
    else if exp5 = 0 then some (round 64 m shift)
    else match BF.pow5 exp5.natAbs with
      | .inf => some (if exp5 < 0 then .fin 0 0 else .inf)
      | .fin p x => some (if exp5 < 0 then quo 64 m shift p x else round 64 (m * p) (shift + x))

/-- The low 64 bits of the integer that Float.Int makes of it. -/
def low64 (m : Nat) (e : Int) : Nat := if 0 ≤ e then BF.low64 m e.toNat else m / 2 ^ e.natAbs % 2 ^ 64

end Fl

/-- strconv.AppendQuoteRune for a byte, which `%q` uses; strconv.IsPrint is known up to 255. -/
def quoteByte (c : Char) : Str :=
  let body : Str :=
    if c = '\'' ∨ c = '\\' then ['\\', c]
    else if (32 ≤ c.toNat ∧ c.toNat < 127) ∨ (161 ≤ c.toNat ∧ c.toNat ≠ 173) then [c]
    else if c.toNat = 7 then c! "\\a"
    else if c.toNat = 8 then c! "\\b"
    else if c.toNat = 9 then c! "\\t"
    else if c.toNat = 10 then c! "\\n"
    else if c.toNat = 11 then c! "\\v"
    else if c.toNat = 12 then c! "\\f"
    else if c.toNat = 13 then c! "\\r"
    else if c.toNat < 32 ∨ c.toNat = 127 then c! "\\x" ++ hexByte (.ofNat c.toNat)
    else c! "\\u00" ++ hexByte (.ofNat c.toNat)
  c! "'" ++ body ++ c! "'"

/-- nat.scan (natconv.go) to base 10 with a point allowed: the digits, how many are after the
point, and what follows. -/
def scanMantissa (s : Str) : Str × Nat × Str :=
  match s.dropWhile isDig with
  | '.' :: r => (s.takeWhile isDig ++ r.takeWhile isDig, (r.takeWhile isDig).length, r.dropWhile isDig)
  | r => (s.takeWhile isDig, 0, r)

/-- What scanExponent returns: an error, or the base and the exponent, and what follows. -/
inductive ExpScan where
  | err (text : Str)
  | ok (binary : Bool) (e : Int) (rest : Str)

/-- The sign at the beginning: scanSign, and the same in scanExponent (ratconv.go). -/
def scanSign (s : Str) : Bool × Str :=
  match s with
  | '-' :: r => (true, r)
  | '+' :: r => (false, r)
  | r => (false, r)

/-- scanExponent (ratconv.go) with binary exponents allowed and underscores not. -/
def scanExponent (s : Str) : ExpScan :=
  match s with
  | [] => .ok false 0 []
  | c :: r =>
    if c = 'e' ∨ c = 'E' ∨ c = 'p' ∨ c = 'P' then
      let (neg, r) := scanSign r
      let ds := r.takeWhile isDig
      if ds = [] then .err (c! "number has no digits")
      else
        let t := if neg then '-' :: ds else ds
        match parseInt 64 t with
        | some e => .ok (c = 'p' ∨ c = 'P') e (r.dropWhile isDig)
        | none => .err (numError (c! "ParseInt") 64 t)
    else .ok false 0 (c :: r)

/-- big.ParseFloat(s, 10, 0, big.ToNearestEven): an error, or the sign and the value. -/
def parseFloat (s : Str) : Str ⊕ (Bool × Fl) :=
  if s = c! "Inf" ∨ s = c! "inf" ∨ s = c! "+Inf" ∨ s = c! "+inf" then .inr (false, .inf)
  else if s = c! "-Inf" ∨ s = c! "-inf" then .inr (true, .inf)
  else if s = [] then .inl (c! "EOF")
  else
    let (neg, t) := scanSign s
    let (ds, d, r) := scanMantissa t
    if ds = [] then .inl (c! "number has no digits")
    else match scanExponent r with
      | .err w => .inl w
      | .ok binary e rest =>
        match Fl.ofParts (digitsVal ds) d binary e with
        | none => .inl (c! "exponent overflow")
        | some f =>
          match rest with
          | [] => .inr (neg, f)
          | c :: _ => .inl (c! "expected end of string, found " ++ quoteByte c)

/-- errors.go:85-87 on bytes -/
def unsupportedBytes (label : Str) (b : Bytes) : Bytes := encode (c! "Unsupported EDTF string '") ++ b ++ encode (c! "' (" ++ label ++ c! ")")

/-- common/exponential.go:9-26 on bytes.  `flt.Int` returns nil for an infinity, on which `Int64()`
panics. -/
def parseExponentialNotationBytes (b : Bytes) : Said Int :=
  match parseFloat (b.map byteChar) with
  | .inl w => .fault (encode w)
  | .inr (_, .inf) => .panic
  | .inr (neg, .fin m e) =>
    let v := wrap64 (Fl.low64 m e)
    let v := if neg then wrap64 (-v) else v
    if v > MAX_YEARS ∨ v < 0 - MAX_YEARS then .fault (unsupportedBytes (c! "exponential notation") b)
    else .ok v

end EDTF
