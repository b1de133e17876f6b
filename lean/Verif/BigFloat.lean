/-
The part of math/big.Float that common/exponential.go uses.
-/
import Verif.Types
namespace EDTF

/-- A non-negative big.Float: `mant * 2^exp`, or +Inf.  Only integers occur, so
the exponent is a natural number. -/
inductive BF where
  | fin (mant exp : Nat)
  | inf
  deriving DecidableEq, Repr

namespace BF

/-- big.MaxExp = math.MaxInt32 -/
def maxExp : Nat := 2 ^ 31 - 1

/-- Number of bits of `n`. -/
def bitLen (n : Nat) : Nat := if n = 0 then 0 else Nat.log2 n + 1

/-- Float.round to `prec` bits, nearest even; a value whose exponent exceeds
MaxExp becomes Inf (setExpAndRound, round). -/
def round (prec m e : Nat) : BF :=
  let b := bitLen m
  let (m', e') :=
    if b ≤ prec then (m, e)
    else
      let k := b - prec
      let q := m / 2 ^ k
      let r := m % 2 ^ k
      let half := 2 ^ (k - 1)
      let q' := if r > half then q + 1 else if r < half then q else if q % 2 = 1 then q + 1 else q
      (q', e + k)
  if bitLen m' + e' > maxExp then .inf else .fin m' e'

/-- Float.Mul of non-zero values, result rounded to `prec` bits. -/
def mul (prec : Nat) : BF → BF → BF
  | .fin m e, .fin m' e' => round prec (m * m') (e + e')
  | _, _ => .inf

/-- The loop of Float.pow5: `n` in binary, accumulator precision 128, factor
precision 192.  `fuel` bounds the number of binary digits of `n`. -/
def pow5Loop : Nat → Nat → BF → BF → BF
  | 0, _, z, _ => z
  | fuel + 1, n, z, f =>
    if n = 0 then z
    else pow5Loop fuel (n / 2) (if n % 2 = 1 then mul 128 z f else z) (mul 192 f f)

/-- Float.pow5 with a 128-bit result. -/
def pow5 (n : Nat) : BF :=
  if n ≤ 27 then .fin (5 ^ n) 0
  else pow5Loop 64 (n - 27) (.fin (5 ^ 27) 0) (.fin 5 0)

/-- Float.scan for mantissa `m` and decimal exponent `e` (0 ≤ e < 2^63):
the value of `m E e` with a 64-bit mantissa, or "exponent overflow". -/
def ofExp (m e : Nat) : Option BF :=
  if m = 0 then some (.fin 0 0)
  else if bitLen m + e > maxExp then none
  else if e = 0 then some (round 64 m 0)
  else some (mul 64 (.fin m e) (pow5 e))

/-- The low 64 bits of the integer value. -/
def low64 : Nat → Nat → Nat
  | m, e => if e ≥ 64 then 0 else m * 2 ^ e % 2 ^ 64

end BF

/-- The position of the first `e`/`E`: mantissa text and exponent text. -/
def splitE : Str → Option (Str × Str)
  | [] => none
  | c :: cs => if c = 'e' ∨ c = 'E' then some ([], cs) else (splitE cs).map (fun p => (c :: p.1, p.2))

/-- common/exponential.go:9-26.  `notation` has the form `-?\d+[eE]\d+` (the
only callers pass text captured by that pattern; anything else is given a plain
error here).  A float that overflows to Inf makes `flt.Int` return nil, on
which `Int64()` panics. -/
def parseExponentialNotation (notation_ : Str) : Res Int :=
  let (neg, body) : Bool × Str := match notation_ with
    | '-' :: rest => (true, rest)
    | s => (false, s)
  match splitE body with
  | none => .err .plain
  | some (ms, es) =>
    if ms.isEmpty || !ms.all isDig || es.isEmpty || !es.all isDig then .err .plain
    else do
      let e ← Res.ofOption (parseInt 64 es)
      match BF.ofExp (digitsVal ms) e.toNat with
      | none => .err .plain
      | some .inf => .panic
      | some (.fin m x) =>
        let v := wrap64 (BF.low64 m x)
        let v := if neg then wrap64 (-v) else v
        if v > MAX_YEARS ∨ v < 0 - MAX_YEARS then
          .err (Unsupported (c! "exponential notation") notation_)
        else .ok v

end EDTF
