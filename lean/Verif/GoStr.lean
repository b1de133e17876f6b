/-
The parts of Go's strconv, fmt, strings and sort packages that go-edtf uses.
-/
import Verif.Basic
namespace EDTF

/-- ASCII decimal digit test. -/
def isDig (c : Char) : Bool := Nat.ble 48 c.toNat && Nat.ble c.toNat 57

def digVal (c : Char) : Nat := c.toNat - 48

/-- Value of a list of decimal digits, most significant first. -/
def digitsVal (s : Str) : Nat := s.foldl (fun acc c => acc * 10 + digVal c) 0

/-- strconv.ParseInt(s, 10, bits): optional sign, then one or more ASCII digits,
with a range check.  The two error kinds (syntax, range) are both plain errors. -/
def parseInt (bits : Nat) (s : Str) : Option Int :=
  let go (neg : Bool) (ds : Str) : Option Int :=
    if ds.isEmpty || !ds.all isDig then none
    else
      let v := digitsVal ds
      if neg then (if v ≤ 2 ^ (bits - 1) then some (-(v : Int)) else none)
      else (if v < 2 ^ (bits - 1) then some (v : Int) else none)
  match s with
  | '-' :: ds => go true ds
  | '+' :: ds => go false ds
  | ds => go false ds

/-- strconv.Atoi on a 64-bit platform. -/
def atoi (s : Str) : Option Int := parseInt 64 s

def digChar (n : Nat) : Char := Char.ofNat (48 + n)

/-- Decimal digits of `n`, by repeated division; `fuel` bounds the number of digits. -/
def natDigitsAux : Nat → Nat → Str → Str
  | 0, _, acc => acc
  | fuel + 1, n, acc =>
    if n < 10 then digChar n :: acc
    else natDigitsAux fuel (n / 10) (digChar (n % 10) :: acc)

def natDigits (n : Nat) : Str := natDigitsAux (n + 1) n []

/-- strconv.Itoa / strconv.FormatInt(·, 10). -/
def itoa (n : Int) : Str :=
  if n < 0 then '-' :: natDigits n.natAbs else natDigits n.natAbs

/-- Left-pad with zeros to width `w`. -/
def zeroPad (w : Nat) (s : Str) : Str := List.replicate (w - s.length) '0' ++ s

/-- fmt.Sprintf("%0wd", n): the sign counts towards the width. -/
def padInt (w : Nat) (n : Int) : Str :=
  if n < 0 then '-' :: zeroPad (w - 1) (natDigits n.natAbs) else zeroPad w (natDigits n.natAbs)

/-- strings.Split(s, sep) for a one-character separator. -/
def splitChar (sep : Char) : Str → List Str
  | [] => [[]]
  | c :: cs =>
    if c = sep then [] :: splitChar sep cs
    else match splitChar sep cs with
      | [] => [[c]]
      | p :: ps => (c :: p) :: ps

/-- strings.Split(s, ".."). -/
def splitDots : Str → List Str
  | [] => [[]]
  | [c] => [[c]]
  | c :: d :: cs =>
    if c = '.' ∧ d = '.' then [] :: splitDots cs
    else match splitDots (d :: cs) with
      | [] => [[c]]
      | p :: ps => (c :: p) :: ps

/-- strings.HasPrefix -/
def hasPrefix (s p : Str) : Bool := p.isPrefixOf s
/-- strings.HasSuffix -/
def hasSuffix (s p : Str) : Bool := p.isSuffixOf s

/-- strings.Trim(s, cutset) for a one-character cutset. -/
def trimChar (c : Char) (s : Str) : Str :=
  ((s.dropWhile (· == c)).reverse.dropWhile (· == c)).reverse

/-- strings.ToUpper on the characters that can reach it: ASCII letters and the
long s, the only non-ASCII character that the season pattern admits. -/
def upperC (c : Char) : Char :=
  if Nat.ble 97 c.toNat && Nat.ble c.toNat 122 then Char.ofNat (c.toNat - 32)
  else if c = '\u017f' then 'S' else c

def toUpper (s : Str) : Str := s.map upperC

/-- Go's string order (byte-wise; for valid UTF-8 this is code point order). -/
def strLe : Str → Str → Bool
  | [], _ => true
  | _ :: _, [] => false
  | a :: as, b :: bs =>
    if a.toNat < b.toNat then true
    else if b.toNat < a.toNat then false
    else strLe as bs

def insertStr (x : Str) : List Str → List Str
  | [] => [x]
  | y :: ys => if strLe x y then x :: y :: ys else y :: insertStr x ys

/-- sort.Strings; the order is total and antisymmetric, so every sorting
algorithm gives the same list. -/
def sortStrings : List Str → List Str
  | [] => []
  | x :: xs => insertStr x (sortStrings xs)

/-- s[i]; out of range panics. -/
def idx (s : Str) (i : Nat) : Res Char :=
  match s[i]? with
  | some c => .ok c
  | none => .panic

/-- Go's wrapping 64-bit `int`. -/
def wrap64 (n : Int) : Int := Int.bmod n (2 ^ 64)

end EDTF
