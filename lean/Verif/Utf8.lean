/-
Go strings are bytes.  The regexp package and `range` read them as runes with
unicode/utf8; this file has that reading, so that the parser can be described
on strings of bytes, also on those that are not UTF-8.
-/
import Verif.Parser
namespace EDTF

/-- What unicode/utf8 gives for a byte that begins no rune (utf8.RuneError). -/
def runeError : Char := '�'

/-- A continuation byte, unicode/utf8 (locb, hicb). -/
def isCont (b : UInt8) : Bool := Nat.ble 0x80 b.toNat && Nat.ble b.toNat 0xBF

/-- The accepted second byte of a rune of three or four bytes, unicode/utf8
(acceptRanges): no overlong forms, no surrogates, nothing above U+10FFFF. -/
def isSecond (b0 b1 : UInt8) : Bool :=
  if b0.toNat = 0xE0 then Nat.ble 0xA0 b1.toNat && Nat.ble b1.toNat 0xBF
  else if b0.toNat = 0xED then Nat.ble 0x80 b1.toNat && Nat.ble b1.toNat 0x9F
  else if b0.toNat = 0xF0 then Nat.ble 0x90 b1.toNat && Nat.ble b1.toNat 0xBF
  else if b0.toNat = 0xF4 then Nat.ble 0x80 b1.toNat && Nat.ble b1.toNat 0x8F
  else isCont b1

/-- unicode/utf8 DecodeRuneInString on a string that is not empty: the rune and
the bytes after it; `none` if the first byte begins no rune. -/
def decodeRune (b0 : UInt8) (rest : List UInt8) : Option (Char × List UInt8) :=
  if b0.toNat < 0x80 then some (Char.ofNat b0.toNat, rest)
  else if b0.toNat < 0xC2 then none
  else if b0.toNat < 0xE0 then
    match rest with
    | b1 :: r =>
      if isCont b1 then some (Char.ofNat ((b0.toNat - 0xC0) * 64 + (b1.toNat - 0x80)), r) else none
    | [] => none
  else if b0.toNat < 0xF0 then
    match rest with
    | b1 :: b2 :: r =>
      if isSecond b0 b1 && isCont b2 then
        some (Char.ofNat ((b0.toNat - 0xE0) * 4096 + (b1.toNat - 0x80) * 64 + (b2.toNat - 0x80)), r)
      else none
    | _ => none
  else if b0.toNat < 0xF5 then
    match rest with
    | b1 :: b2 :: b3 :: r =>
      if isSecond b0 b1 && isCont b2 && isCont b3 then
        some (Char.ofNat ((b0.toNat - 0xF0) * 262144 + (b1.toNat - 0x80) * 4096 + (b2.toNat - 0x80) * 64 +
          (b3.toNat - 0x80)), r)
      else none
    | _ => none
  else none

/-- The runes of a string, one at a time; `n` bounds the number of steps. -/
def runesGo : Nat → List UInt8 → Str
  | 0, _ => []
  | _ + 1, [] => []
  | n + 1, b0 :: rest =>
    match decodeRune b0 rest with
    | some (c, r) => c :: runesGo n r
    | none => runeError :: runesGo n rest

/-- What `[]rune(s)`, `range s` and the regexp package read.  Every step takes
a byte, so that the length is enough. -/
def runes (b : List UInt8) : Str := runesGo b.length b

/-- parser/parser.go:14-34 on bytes: the patterns are run on the runes.  (The
comparisons with "..", "" are of bytes, which is the same: C78_alphabet.) -/
def isValidBytes (b : List UInt8) : Bool := isValid (runes b)

/-- parser/parser.go:37-81 on bytes.  Simplification: the texts inside the
result are given by their runes; where a result other than an error is
returned the bytes are UTF-8 (C78_bytes) and say the same. -/
def parseBytes (b : List UInt8) : Res EDTFDate := parseString (runes b)

end EDTF
