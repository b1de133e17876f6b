/-
common.TimeWithYMD and TimeWithYMDString on bytes.  Package time reads a string byte by byte, and
quotes it so in its errors.
-/
import Verif.FloatText
import Verif.MessageDirect
namespace EDTF

/-- time: quote (format.go), of bytes as characters. -/
def quoteTimeBytes (s : Str) : Str :=
  c! "\"" ++ s.flatMap (fun c =>
    if c = '"' ∨ c = '\\' then ['\\', c]
    else if 32 ≤ c.toNat ∧ c.toNat < 128 then [c]
    else c! "\\x" ++ hexByte (.ofNat c.toNat)) ++ c! "\""

/-- time: ParseError.Error on bytes -/
def timeErrorBytes (layout : List Tok) (value : Str) : TimeFault → Str
  | .bad elem rest =>
    c! "parsing time " ++ quoteTimeBytes value ++ c! " as " ++ quoteTimeBytes (layout.flatMap Tok.text) ++ c! ": cannot parse " ++ quoteTimeBytes rest ++
      c! " as " ++ quoteTimeBytes elem
  | .message m => c! "parsing time " ++ quoteTimeBytes value ++ m

/-- The elements of a layout one after the other, on bytes. -/
def parseToksBytes : List Tok → Fields → Str → Fields ⊕ TimeFault
  | [], f, s => if s.isEmpty then .inl f else .inr (.message (c! ": extra text: " ++ quoteTimeBytes s))
  | t :: ts, f, s =>
    match parseTok t f s with
    | some (f', rest) => parseToksBytes ts f' rest
    | none => .inr (tokFault t s)

/-- time.Parse(layout, s) on bytes -/
def timeParseBytes (layout : List Tok) (s : Str) : Said Int :=
  match parseToksBytes layout {} s with
  | .inl f =>
    if f.day < 1 ∨ f.day > daysIn f.month f.year then .fault (encode (timeErrorBytes layout s (outOfRange (c! "day"))))
    else .ok (goDate f.year f.month f.day f.hour f.min f.sec - f.offset)
  | .inr e => .fault (encode (timeErrorBytes layout s e))

/-- common/time.go:20-56 on bytes -/
def timeWithYMDBytes (ymd : YMD) (hms : Bytes) : Said Int := do
  let is_bce : Bool := ymd.year < 0
  let yyyy := if is_bce then flipYear ymd.year else ymd.year
  let t_str := padInt 4 yyyy ++ c! "-" ++ padInt 2 ymd.month ++ c! "-" ++ padInt 2 ymd.day ++ c! "T" ++ hms.map byteChar
  let t ← timeParseBytes layoutDateTime t_str
  .ok (if is_bce then timeToBCE t else t)

/-- common/time.go:9-18 on bytes -/
def timeWithYMDStringBytes (str_yyyy str_mm str_dd hms : Bytes) : Said Int := do
  let ymd ← ymdFromStringsBytes str_yyyy str_mm str_dd
  timeWithYMDBytes ymd hms

end EDTF
