/-
app/server/www: the web page around cmd/parse-wasm, that is the form of index.html and the
function `parse` of javascript/index.js.
-/
import Verif.Wasm
namespace EDTF

/-! ### JavaScript -/

/-- ECMAScript, `QuoteJSONString` for one character. -/
def jsQuoteChar (c : Char) : Str :=
  if c.toNat = 8 then ['\\', 'b']
  else if c.toNat = 9 then ['\\', 't']
  else if c.toNat = 10 then ['\\', 'n']
  else if c.toNat = 12 then ['\\', 'f']
  else if c.toNat = 13 then ['\\', 'r']
  else if c = '"' then ['\\', '"']
  else if c = '\\' then ['\\', '\\']
  else if c.toNat < 32 then ['\\', 'u', '0', '0', hexChar (c.toNat / 16), hexChar (c.toNat % 16)]
  else [c]

/-- The text between the quotes. -/
def jsQuote : Str → Str
  | [] => []
  | c :: s => jsQuoteChar c ++ jsQuote s

mutual
/-- `JSON.stringify(v, '', 2)`: ECMAScript, `SerializeJSONProperty`, with a gap of two spaces.
The second argument is neither a function nor a list and so counts for nothing.  `indent` is the
indentation so far.  A number is written as it was read, see `JV.plain`. -/
def JV.stringify (indent : Str) : JV → Str
  | .null => c! "null"
  | .bool true => c! "true"
  | .bool false => c! "false"
  | .num l => l
  | .str _ s => '"' :: (jsQuote s ++ ['"'])
  | .arr [] => c! "[]"
  | .arr (v :: vs) =>
    c! "[\n" ++ (indent ++ c! "  ") ++ JV.stringifyElems (indent ++ c! "  ") (v :: vs) ++ c! "\n" ++ indent ++ c! "]"
  | .obj [] => c! "{}"
  | .obj (m :: ms) =>
    c! "{\n" ++ (indent ++ c! "  ") ++ JV.stringifyMembers (indent ++ c! "  ") (m :: ms) ++ c! "\n" ++ indent ++ c! "}"
def JV.stringifyElems (indent : Str) : List JV → Str
  | [] => []
  | [v] => v.stringify indent
  | v :: w :: vs => v.stringify indent ++ c! ",\n" ++ indent ++ JV.stringifyElems indent (w :: vs)
def JV.stringifyMembers (indent : Str) : List ((Str × Str) × JV) → Str
  | [] => []
  | [(k, v)] => '"' :: (jsQuote k.2 ++ c! "\": " ++ v.stringify indent)
  | (k, v) :: m :: ms =>
    '"' :: (jsQuote k.2 ++ c! "\": " ++ v.stringify indent ++ c! ",\n" ++ indent ++ JV.stringifyMembers indent (m :: ms))
end

/-- A number that JavaScript reads and writes without change: an integer in decimal, not beyond
2^53. -/
def plainNumber (l : Str) : Bool :=
  match parseInt 64 l with
  | none => false
  | some n => itoa n == l && n.natAbs ≤ 2 ^ 53

mutual
/-- A document that `JSON.parse` keeps as it is: no number changes, no name comes twice in an
object, and no name is a number (those would be moved to the front). -/
def JV.plain : JV → Bool
  | .null => true
  | .bool _ => true
  | .num l => plainNumber l
  | .str _ _ => true
  | .arr vs => JV.plainElems vs
  | .obj ms => decide (ms.map (fun m => m.1.2)).Nodup && JV.plainMembers ms
def JV.plainElems : List JV → Bool
  | [] => true
  | v :: vs => v.plain && JV.plainElems vs
def JV.plainMembers : List ((Str × Str) × JV) → Bool
  | [] => true
  | (k, v) :: ms => !k.2.all isDig && v.plain && JV.plainMembers ms
end

/-! ### The page -/

/-- What is seen of the element `result`.  `hidden`: it is empty and not displayed.  `pre`: it is
displayed and holds a `pre` element with the text.  `message`: it is displayed and holds the text.
`unable`: the text is "Unable to parse your EDTF string: " and an error in the words of the
browser.  `beyond`: the answer is JSON that JavaScript does not keep as it is (`JV.plain`); what
is shown then is not described here. -/
inductive View where
  | hidden
  | pre (text : Str)
  | message (text : Str)
  | unable
  | beyond
  deriving DecidableEq, Repr

/-- app/server/www/index.html:19: the value of an `input` of type `text` has no line feeds and no
carriage returns, they are taken out. -/
def fieldValue (typed : Str) : Str := typed.filter (fun c => c ≠ '\n' ∧ c ≠ '\r')

/-- The text JavaScript makes of the reason of a rejection, for the two kinds of values
that can be one. -/
def reasonText : JsValue → Str
  | .number t => t
  | v => v.toStr

/-- app/server/www/javascript/index.js:15-45, for a program that has not ended.  If it ends
in the call, `parse_edtf` does not return a promise and neither callback runs.  `JSON.parse` reads
the same texts as `encoding/json`, except that it knows no greatest depth. -/
def showPage (typed : Str) : View :=
  match (wasmParse [.string (fieldValue typed)]).promise with
  | .crashed => .hidden
  | .rejected err => .message (c! "There was a problem parsing your EDTF string:" ++ reasonText err)
  | .fulfilled rsp =>
    match readJson rsp with
    | none => .unable
    | some edtf_d => if edtf_d.plain then .pre (edtf_d.stringify []) else .beyond

/-- The button pressed again and again: what is seen each time.  After the Go program has ended,
`parse_edtf` throws ("Go program has already exited"), and only lines 21-23 take effect. -/
def pageSession (ended : Bool) : List Str → List View
  | [] => []
  | typed :: rest =>
    if ended then .hidden :: pageSession true rest
    else showPage typed ::
      pageSession (decide ((wasmParse [.string (fieldValue typed)]).promise = .crashed)) rest

end EDTF
