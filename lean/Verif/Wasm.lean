/-
cmd/parse-wasm: the function `parse_edtf` that a web page calls.
-/
import Verif.Json
import Verif.Message
namespace EDTF

/-- The values of JavaScript, as far as `syscall/js` tells them apart.  A boolean and a
number are given by the text JavaScript makes of them.  Strings are sequences of code
points: `syscall/js` hands a string over as UTF-8, with U+FFFD for a lone surrogate. -/
inductive JsValue where
  | string (s : Str)
  | undefined
  | null
  | boolean (b : Bool)
  | number (text : Str)
  | symbol
  | object
  | function
  deriving DecidableEq, Repr

/-- `js.Value.String` of the standard library: for anything but a string, the type
between angle brackets. -/
def JsValue.toStr : JsValue → Str
  | .string s => s
  | .undefined => c! "<undefined>"
  | .null => c! "<null>"
  | .boolean b => c! "<boolean: " ++ (if b then c! "true" else c! "false") ++ c! ">"
  | .number t => c! "<number: " ++ t ++ c! ">"
  | .symbol => c! "<symbol>"
  | .object => c! "<object>"
  | .function => c! "<function>"

/-- What becomes of the promise.  `crashed`: the Go program has ended by a panic and no
promise is settled, now or later. -/
inductive Promise where
  | fulfilled (text : Str)
  | rejected (reason : JsValue)
  | crashed
  deriving DecidableEq, Repr

/-- A call: what becomes of the promise, and what is written to standard output (which
`wasm_exec.js` sends to the console). -/
structure JsCall where
  promise : Promise
  stdout : Str
  deriving DecidableEq, Repr

/-- The number of bytes of a text in UTF-8. -/
def utf8Length : Str → Nat
  | [] => 0
  | c :: s => c.utf8Size + utf8Length s

/-- cmd/parse-wasm/main.go:24-39.  `reject.Invoke` is given the results of `fmt.Printf`,
the number of bytes written and a nil error; a promise looks at the first only.
`json.Marshal` does not fail. -/
def wasmHandler (edtf_str : Str) : JsCall :=
  match parseStringM edtf_str with
  | .fault f =>
    let line := c! "Failed to parse '" ++ edtf_str ++ c! "', " ++ f.text ++ c! "\n"
    ⟨.rejected (.number (itoa (utf8Length line))), line⟩
  | .panic => ⟨.crashed, []⟩
  | .ok edtf_d => ⟨.fulfilled edtf_d.marshal, []⟩

/-- cmd/parse-wasm/main.go:13-45.  `args[0]` panics if there is no argument. -/
def wasmParse : List JsValue → JsCall
  | [] => ⟨.crashed, []⟩
  | v :: _ => wasmHandler v.toStr

end EDTF
