/-
The specification of the JSON text of a date and of the runs of the command-line tools.
-/
import Verif.SpecDenote
import Verif.SpecMessage
import Verif.SpecDirect
import Verif.PropsCmd
import Verif.Wasm
namespace EDTF.Spec

/-! ### The JSON text of a date -/

/-- The characters with an escape of their own. -/
def jsonEscapes : List (Char × Str) :=
  [('"', c! "\\\""), ('\\', c! "\\\\"), ('\x08', c! "\\b"), ('\x0c', c! "\\f"), ('\n', c! "\\n"), ('\r', c! "\\r"), ('\t', c! "\\t"),
   ('<', c! "\\u003c"), ('>', c! "\\u003e"), ('&', c! "\\u0026"), (' ', c! "\\u2028"), (' ', c! "\\u2029")]

/-- One character of a string: escaped, or a control character by its number, or as it is. -/
def jsonChar (c : Char) : Str :=
  match jsonEscapes.lookup c with
  | some t => t
  | none => if c.toNat < 32 then c! "\\u00" ++ [Nat.digitChar (c.toNat / 16), Nat.digitChar (c.toNat % 16)] else [c]

def jsonString (s : Str) : Str := '"' :: (s.flatMap jsonChar ++ ['"'])

/-- A decimal numeral without leading zeros. -/
def jsonInt (n : Int) : Str := if n < 0 then '-' :: Nat.toDigits 10 n.natAbs else Nat.toDigits 10 n.natAbs

def jsonObject (ms : List (Str × Str)) : Str := '{' :: (commas (ms.map fun m => '"' :: (m.1 ++ '"' :: ':' :: m.2)) ++ ['}'])

def jsonOr {α : Type} (f : α → Str) : Option α → Str
  | none => c! "null"
  | some a => f a

/-- A member that is there only under a condition. -/
def whenSet (p : Prop) [Decidable p] (name text : Str) : List (Str × Str) := if p then [(name, text)] else []

def ymdJson (y : YMD) : Str :=
  jsonObject [(c! "year", jsonInt y.year), (c! "month", jsonInt y.month), (c! "day", jsonInt y.day)]

/-- A boundary: the calendar date is always there, everything else only if it says something. -/
def boundaryJson (d : Date) : Str :=
  jsonObject (whenSet (d.dateTime ≠ []) (c! "datetime") (jsonString d.dateTime) ++
    (match d.timestamp with
      | none => []
      | some t => [(c! "timestamp", jsonInt t)]) ++
    [(c! "ymd", jsonOr ymdJson d.ymd)] ++
    whenSet (d.uncertain ≠ 0) (c! "uncertain") (jsonInt d.uncertain.toNat) ++
    whenSet (d.approximate ≠ 0) (c! "approximate") (jsonInt d.approximate.toNat) ++
    whenSet (d.unspecified ≠ 0) (c! "unspecified") (jsonInt d.unspecified.toNat) ++
    whenSet (d.precision ≠ 0) (c! "precision") (jsonInt d.precision.toNat) ++
    whenSet (d.isOpen = true) (c! "open") (c! "true") ++
    whenSet (d.unknown = true) (c! "unknown") (c! "true") ++
    whenSet (d.inclusivity ≠ 0) (c! "inclusivity") (jsonInt d.inclusivity.toNat))

def rangeJson (r : DateRange) : Str :=
  jsonObject [(c! "edtf", jsonString r.edtf), (c! "lower", jsonOr boundaryJson r.lower), (c! "upper", jsonOr boundaryJson r.upper)]

def dateJson (d : EDTFDate) : Str :=
  jsonObject [(c! "start", jsonOr rangeJson d.start), (c! "end", jsonOr rangeJson d.stop), (c! "edtf", jsonString d.edtf),
    (c! "level", jsonInt d.level), (c! "feature", jsonString d.feature)]

/-! ### Arguments -/

/-- What is left of the arguments: a list, or the end of the program with a status. -/
inductive Operands : List Str → List Str ⊕ Nat → Prop
  /-- no arguments, or a first one that is not taken for a flag -/
  | plain {as : List Str} (h : NoFlag as) : Operands as (.inl as)
  | dashes {as : List Str} : Operands (c! "--" :: as) (.inl as)
  | help {a : Str} {as : List Str} (h : AsksHelp a) : Operands (a :: as) (.inr 0)
  | flag {a : Str} {as : List Str} (h : Hyphened a) (h1 : a ≠ c! "--") (h2 : ¬ AsksHelp a) : Operands (a :: as) (.inr 2)

/-- The texts made of the arguments one after the other, up to the first error (status 1)
or panic (status 2). -/
inductive Outputs (R : Str → Res Str → Prop) : List Str → List Str → Option Nat → Prop
  | done : Outputs R [] [] none
  | next {a t : Str} {as ts : List Str} {st : Option Nat} (h : R a (.ok t)) (k : Outputs R as ts st) : Outputs R (a :: as) (t :: ts) st
  | error {a : Str} {as : List Str} {e : Err} (h : R a (.err e)) : Outputs R (a :: as) [] (some 1)
  | panic {a : Str} {as : List Str} (h : R a .panic) : Outputs R (a :: as) [] (some 2)

/-- A run of a tool that writes `write ts st` after the texts `ts` and the end `st`. -/
inductive ToolRun (R : Str → Res Str → Prop) (write : List Str → Option Nat → Str) (as : List Str) : Run → Prop
  | flags {n : Nat} (h : Operands as (.inr n)) : ToolRun R write as ⟨[], n⟩
  | run {bs ts : List Str} {st : Option Nat} (h : Operands as (.inl bs)) (k : Outputs R bs ts st) :
      ToolRun R write as ⟨write ts st, st.getD 0⟩

/-! ### What is made of one argument -/

/-- The JSON text of a string, or its error, or a panic. -/
inductive ParseText (f : Int → Nat → Nat → Int) (s : Str) : Res Str → Prop
  | ok {d : EDTFDate} (h : Denotes f s d) : ParseText f s (.ok (dateJson d))
  | err {e : Err} (h : Fails s e) : ParseText f s (.err e)
  | panic (h : Panics s) : ParseText f s .panic

/-- The same with the text of the error. -/
inductive ParseLine (f : Int → Nat → Nat → Int) (s : Str) : Res Str → Prop
  | ok {d : EDTFDate} (h : Denotes f s d) : ParseLine f s (.ok (dateJson d ++ c! "\n"))
  | err {t : Str} (h : ErrorText s t) : ParseLine f s (.ok (t ++ c! "\n"))
  | panic (h : Panics s) : ParseLine f s .panic

/-- The level and the label `Matches` finds, or its error. -/
inductive MatchIs (s : Str) : Res (Int × Str) → Prop
  | level0 (h : Level0Form s) {r : Res (Int × Str)} (k : First (.err (.invalid (c! "Invalid Level 0 string") s)) (answers 0 (labels0 s)) r) : MatchIs s r
  | level1 (h0 : ¬ Level0Form s) (h : Level1Form s) {r : Res (Int × Str)}
      (k : First (.err (.invalid (c! "Invalid Level 1 string") s)) (answers 1 (labels1 s)) r) : MatchIs s r
  | level2 (h0 : ¬ Level0Form s) (h1 : ¬ Level1Form s) (h : Level2Start s) {r : Res (Int × Str)}
      (k : First (.err (.invalid (c! "Invalid or unsupported Level 2 string") s)) (answers 2 (labels2 s)) r) : MatchIs s r
  | none (h0 : ¬ Level0Form s) (h1 : ¬ Level1Form s) (h2 : ¬ Level2Start s) :
      MatchIs s (.err (.unrecognized (c! "Invalid or unsupported EDTF string") s))

/-- The line the matching tool writes for a string. -/
inductive MatchLine (s : Str) : Res Str → Prop
  | ok {level : Nat} {label : Str} (h : MatchIs s (.ok (level, label))) :
      MatchLine s (.ok (s ++ c! " level " ++ Nat.toDigits 10 level ++ c! " (" ++ label ++ c! ")\n"))
  | err {e : Err} (h : MatchIs s (.err e)) : MatchLine s (.err e)

/-! ### The tools -/

/-- cmd/parse: an array, closed only at the end of a run without an error. -/
def ParseTool (f : Int → Nat → Nat → Int) : List Str → Run → Prop :=
  ToolRun (ParseText f) fun ts st => '[' :: (commas ts ++ if st = none then [']'] else [])
/-- cmd/matches: a line for each argument. -/
def MatchTool : List Str → Run → Prop := ToolRun MatchLine fun ts _ => ts.flatten
/-- cmd/parse-wasi: a line for each argument. -/
def WasiTool (f : Int → Nat → Nat → Int) : List Str → Run → Prop := ToolRun (ParseLine f) fun ts _ => ts.flatten

/-- The text a value of JavaScript is taken for. -/
inductive JsText : JsValue → Str → Prop
  | string (s : Str) : JsText (.string s) s
  | undefined : JsText .undefined (c! "<undefined>")
  | null : JsText .null (c! "<null>")
  | yes : JsText (.boolean true) (c! "<boolean: true>")
  | no : JsText (.boolean false) (c! "<boolean: false>")
  | number (t : Str) : JsText (.number t) (c! "<number: " ++ t ++ c! ">")
  | symbol : JsText .symbol (c! "<symbol>")
  | object : JsText .object (c! "<object>")
  | function : JsText .function (c! "<function>")

/-- The line written for an error. -/
def wasmLine (s m : Str) : Str := c! "Failed to parse '" ++ s ++ c! "', " ++ m ++ c! "\n"

/-- cmd/parse-wasm: the promise is fulfilled with the JSON text, or rejected with the number of
bytes written, or never settled. -/
inductive WasmTool (f : Int → Nat → Nat → Int) : List JsValue → JsCall → Prop
  | nothing : WasmTool f [] ⟨.crashed, []⟩
  | ok {v : JsValue} {vs : List JsValue} {s : Str} {d : EDTFDate} (hv : JsText v s) (h : Denotes f s d) :
      WasmTool f (v :: vs) ⟨.fulfilled (dateJson d), []⟩
  | err {v : JsValue} {vs : List JsValue} {s t : Str} (hv : JsText v s) (h : ErrorText s t) :
      WasmTool f (v :: vs)
        ⟨.rejected (.number (Nat.toDigits 10 ((wasmLine s t).map Char.utf8Size).sum)), wasmLine s t⟩
  | panic {v : JsValue} {vs : List JsValue} {s : Str} (hv : JsText v s) (h : Panics s) : WasmTool f (v :: vs) ⟨.crashed, []⟩

end EDTF.Spec
