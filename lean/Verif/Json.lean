/-
Encoding to and decoding from JSON: the struct tags of edtf.go, date.go,
daterange.go and ymd.go, the methods of timestamp.go, and the parts of
`encoding/json` they use.
-/
import Verif.Types
namespace EDTF

/-- A JSON document.  A number keeps its literal.  A string keeps the text between
its quotes as it was written (`raw`) beside the string it stands for. -/
inductive JV where
  | null
  | bool (b : Bool)
  | num (lit : Str)
  | str (raw val : Str)
  | arr (vs : List JV)
  | obj (ms : List ((Str × Str) × JV))

/-! ### Writing -/

/-- encoding/json, `hex` -/
def hexChar (n : Nat) : Char := if n < 10 then Char.ofNat (48 + n) else Char.ofNat (87 + n)

/-- encoding/json, `appendString` with HTML escaping on, for one character.  The two
escapes `\b` and `\f` are those of Go 1.22 and later; before that the same characters
were written `\u0008` and `\u000c`. -/
def escChar (c : Char) : Str :=
  if c = '"' then ['\\', '"']
  else if c = '\\' then ['\\', '\\']
  else if c.toNat = 8 then ['\\', 'b']
  else if c.toNat = 12 then ['\\', 'f']
  else if c.toNat = 10 then ['\\', 'n']
  else if c.toNat = 13 then ['\\', 'r']
  else if c.toNat = 9 then ['\\', 't']
  else if c.toNat < 32 ∨ c = '<' ∨ c = '>' ∨ c = '&' then
    ['\\', 'u', '0', '0', hexChar (c.toNat / 16), hexChar (c.toNat % 16)]
  else if c.toNat = 0x2028 then ['\\', 'u', '2', '0', '2', '8']
  else if c.toNat = 0x2029 then ['\\', 'u', '2', '0', '2', '9']
  else [c]

/-- encoding/json, `appendString`: the text between the quotes. -/
def escStr : Str → Str
  | [] => []
  | c :: s => escChar c ++ escStr s

mutual
/-- The text of a document, without spaces. -/
def JV.text : JV → Str
  | .null => c! "null"
  | .bool true => c! "true"
  | .bool false => c! "false"
  | .num l => l
  | .str raw _ => '"' :: (raw ++ ['"'])
  | .arr vs => '[' :: (JV.textElems vs ++ [']'])
  | .obj ms => '{' :: (JV.textMembers ms ++ ['}'])
def JV.textElems : List JV → Str
  | [] => []
  | [v] => v.text
  | v :: w :: vs => v.text ++ ',' :: JV.textElems (w :: vs)
def JV.textMembers : List ((Str × Str) × JV) → Str
  | [] => []
  | [(k, v)] => '"' :: (k.1 ++ '"' :: ':' :: v.text)
  | (k, v) :: m :: ms => '"' :: (k.1 ++ '"' :: ':' :: (v.text ++ ',' :: JV.textMembers (m :: ms)))
end

/-- A string as `encoding/json` writes it. -/
def JV.ofStr (s : Str) : JV := .str (escStr s) s
/-- An integer as `encoding/json` writes it. -/
def JV.ofInt (n : Int) : JV := .num (itoa n)

/-- A struct field. -/
def field (name : Str) (v : JV) : List ((Str × Str) × JV) := [((name, name), v)]
/-- A struct field left out when empty (the `omitempty` option). -/
def fieldOmit (name : Str) (empty : Bool) (v : JV) : List ((Str × Str) × JV) :=
  if empty then [] else field name v
/-- A pointer: `null` when nil. -/
def ofPtr {α : Type} (f : α → JV) : Option α → JV
  | none => .null
  | some a => f a

/-- ymd.go:7-11 -/
def YMD.toJson (y : YMD) : JV :=
  .obj (field (c! "year") (.ofInt y.year) ++ field (c! "month") (.ofInt y.month) ++ field (c! "day") (.ofInt y.day))

/-- date.go:8-19, timestamp.go:42-45.  A timestamp is a pointer, so `omitempty` leaves
out only a nil one. -/
def Date.toJson (d : Date) : JV :=
  .obj (fieldOmit (c! "datetime") d.dateTime.isEmpty (.ofStr d.dateTime)
    ++ fieldOmit (c! "timestamp") d.timestamp.isNone (ofPtr (fun t => .num (marshalTimestamp t)) d.timestamp)
    ++ field (c! "ymd") (ofPtr YMD.toJson d.ymd)
    ++ fieldOmit (c! "uncertain") (d.uncertain == 0) (.ofInt d.uncertain.toNat)
    ++ fieldOmit (c! "approximate") (d.approximate == 0) (.ofInt d.approximate.toNat)
    ++ fieldOmit (c! "unspecified") (d.unspecified == 0) (.ofInt d.unspecified.toNat)
    ++ fieldOmit (c! "precision") (d.precision == 0) (.ofInt d.precision.toNat)
    ++ fieldOmit (c! "open") (!d.isOpen) (.bool d.isOpen)
    ++ fieldOmit (c! "unknown") (!d.unknown) (.bool d.unknown)
    ++ fieldOmit (c! "inclusivity") (d.inclusivity == 0) (.ofInt d.inclusivity.toNat))

/-- daterange.go:7-11 -/
def DateRange.toJson (r : DateRange) : JV :=
  .obj (field (c! "edtf") (.ofStr r.edtf) ++ field (c! "lower") (ofPtr Date.toJson r.lower)
    ++ field (c! "upper") (ofPtr Date.toJson r.upper))

/-- edtf.go:58-64 -/
def EDTFDate.toJson (d : EDTFDate) : JV :=
  .obj (field (c! "start") (ofPtr DateRange.toJson d.start) ++ field (c! "end") (ofPtr DateRange.toJson d.stop)
    ++ field (c! "edtf") (.ofStr d.edtf) ++ field (c! "level") (.ofInt d.level) ++ field (c! "feature") (.ofStr d.feature))

/-- json.Marshal of an `EDTFDate`.  It cannot fail: none of the fields has a type that
`encoding/json` refuses. -/
def EDTFDate.marshal (d : EDTFDate) : Str := d.toJson.text

/-! ### Reading -/

/-- The blanks JSON allows between tokens (encoding/json, `isSpace`). -/
def isJsonSpace (c : Char) : Bool := c = ' ' || c.toNat = 9 || c.toNat = 10 || c.toNat = 13

def skipSpace : Str → Str
  | [] => []
  | c :: s => if isJsonSpace c then skipSpace s else c :: s

/-- The value of a hexadecimal digit. -/
def hexVal (c : Char) : Option Nat :=
  if isDig c then some (c.toNat - 48)
  else if 97 ≤ c.toNat ∧ c.toNat ≤ 102 then some (c.toNat - 87)
  else if 65 ≤ c.toNat ∧ c.toNat ≤ 70 then some (c.toNat - 55)
  else none

/-- Four hexadecimal digits (encoding/json, `getu4`). -/
def hex4 (a b c d : Char) : Option Nat := do
  let w ← hexVal a
  let x ← hexVal b
  let y ← hexVal c
  let z ← hexVal d
  some (w * 4096 + x * 256 + y * 16 + z)

/-- The character a two-character escape stands for. -/
def simpleEsc (e : Char) : Option Char :=
  if e = '"' then some '"'
  else if e = '\\' then some '\\'
  else if e = '/' then some '/'
  else if e = 'b' then some (Char.ofNat 8)
  else if e = 'f' then some (Char.ofNat 12)
  else if e = 'n' then some (Char.ofNat 10)
  else if e = 'r' then some (Char.ofNat 13)
  else if e = 't' then some (Char.ofNat 9)
  else none

/-- encoding/json, the scanner inside a string: the text up to the closing quote, and
what follows it. -/
def scanString : Str → Option (Str × Str)
  | [] => none
  | '"' :: s => some ([], s)
  | '\\' :: 'u' :: a :: b :: c :: d :: s =>
    match hex4 a b c d with
    | none => none
    | some _ => (scanString s).map (fun p => ('\\' :: 'u' :: a :: b :: c :: d :: p.1, p.2))
  | '\\' :: e :: s =>
    match simpleEsc e with
    | none => none
    | some _ => (scanString s).map (fun p => ('\\' :: e :: p.1, p.2))
  | c :: s => if c = '\\' ∨ c.toNat < 32 then none else (scanString s).map (fun p => (c :: p.1, p.2))

/-- encoding/json, `unquoteBytes`: the string a scanned text stands for.  Two escapes
that form a surrogate pair stand for one character; a lone surrogate stands for U+FFFD.
The argument `hi` is a high surrogate just read. -/
def unquote (hi : Option Nat) : Str → Str
  | [] => if hi.isSome then [Char.ofNat 0xFFFD] else []
  | '\\' :: 'u' :: a :: b :: c :: d :: s =>
    let u := (hex4 a b c d).getD 0
    match hi with
    | some h =>
      if 0xDC00 ≤ u ∧ u < 0xE000 then Char.ofNat (0x10000 + (h - 0xD800) * 1024 + (u - 0xDC00)) :: unquote none s
      else if 0xD800 ≤ u ∧ u < 0xDC00 then Char.ofNat 0xFFFD :: unquote (some u) s
      else Char.ofNat 0xFFFD :: Char.ofNat u :: unquote none s
    | none =>
      if 0xD800 ≤ u ∧ u < 0xDC00 then unquote (some u) s
      else if 0xDC00 ≤ u ∧ u < 0xE000 then Char.ofNat 0xFFFD :: unquote none s
      else Char.ofNat u :: unquote none s
  | '\\' :: e :: s => (if hi.isSome then [Char.ofNat 0xFFFD] else []) ++ (simpleEsc e).getD e :: unquote none s
  | c :: s => (if hi.isSome then [Char.ofNat 0xFFFD] else []) ++ c :: unquote none s

/-- A run of digits, and the rest. -/
def spanDigits : Str → Str × Str
  | [] => ([], [])
  | c :: s => if isDig c then (c :: (spanDigits s).1, (spanDigits s).2) else ([], c :: s)

/-- The integer part of a number: `0`, or digits not starting with `0`. -/
def scanInt : Str → Option (Str × Str)
  | [] => none
  | c :: s =>
    if c = '0' then some (['0'], s)
    else if isDig c then some (spanDigits (c :: s))
    else none

/-- A fraction, if there is one. -/
def scanFrac : Str → Option (Str × Str)
  | [] => some ([], [])
  | c :: s =>
    if c = '.' then (if (spanDigits s).1.isEmpty then none else some ('.' :: (spanDigits s).1, (spanDigits s).2))
    else some ([], c :: s)

/-- The digits of an exponent. -/
def scanExpDigits (pre s : Str) : Option (Str × Str) :=
  if (spanDigits s).1.isEmpty then none else some (pre ++ (spanDigits s).1, (spanDigits s).2)

/-- An exponent, if there is one. -/
def scanExp : Str → Option (Str × Str)
  | [] => some ([], [])
  | c :: s =>
    if c = 'e' ∨ c = 'E' then
      match s with
      | [] => none
      | g :: r => if g = '+' ∨ g = '-' then scanExpDigits [c, g] r else scanExpDigits [c] s
    else some ([], c :: s)

/-- A number without its sign. -/
def scanUnsigned (s : Str) : Option (Str × Str) := do
  let (i, r) ← scanInt s
  let (f, r) ← scanFrac r
  let (e, r) ← scanExp r
  some (i ++ f ++ e, r)

/-- encoding/json, the scanner of numbers: the literal and what follows it. -/
def scanNumber : Str → Option (Str × Str)
  | [] => none
  | c :: s => if c = '-' then (scanUnsigned s).map (fun p => ('-' :: p.1, p.2)) else scanUnsigned (c :: s)

/-- Drop a fixed prefix. -/
def expect : Str → Str → Option Str
  | [], s => some s
  | _ :: _, [] => none
  | c :: p, d :: s => if c = d then expect p s else none

mutual
/-- encoding/json, the scanner: one value, and what follows it.  `fuel` bounds the
number of nested steps; the length of the text is always enough. -/
def scanValue : Nat → Str → Option (JV × Str)
  | 0, _ => none
  | n + 1, s =>
    match skipSpace s with
    | [] => none
    | '"' :: r => (scanString r).map (fun p => (.str p.1 (unquote none p.1), p.2))
    | '[' :: r =>
      match skipSpace r with
      | ']' :: t => some (.arr [], t)
      | _ => (scanElems n r).map (fun p => (.arr p.1, p.2))
    | '{' :: r =>
      match skipSpace r with
      | '}' :: t => some (.obj [], t)
      | _ => (scanMembers n r).map (fun p => (.obj p.1, p.2))
    | 'n' :: r => (expect (c! "ull") r).map (fun t => (.null, t))
    | 't' :: r => (expect (c! "rue") r).map (fun t => (.bool true, t))
    | 'f' :: r => (expect (c! "alse") r).map (fun t => (.bool false, t))
    | r => (scanNumber r).map (fun p => (.num p.1, p.2))
/-- The elements of an array up to its closing bracket. -/
def scanElems : Nat → Str → Option (List JV × Str)
  | 0, _ => none
  | n + 1, s =>
    match scanValue n s with
    | none => none
    | some (v, r) =>
      match skipSpace r with
      | ',' :: t => (scanElems n t).map (fun p => (v :: p.1, p.2))
      | ']' :: t => some ([v], t)
      | _ => none
/-- The members of an object up to its closing brace. -/
def scanMembers : Nat → Str → Option (List ((Str × Str) × JV) × Str)
  | 0, _ => none
  | n + 1, s =>
    match skipSpace s with
    | '"' :: r =>
      match scanString r with
      | none => none
      | some (k, r) =>
        match skipSpace r with
        | ':' :: r =>
          match scanValue n r with
          | none => none
          | some (v, r) =>
            match skipSpace r with
            | ',' :: t => (scanMembers n t).map (fun p => (((k, unquote none k), v) :: p.1, p.2))
            | '}' :: t => some ([((k, unquote none k), v)], t)
            | _ => none
        | _ => none
    | _ => none
end

mutual
/-- How many arrays and objects are open at the same time, at most. -/
def JV.depth : JV → Nat
  | .arr vs => JV.depthElems vs + 1
  | .obj ms => JV.depthMembers ms + 1
  | _ => 0
def JV.depthElems : List JV → Nat
  | [] => 0
  | v :: vs => max v.depth (JV.depthElems vs)
def JV.depthMembers : List ((Str × Str) × JV) → Nat
  | [] => 0
  | (_, v) :: ms => max v.depth (JV.depthMembers ms)
end

/-- A whole text: one value with nothing but blanks around it, and no more than 10000
arrays and objects inside one another (encoding/json, `maxNestingDepth`).  The scanner of
`encoding/json` stops at the bracket that goes too deep; the text is refused either way. -/
def readJson (s : Str) : Option JV :=
  match scanValue (s.length + 1) s with
  | some (v, r) => if (skipSpace r).isEmpty ∧ v.depth ≤ 10000 then some v else none
  | none => none

/-- encoding/json, `foldName`: names are compared without regard to case.  The two
non-ASCII characters that fold to ASCII letters are included. -/
def foldKey (c : Char) : Char :=
  if 97 ≤ c.toNat ∧ c.toNat ≤ 122 then Char.ofNat (c.toNat - 32)
  else if c.toNat = 0x17F then 'S'
  else if c.toNat = 0x212A then 'K'
  else c

def sameKey (a b : Str) : Bool := a.map foldKey == b.map foldKey

/-- Decode an object: the members in order, each into the field it names. -/
def readMembers {α : Type} (f : α → Str → JV → Option α) : α → List ((Str × Str) × JV) → Option α
  | a, [] => some a
  | a, (k, v) :: ms => do
    let b ← f a k.2 v
    readMembers f b ms

/-- A string field; `null` leaves it alone. -/
def readStr (old : Str) : JV → Option Str
  | .null => some old
  | .str _ v => some v
  | _ => none
/-- An `int` field. -/
def readInt (old : Int) : JV → Option Int
  | .null => some old
  | .num l => parseInt 64 l
  | _ => none
/-- A `uint32` field. -/
def readPrec (old : Prec) : JV → Option Prec
  | .null => some old
  | .num l => if l ≠ [] ∧ l.all isDig ∧ digitsVal l < 2 ^ 32 then some (BitVec.ofNat 32 (digitsVal l)) else none
  | _ => none
/-- A boolean field. -/
def readBool (old : Bool) : JV → Option Bool
  | .null => some old
  | .bool b => some b
  | _ => none
/-- A pointer field: `null` makes it nil, anything else is decoded into what it points
to, which is made first if need be. -/
def readPtr {α : Type} (zero : α) (f : α → JV → Option α) (old : Option α) : JV → Option (Option α)
  | .null => some none
  | v => (f (old.getD zero) v).map some

/-- timestamp.go:29-40 on the text of a value.  The text of an array or an object
never parses as an integer, so those are not written out. -/
def readTimestamp : JV → Option Int
  | .num l => match unmarshalTimestamp l with
    | .ok t => some t
    | _ => none
  | .str raw _ => match unmarshalTimestamp ('"' :: (raw ++ ['"'])) with
    | .ok t => some t
    | _ => none
  | _ => none

/-- ymd.go:7-11 -/
def YMD.readField (y : YMD) (k : Str) (v : JV) : Option YMD :=
  if sameKey k (c! "year") then (readInt y.year v).map (fun x => { y with year := x })
  else if sameKey k (c! "month") then (readInt y.month v).map (fun x => { y with month := x })
  else if sameKey k (c! "day") then (readInt y.day v).map (fun x => { y with day := x })
  else some y

def YMD.ofJson (y : YMD) : JV → Option YMD
  | .null => some y
  | .obj ms => readMembers YMD.readField y ms
  | _ => none

/-- date.go:8-19 -/
def Date.readField (d : Date) (k : Str) (v : JV) : Option Date :=
  if sameKey k (c! "datetime") then (readStr d.dateTime v).map (fun x => { d with dateTime := x })
  else if sameKey k (c! "timestamp") then
    (readPtr 0 (fun _ w => readTimestamp w) d.timestamp v).map (fun x => { d with timestamp := x })
  else if sameKey k (c! "ymd") then (readPtr ⟨0, 0, 0⟩ YMD.ofJson d.ymd v).map (fun x => { d with ymd := x })
  else if sameKey k (c! "uncertain") then (readPrec d.uncertain v).map (fun x => { d with uncertain := x })
  else if sameKey k (c! "approximate") then (readPrec d.approximate v).map (fun x => { d with approximate := x })
  else if sameKey k (c! "unspecified") then (readPrec d.unspecified v).map (fun x => { d with unspecified := x })
  else if sameKey k (c! "precision") then (readPrec d.precision v).map (fun x => { d with precision := x })
  else if sameKey k (c! "open") then (readBool d.isOpen v).map (fun x => { d with isOpen := x })
  else if sameKey k (c! "unknown") then (readBool d.unknown v).map (fun x => { d with unknown := x })
  else if sameKey k (c! "inclusivity") then (readPrec d.inclusivity v).map (fun x => { d with inclusivity := x })
  else some d

def Date.ofJson (d : Date) : JV → Option Date
  | .null => some d
  | .obj ms => readMembers Date.readField d ms
  | _ => none

/-- daterange.go:7-11 -/
def DateRange.readField (r : DateRange) (k : Str) (v : JV) : Option DateRange :=
  if sameKey k (c! "edtf") then (readStr r.edtf v).map (fun x => { r with edtf := x })
  else if sameKey k (c! "lower") then (readPtr {} Date.ofJson r.lower v).map (fun x => { r with lower := x })
  else if sameKey k (c! "upper") then (readPtr {} Date.ofJson r.upper v).map (fun x => { r with upper := x })
  else some r

def DateRange.ofJson (r : DateRange) : JV → Option DateRange
  | .null => some r
  | .obj ms => readMembers DateRange.readField r ms
  | _ => none

/-- edtf.go:58-64 -/
def EDTFDate.readField (d : EDTFDate) (k : Str) (v : JV) : Option EDTFDate :=
  if sameKey k (c! "start") then (readPtr {} DateRange.ofJson d.start v).map (fun x => { d with start := x })
  else if sameKey k (c! "end") then (readPtr {} DateRange.ofJson d.stop v).map (fun x => { d with stop := x })
  else if sameKey k (c! "edtf") then (readStr d.edtf v).map (fun x => { d with edtf := x })
  else if sameKey k (c! "level") then (readInt d.level v).map (fun x => { d with level := x })
  else if sameKey k (c! "feature") then (readStr d.feature v).map (fun x => { d with feature := x })
  else some d

def EDTFDate.ofJson (d : EDTFDate) : JV → Option EDTFDate
  | .null => some d
  | .obj ms => readMembers EDTFDate.readField d ms
  | _ => none

/-- json.Unmarshal of a text into a fresh `EDTFDate`.  An error is `none`: after a
type error `encoding/json` fills in the remaining fields but still returns the error. -/
def EDTFDate.unmarshal (s : Str) : Option EDTFDate := do
  let v ← readJson s
  EDTFDate.ofJson ⟨none, none, [], 0, []⟩ v

end EDTF
