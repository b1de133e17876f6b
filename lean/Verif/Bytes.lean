/-
The parser, the comparisons, the Unix ranges and the command-line tools on the bytes that Go
strings are.  The functions repeat those of `Message`, `MessageCmp` and `Stderr`; `PropsBytes`
proves that on UTF-8 they say the same, byte for byte, and what they do on all other bytes.
-/
import Verif.Utf8
import Verif.MessageCmp
import Verif.Stderr
namespace EDTF

/-- A Go string. -/
abbrev Bytes := List UInt8

/-- The bytes of a rune, unicode/utf8 AppendRune. -/
def encodeRune (c : Char) : Bytes :=
  if c.toNat < 0x80 then [.ofNat c.toNat]
  else if c.toNat < 0x800 then [.ofNat (0xC0 + c.toNat / 64), .ofNat (0x80 + c.toNat % 64)]
  else if c.toNat < 0x10000 then
    [.ofNat (0xE0 + c.toNat / 4096), .ofNat (0x80 + c.toNat / 64 % 64), .ofNat (0x80 + c.toNat % 64)]
  else
    [.ofNat (0xF0 + c.toNat / 262144), .ofNat (0x80 + c.toNat / 4096 % 64), .ofNat (0x80 + c.toNat / 64 % 64),
      .ofNat (0x80 + c.toNat % 64)]

/-- The bytes of a text in the source code, or of one built from such texts. -/
def encode (s : Str) : Bytes := s.flatMap encodeRune

/-- Outcome of a call.  Of an error only the text is kept, as bytes. -/
inductive Said (α : Type) where
  | ok (a : α)
  | fault (text : Bytes)
  | panic
  deriving DecidableEq, Repr

namespace Said

/-- As `Res.bind`. -/
@[reducible] def bind {α β : Type} (x : Said α) (f : α → Said β) : Said β :=
  match x with
  | ok a => f a
  | fault e => fault e
  | panic => panic

instance : Monad Said where
  pure := ok
  bind := bind

/-- `fmt.Errorf(before + "%v", err)` and `fmt.Errorf(before + "%w", err)`, whose texts are the same. -/
def after {α : Type} (before : Bytes) : Said α → Said α
  | fault t => fault (before ++ t)
  | r => r

end Said

/-- The outcome with the text of the error in bytes. -/
def Told.bytes {α : Type} : Told α → Said α
  | .ok a => .ok a
  | .fault f => .fault (encode f.text)
  | .panic => .panic

/-- errors.go:59-61 on bytes -/
def invalidBytes (label : Str) (b : Bytes) : Bytes := encode (c! "Invalid EDTF string '") ++ b ++ encode (c! "' (" ++ label ++ c! ")")

/-- errors.go:111-113 on bytes -/
def unrecognizedBytes (label : Str) (b : Bytes) : Bytes := encode (c! "Unrecognized EDTF string '") ++ b ++ encode (c! "' (" ++ label ++ c! ")")

/-- level2/level2.go:60-95 on bytes.  Simplification, here and in the next function: where a
pattern matches, the parser for it is given the runes of the string and not its bytes; the
string then is UTF-8, and both say the same (C102_matched). -/
def L2.parseBytesM (b : Bytes) : Said EDTFDate :=
  let s := runes b
  if isExponentialYear s then (parseExponentialYearM s).bytes
  else if isSignificantDigits s then (parseSignificantDigitsM s).bytes
  else if isSubYearGrouping s then (parseSubYearGroupingsM s).bytes
  else if isSetRepresentation s then (parseSetRepresentationsM s).bytes
  else if isGroupQualification s then (parseGroupQualificationM s).bytes
  else if isIndividualQualification s then (parseIndividualQualificationM s).bytes
  else if isUnspecifiedDigit s then (parseUnspecifiedDigitM s).bytes
  else if isInterval s then (parseIntervalM s).bytes
  else .fault (invalidBytes (c! "Invalid or unsupported Level 2 string") b)

/-- parser/parser.go:37-81 on bytes -/
def parseBytesM (b : Bytes) : Said EDTFDate :=
  let s := runes b
  if L0.isLevel0 s then (L0.parseStringM s).bytes
  else if L1.isLevel1 s then (L1.parseStringM s).bytes
  else if L2.isLevel2 s then L2.parseBytesM b
  else if b = encode OPEN then .ok (mkEDTF openDateSpan s (-1) (c! "Open"))
  else if b = encode UNKNOWN then .ok (mkEDTF unknownDateSpan s (-1) (c! "Unknown"))
  else .fault (unrecognizedBytes (c! "Invalid or unsupported EDTF string") b)

/-- The outcome of a function whose only error has the given text. -/
def Res.orInvalid {α : Type} (text : Bytes) : Res α → Said α
  | .ok a => .ok a
  | .err _ => .fault text
  | .panic => .panic

/-- parser/parser.go:84-120 on bytes, with level0/level0.go:32, level1/level1.go:56 and
level2/level2.go:57 -/
def matchesBytes (b : Bytes) : Said (Int × Str) :=
  let s := runes b
  if L0.isLevel0 s then do
    let f ← (L0.matchesStr s).orInvalid (invalidBytes (c! "Invalid Level 0 string") b)
    .ok (0, f)
  else if L1.isLevel1 s then do
    let f ← (L1.matchesStr s).orInvalid (invalidBytes (c! "Invalid Level 1 string") b)
    .ok (1, f)
  else if L2.isLevel2 s then do
    let f ← (L2.matchesStr s).orInvalid (invalidBytes (c! "Invalid or unsupported Level 2 string") b)
    .ok (2, f)
  else .fault (unrecognizedBytes (c! "Invalid or unsupported EDTF string") b)

/-- cmp/after.go:9-24 on bytes -/
def isAfterBytes (this_d that_d : Bytes) : Said Bool := do
  let a ← (parseBytesM this_d).after (encode (c! "Failed to parse '") ++ this_d ++ encode (c! "', "))
  let b ← (parseBytesM that_d).after (encode (c! "Failed to parse '") ++ that_d ++ encode (c! "', "))
  (a.afterM b).bytes

/-- cmp/before.go:9-24 on bytes -/
def isBeforeBytes (this_d that_d : Bytes) : Said Bool := do
  let a ← (parseBytesM this_d).after (encode (c! "Failed to parse '") ++ this_d ++ encode (c! "', "))
  let b ← (parseBytesM that_d).after (encode (c! "Failed to parse '") ++ that_d ++ encode (c! "', "))
  (a.beforeM b).bytes

/-- cmp/between.go:10-36 on bytes -/
def isBetweenBytes (d inception cessation : Bytes) : Said Bool := do
  let before ← (isBeforeBytes d inception).after (encode (c! "Failed to determine if date is before inception date, "))
  if before then .ok false
  else if cessation ≠ encode OPEN then do
    let after ← (isAfterBytes d cessation).after (encode (c! "Failed to determine if date is after cessation date, "))
    if after then .ok false else .ok true
  else .ok true

/-- unix/range.go:112-127 on bytes, with edtf.go:26-56 -/
def Unix.isValidBytes (b : Bytes) : Bool :=
  if b == encode OPEN || b == encode OPEN_2012 then false
  else if b == encode UNKNOWN || b == encode UNKNOWN_2012 then false
  else if b == encode UNSPECIFIED || b == encode UNSPECIFIED_2012 then false
  else true

/-- unix/range.go:29-110 on bytes -/
def Unix.deriveRangesBytes (b : Bytes) : Said (Option Unix.Range) :=
  if !Unix.isValidBytes b then .ok none
  else do
    let d ← (parseBytesM b).after (encode (c! "Failed to parse '") ++ b ++ encode (c! "', "))
    let st ← (Told.lift (Res.deref d.start)).bytes
    let en ← (Told.lift (Res.deref d.stop)).bytes
    match st.lower, st.upper, en.lower, en.upper with
    | some sl, some su, some el, some eu =>
      match sl.timestamp, su.timestamp, el.timestamp, eu.timestamp with
      | some a, some b, some c, some d => .ok (some ⟨⟨a, d⟩, ⟨b, c⟩⟩)
      | _, _, _, _ => .ok none
    | _, _, _, _ => .ok none

/-- deprecated.go:32-42 on bytes -/
def replaceDeprecatedBytes (old : Bytes) : Said Bytes :=
  match (deprecatedTable.map fun p => (encode p.1, encode p.2)).lookup old with
  | some new => .ok new
  | none => .fault (encode (c! "Unknown or unsupported EDTF string '") ++ old ++ encode (c! "' : " ++ mapText deprecatedTable))

/-! ### The tools -/

/-- A run: what is written to standard output and to standard error, and the status.  What is
left out is as in `Outcome`. -/
structure ByteRun where
  stdout : Bytes
  status : Nat
  stderr : Bytes
  deriving DecidableEq, Repr

/-- The outcome in bytes. -/
def Outcome.bytes (o : Outcome) : ByteRun := ⟨encode o.run.stdout, o.run.status, encode o.stderr⟩

/-- What package log writes for a message, see `logLine`. -/
def logBytes (m : Bytes) : Bytes := if m.getLast? = some 0x0A then m else m ++ [0x0A]

/-- `flagName` on bytes -/
def flagNameBytes : Bytes → Bytes
  | [] => []
  | c :: s => if c = 0x3D then [] else c :: flagNameBytes s

/-- What `flag.Parse` makes of the arguments, see `Flags`. -/
inductive ByteFlags where
  | args (as : List Bytes)
  | exit (status : Nat)
  deriving DecidableEq, Repr

/-- `flag.Parse` on bytes, see `flagParseM`: package flag looks at bytes. -/
def flagParseBytes (usage : Bytes) : List Bytes → ByteFlags × Bytes
  | [] => (.args [], [])
  | s :: as =>
    let bad := (ByteFlags.exit 2, encode (c! "bad flag syntax: ") ++ s ++ [0x0A] ++ usage)
    let named (n : Bytes) :=
      if n = encode (c! "help") ∨ n = encode (c! "h") then (ByteFlags.exit 0, usage)
      else (.exit 2, encode (c! "flag provided but not defined: -") ++ n ++ [0x0A] ++ usage)
    match s with
    | 0x2D :: 0x2D :: [] => (.args as, [])
    | 0x2D :: 0x2D :: c :: r => if c = 0x2D ∨ c = 0x3D then bad else named (flagNameBytes (c :: r))
    | 0x2D :: c :: r => if c = 0x3D then bad else named (flagNameBytes (c :: r))
    | _ => (.args (s :: as), [])

/-- The first two lines of a tool's help, cmd/parse/main.go:16-20 and cmd/matches/main.go:14-18. -/
def usageBytes (what : Str) (name : Bytes) : Bytes := encode (what ++ c! "\nUsage:\n\t ") ++ name ++ encode (c! " edtf_string(N) edtf_string(N)\n")

/-- cmd/parse/main.go:33-51 on bytes, see `parseLoopM` -/
def parseLoopBytes (out : Bytes) (first : Bool) : List Bytes → ByteRun
  | [] => ⟨out ++ encode (c! "]"), 0, []⟩
  | raw :: as =>
    match parseBytesM raw with
    | .fault t => ⟨out, 1, logBytes (encode (c! "Failed to parse EDTF string '") ++ raw ++ encode (c! "', ") ++ t)⟩
    | .panic => ⟨out, 2, []⟩
    | .ok d => parseLoopBytes (out ++ (if first then [] else encode (c! ",")) ++ encode d.marshal) false as

/-- cmd/parse/main.go:14-54 on bytes -/
def cmdParseBytes (name : Bytes) (as : List Bytes) : ByteRun :=
  match flagParseBytes (usageBytes (c! "Parse one or more EDTF strings and return a list of JSON-encode edtf.EDTFDate objects.") name) as with
  | (.exit n, t) => ⟨[], n, t⟩
  | (.args as, _) => parseLoopBytes (encode (c! "[")) true as

/-- cmd/matches/main.go:22-31 on bytes, see `matchesLoopM` -/
def matchesLoopBytes (out : Bytes) : List Bytes → ByteRun
  | [] => ⟨out, 0, []⟩
  | raw :: as =>
    match matchesBytes raw with
    | .fault t => ⟨out, 1, logBytes (encode (c! "Failed to parse EDTF string '") ++ raw ++ encode (c! "', ") ++ t)⟩
    | .panic => ⟨out, 2, []⟩
    | .ok (level, feature) => matchesLoopBytes (out ++ raw ++ encode (c! " level " ++ itoa level ++ c! " (" ++ feature ++ c! ")\n")) as

/-- cmd/matches/main.go:12-33 on bytes -/
def cmdMatchesBytes (name : Bytes) (as : List Bytes) : ByteRun :=
  match flagParseBytes (usageBytes (c! "Parse one or more EDTF strings and emit the EDTF level and feature name they match.") name) as with
  | (.exit n, t) => ⟨[], n, t⟩
  | (.args as, _) => matchesLoopBytes [] as

/-- cmd/parse-wasi/main.go:16-39 on bytes, see `wasiParse` and `wasiLoop` -/
def wasiLoopBytes (out : Bytes) : List Bytes → ByteRun
  | [] => ⟨out, 0, []⟩
  | raw :: as =>
    match parseBytesM raw with
    | .ok d => wasiLoopBytes (out ++ encode d.marshal ++ [0x0A]) as
    | .fault t => wasiLoopBytes (out ++ t ++ [0x0A]) as
    | .panic => ⟨out, 2, []⟩

/-- cmd/parse-wasi/main.go:12-19 on bytes; the usage is that of package flag, see `plainUsage`. -/
def cmdWasiBytes (name : Bytes) (as : List Bytes) : ByteRun :=
  match flagParseBytes (encode (c! "Usage of ") ++ name ++ encode (c! ":\n")) as with
  | (.exit n, t) => ⟨[], n, t⟩
  | (.args as, _) => wasiLoopBytes [] as

end EDTF
