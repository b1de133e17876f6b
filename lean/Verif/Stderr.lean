/-
The command-line tools with what they write to standard error.  The functions repeat those
of `Cmd`; `PropsStderr` proves that the rest of a run is the same.
-/
import Verif.Cmd
namespace EDTF

/-- A run with the text on standard error.  Left out: the date and the time that package log
writes before a line, and the trace the runtime writes after a panic. -/
structure Outcome where
  run : Run
  stderr : Str
  deriving DecidableEq, Repr

/-- What package log writes for a message: a line feed is added unless there is one at the end
(`Logger.output`). -/
def logLine (m : Str) : Str := if m.getLast? = some '\n' then m else m ++ c! "\n"

/-- `flag.Parse` (`FlagSet.parseOne` and `FlagSet.failf`): the message for an error, followed by
the usage, which is also what is written for help. -/
def flagParseM (usage : Str) : List Str → Flags × Str
  | [] => (.args [], [])
  | s :: as =>
    let bad := (Flags.exit 2, c! "bad flag syntax: " ++ s ++ c! "\n" ++ usage)
    let named (n : Str) :=
      if n = c! "help" ∨ n = c! "h" then (Flags.exit 0, usage)
      else (.exit 2, c! "flag provided but not defined: -" ++ n ++ c! "\n" ++ usage)
    match s with
    | '-' :: '-' :: [] => (.args as, [])
    | '-' :: '-' :: c :: r => if c = '-' ∨ c = '=' then bad else named (flagName (c :: r))
    | '-' :: c :: r => if c = '=' then bad else named (flagName (c :: r))
    | _ => (.args (s :: as), [])

/-- cmd/parse/main.go:16-20.  `name` is the name of the program (`os.Args[0]`);
`flag.PrintDefaults` writes nothing, there being no flags. -/
def parseUsage (name : Str) : Str :=
  c! "Parse one or more EDTF strings and return a list of JSON-encode edtf.EDTFDate objects.\n" ++
  c! "Usage:\n\t " ++ name ++ c! " edtf_string(N) edtf_string(N)\n"

/-- cmd/parse/main.go:33-51, see `parseLoop` -/
def parseLoopM (out : Str) (first : Bool) : List Str → Outcome
  | [] => ⟨⟨out ++ c! "]", 0⟩, []⟩
  | raw :: as =>
    match parseStringM raw with
    | .fault f => ⟨⟨out, 1⟩, logLine (c! "Failed to parse EDTF string '" ++ raw ++ c! "', " ++ f.text)⟩
    | .panic => ⟨⟨out, 2⟩, []⟩
    | .ok d => parseLoopM (out ++ (if first then [] else c! ",") ++ d.marshal) false as

/-- cmd/parse/main.go:14-54 -/
def cmdParseM (name : Str) (as : List Str) : Outcome :=
  match flagParseM (parseUsage name) as with
  | (.exit n, t) => ⟨⟨[], n⟩, t⟩
  | (.args as, _) => parseLoopM (c! "[") true as

/-- cmd/matches/main.go:14-18 -/
def matchesUsage (name : Str) : Str :=
  c! "Parse one or more EDTF strings and emit the EDTF level and feature name they match.\n" ++
  c! "Usage:\n\t " ++ name ++ c! " edtf_string(N) edtf_string(N)\n"

/-- cmd/matches/main.go:22-31.  `Matches` returns errors of the package only. -/
def matchesLoopM (out : Str) : List Str → Outcome
  | [] => ⟨⟨out, 0⟩, []⟩
  | raw :: as =>
    match matchesStr raw with
    | .err e => ⟨⟨out, 1⟩, logLine (c! "Failed to parse EDTF string '" ++ raw ++ c! "', " ++ e.text.getD [])⟩
    | .panic => ⟨⟨out, 2⟩, []⟩
    | .ok (level, feature) =>
      matchesLoopM (out ++ raw ++ c! " level " ++ itoa level ++ c! " (" ++ feature ++ c! ")\n") as

/-- cmd/matches/main.go:12-33 -/
def cmdMatchesM (name : Str) (as : List Str) : Outcome :=
  match flagParseM (matchesUsage name) as with
  | (.exit n, t) => ⟨⟨[], n⟩, t⟩
  | (.args as, _) => matchesLoopM [] as

/-- The usage of package flag (`flag.Usage`), for a program that does not set its own. -/
def plainUsage (name : Str) : Str := c! "Usage of " ++ name ++ c! ":\n"

/-- cmd/parse-wasi/main.go:12-19: the errors of the parser go to standard output. -/
def cmdWasiM (name : Str) (as : List Str) : Outcome :=
  match flagParseM (plainUsage name) as with
  | (.exit n, t) => ⟨⟨[], n⟩, t⟩
  | (.args as, _) => ⟨wasiLoop [] as, []⟩

end EDTF
