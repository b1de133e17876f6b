/-
The command-line tools: cmd/parse, cmd/matches and cmd/parse-wasi.
-/
import Verif.Json
import Verif.Message
namespace EDTF

/-- What a run of a tool leaves behind: the text on standard output and the exit status.
For the text on standard error see `Stderr`. -/
structure Run where
  stdout : Str
  status : Nat
  deriving DecidableEq, Repr

/-- What `flag.Parse` makes of the arguments: those left for `flag.Args`, or the end of
the program with a status. -/
inductive Flags where
  | args (as : List Str)
  | exit (status : Nat)
  deriving DecidableEq, Repr

/-- The name of a flag is what comes before the first `=`.  (A name does not begin
with `=`.) -/
def flagName : Str → Str
  | [] => []
  | c :: s => if c = '=' then [] else c :: flagName s

/-- `flag.Parse` of the standard library (`FlagSet.parseOne`) in a program that defines
no flags and leaves the error handling at `ExitOnError`, as all three tools do.  Only
the first argument matters: either it is not a flag and parsing stops, or it is `--`
and is dropped, or it asks for help (status 0), or it is an error (status 2). -/
def flagParse : List Str → Flags
  | [] => .args []
  | s :: as =>
    match s with
    | '-' :: '-' :: [] => .args as
    | '-' :: '-' :: c :: r =>
      if c = '-' ∨ c = '=' then .exit 2
      else if flagName (c :: r) = c! "help" ∨ flagName (c :: r) = c! "h" then .exit 0
      else .exit 2
    | '-' :: c :: r =>
      if c = '=' then .exit 2
      else if flagName (c :: r) = c! "help" ∨ flagName (c :: r) = c! "h" then .exit 0
      else .exit 2
    | _ => .args (s :: as)

/-- cmd/parse/main.go:33-51: the loop.  `out` has been written already, `first` says
that the index is 0.  `log.Fatalf` ends the program with status 1, a panic with
status 2; what has been written stays written. -/
def parseLoop (out : Str) (first : Bool) : List Str → Run
  | [] => ⟨out ++ c! "]", 0⟩
  | raw :: as =>
    match parseString raw with
    | .err _ => ⟨out, 1⟩
    | .panic => ⟨out, 2⟩
    | .ok d => parseLoop (out ++ (if first then [] else c! ",") ++ d.marshal) false as

/-- cmd/parse/main.go:14-54, from the arguments after the program's name. -/
def cmdParse (as : List Str) : Run :=
  match flagParse as with
  | .exit n => ⟨[], n⟩
  | .args as => parseLoop (c! "[") true as

/-- cmd/matches/main.go:22-31 -/
def matchesLoop (out : Str) : List Str → Run
  | [] => ⟨out, 0⟩
  | raw :: as =>
    match matchesStr raw with
    | .err _ => ⟨out, 1⟩
    | .panic => ⟨out, 2⟩
    | .ok (level, feature) =>
      matchesLoop (out ++ raw ++ c! " level " ++ itoa level ++ c! " (" ++ feature ++ c! ")\n") as

/-- cmd/matches/main.go:12-33 -/
def cmdMatches (as : List Str) : Run :=
  match flagParse as with
  | .exit n => ⟨[], n⟩
  | .args as => matchesLoop [] as

/-- cmd/parse-wasi/main.go:22-39: the JSON text of a date, or the text of the error.
`json.Marshal` does not fail. -/
def wasiParse (raw : Str) : Res Str :=
  match parseStringM raw with
  | .ok d => .ok d.marshal
  | .fault f => .ok f.text
  | .panic => .panic

/-- cmd/parse-wasi/main.go:16-18 -/
def wasiLoop (out : Str) : List Str → Run
  | [] => ⟨out, 0⟩
  | raw :: as =>
    match wasiParse raw with
    | .ok s => wasiLoop (out ++ s ++ c! "\n") as
    | _ => ⟨out, 2⟩

/-- cmd/parse-wasi/main.go:12-19 -/
def cmdWasi (as : List Str) : Run :=
  match flagParse as with
  | .exit n => ⟨[], n⟩
  | .args as => wasiLoop [] as

end EDTF
