/-
The specification of what the tools write to standard error.
-/
import Verif.SpecTool
namespace EDTF.Spec

/-- What is said about a first argument that begins with a hyphen and is not `--`: nothing if it
asks for help; that it has the wrong form if after one or two hyphens there is an equals sign,
or after two another hyphen; otherwise that there is no such flag. -/
inductive FlagText : Str → Str → Prop
  | help {a : Str} (h : AsksHelp a) : FlagText a []
  | equals {r : Str} : FlagText ('-' :: '=' :: r) (c! "bad flag syntax: -=" ++ r ++ c! "\n")
  | equals2 {r : Str} : FlagText ('-' :: '-' :: '=' :: r) (c! "bad flag syntax: --=" ++ r ++ c! "\n")
  | hyphens {r : Str} : FlagText ('-' :: '-' :: '-' :: r) (c! "bad flag syntax: ---" ++ r ++ c! "\n")
  | unknown {hy n v : Str} (hh : hy = c! "-" ∨ hy = c! "--") (hn : n ≠ [] ∧ n.head? ≠ some '-' ∧ '=' ∉ n) (hv : v = [] ∨ ∃ w, v = '=' :: w)
      (h : n ≠ c! "h" ∧ n ≠ c! "help") : FlagText (hy ++ n ++ v) (c! "flag provided but not defined: -" ++ n ++ c! "\n")

/-- What a tool writes to standard error, if `Good` arguments are passed over and `Bad` says
what error an argument gives.  Nothing is said of a panic. -/
inductive Complaint (usage : Str) (Good : Str → Prop) (Bad : Str → Str → Prop) (Crash : Str → Prop) (as : List Str) : Str → Prop
  | flag {a t : Str} {rest : List Str} (e : as = a :: rest) (h : FlagText a t) : Complaint usage Good Bad Crash as (t ++ usage)
  | none {bs : List Str} (h : Operands as (.inl bs)) (k : ∀ b ∈ bs, Good b) : Complaint usage Good Bad Crash as []
  | error {bs pre post : List Str} {b t : Str} (h : Operands as (.inl bs)) (e : bs = pre ++ b :: post) (k : ∀ c ∈ pre, Good c) (hb : Bad b t) :
      Complaint usage Good Bad Crash as (c! "Failed to parse EDTF string '" ++ b ++ c! "', " ++ t ++ c! "\n")
  | crash {bs pre post : List Str} {b : Str} (h : Operands as (.inl bs)) (e : bs = pre ++ b :: post) (k : ∀ c ∈ pre, Good c) (hb : Crash b) :
      Complaint usage Good Bad Crash as []

/-- Two lines of help. -/
def helpText (what name : Str) : Str := what ++ c! "\nUsage:\n\t " ++ name ++ c! " edtf_string(N) edtf_string(N)\n"

def ParseComplaint (name : Str) : List Str → Str → Prop :=
  Complaint (helpText (c! "Parse one or more EDTF strings and return a list of JSON-encode edtf.EDTFDate objects.") name) Accepted ErrorText Panics
def MatchComplaint (name : Str) : List Str → Str → Prop :=
  Complaint (helpText (c! "Parse one or more EDTF strings and emit the EDTF level and feature name they match.") name)
    (fun s => ∃ p, MatchIs s (.ok p)) (fun s t => ∃ e, MatchIs s (.err e) ∧ KnownText e t) fun _ => False
/-- The tool for WASI complains about flags only. -/
def WasiComplaint (name : Str) : List Str → Str → Prop :=
  Complaint (c! "Usage of " ++ name ++ c! ":\n") (fun _ => True) (fun _ _ => False) fun _ => False

end EDTF.Spec
