/-
The specification of what is done with strings of bytes.
-/
import Verif.Bytes
import Verif.PropsChars
import Verif.SpecStderr
namespace EDTF.Spec

/-- The bytes of a text of ASCII characters. -/
def ascii (s : Str) : Bytes := s.map fun c => .ofNat c.toNat

/-- The bytes are a text up to a place where no character begins. -/
def BrokenAfter (b : Bytes) (u : Str) : Prop :=
  ∃ v w, b = v ++ w ∧ IsUtf8 v u ∧ w ≠ [] ∧ ∀ c p q, w = p ++ q → ¬ IsUtf8 p [c]

/-- What is said of bytes that are not a text: they are invalid if the text before the place
where no character begins starts like one of Level 2, and not recognised otherwise. -/
inductive BrokenText (b : Bytes) : Bytes → Prop
  | invalid {u : Str} (h : BrokenAfter b u) (k : Level2Start u) :
      BrokenText b (ascii (c! "Invalid EDTF string '") ++ b ++ ascii (c! "' (Invalid or unsupported Level 2 string)"))
  | unrecognized {u : Str} (h : BrokenAfter b u) (k : ¬ Level2Start u) :
      BrokenText b (ascii (c! "Unrecognized EDTF string '") ++ b ++ ascii (c! "' (Invalid or unsupported EDTF string)"))

/-- What stands before the text of an error of the parser. -/
def failedToParse (b t : Bytes) : Bytes := ascii (c! "Failed to parse '") ++ b ++ ascii (c! "', ") ++ t

/-- What a tool writes to standard error. -/
def failedToParseEdtf (b t : Bytes) : Bytes := ascii (c! "Failed to parse EDTF string '") ++ b ++ ascii (c! "', ") ++ t ++ ascii (c! "\n")

/-- The arguments a tool works on: all of them if the first does not begin with a hyphen or is a
hyphen, those after it if the first is `--`. -/
inductive ByteOperands : List Bytes → List Bytes → Prop
  | none : ByteOperands [] []
  | all {a : Bytes} {as : List Bytes} (h : a.head? ≠ some 0x2D ∨ a = [0x2D]) : ByteOperands (a :: as) (a :: as)
  | dashes {as : List Bytes} : ByteOperands ([0x2D, 0x2D] :: as) as

/-- What becomes of any other first argument: the status and what is said before the usage. -/
inductive ByteFlag : Bytes → Nat → Bytes → Prop
  | equals {r : Bytes} : ByteFlag (0x2D :: 0x3D :: r) 2 (ascii (c! "bad flag syntax: ") ++ (0x2D :: 0x3D :: r) ++ ascii (c! "\n"))
  | equals2 {r : Bytes} : ByteFlag (0x2D :: 0x2D :: 0x3D :: r) 2 (ascii (c! "bad flag syntax: ") ++ (0x2D :: 0x2D :: 0x3D :: r) ++ ascii (c! "\n"))
  | hyphens {r : Bytes} : ByteFlag (0x2D :: 0x2D :: 0x2D :: r) 2 (ascii (c! "bad flag syntax: ") ++ (0x2D :: 0x2D :: 0x2D :: r) ++ ascii (c! "\n"))
  | help {hy n v : Bytes} (hh : hy = [0x2D] ∨ hy = [0x2D, 0x2D]) (hn : n = ascii (c! "h") ∨ n = ascii (c! "help")) (hv : v = [] ∨ v.head? = some 0x3D) :
      ByteFlag (hy ++ n ++ v) 0 []
  | unknown {hy n v : Bytes} (hh : hy = [0x2D] ∨ hy = [0x2D, 0x2D]) (h0 : n ≠ []) (h1 : n.head? ≠ some 0x2D) (h2 : 0x3D ∉ n)
      (hn : n ≠ ascii (c! "h") ∧ n ≠ ascii (c! "help")) (hv : v = [] ∨ v.head? = some 0x3D) :
      ByteFlag (hy ++ n ++ v) 2 (ascii (c! "flag provided but not defined: -") ++ n ++ ascii (c! "\n"))

end EDTF.Spec
