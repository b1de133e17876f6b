/-
What the web page should show, line by line.
-/
import Verif.SpecJson
namespace EDTF.Spec

/-- The escapes of a text in the page. -/
def pageEscapes : List (Char × Str) :=
  [(Char.ofNat 8, c! "\\b"), ('\t', c! "\\t"), ('\n', c! "\\n"), (Char.ofNat 12, c! "\\f"), ('\r', c! "\\r"),
   ('"', c! "\\\""), ('\\', c! "\\\\")]

/-- A control character without an escape of its own, as `\u` and four digits. -/
def controlEscape (c : Char) : Str :=
  c! "\\u00" ++ (if c.toNat < 16 then ['0'] else ['1']) ++
    [(c! "0123456789abcdef").getD (c.toNat % 16) '?']

/-- A character inside quotes. -/
def inQuotes (c : Char) : Str :=
  match pageEscapes.find? (fun p => p.1 = c) with
  | some p => p.2
  | none => if c.toNat < 32 then controlEscape c else [c]

/-- A quoted text. -/
def quotedText (s : Str) : Str := ['"'] ++ s.flatMap inQuotes ++ ['"']

/-- Put a text prefixed the first line of a block. -/
def prefixed (t : Str) : List Str → List Str
  | [] => [t]
  | l :: ls => (t ++ l) :: ls

/-- Put a comma after the last line of a block. -/
def comma : List Str → List Str
  | [] => []
  | [l] => [l ++ [',']]
  | l :: m :: ls => l :: comma (m :: ls)

/-- Blocks one below the other, with commas between them, all moved to the right by two
columns. -/
def stacked : List (List Str) → List Str
  | [] => []
  | [b] => b.map (c! "  " ++ ·)
  | b :: c :: bs => (comma b).map (c! "  " ++ ·) ++ stacked (c :: bs)

/-- A block between brackets; the brackets touch if there is nothing between them. -/
def bracketed (l r : Str) : List (List Str) → List Str
  | [] => [l ++ r]
  | b :: bs => [l] ++ stacked (b :: bs) ++ [r]

mutual
/-- The lines of a document. -/
def block : JV → List Str
  | .null => [c! "null"]
  | .bool true => [c! "true"]
  | .bool false => [c! "false"]
  | .num l => [l]
  | .str _ s => [quotedText s]
  | .arr vs => bracketed (c! "[") (c! "]") (blocks vs)
  | .obj ms => bracketed (c! "{") (c! "}") (memberBlocks ms)
def blocks : List JV → List (List Str)
  | [] => []
  | v :: vs => block v :: blocks vs
def memberBlocks : List ((Str × Str) × JV) → List (List Str)
  | [] => []
  | (k, v) :: ms => prefixed (quotedText k.2 ++ c! ": ") (block v) :: memberBlocks ms
end

/-- Lines, with a line feed between any two. -/
def unlines : List Str → Str
  | [] => []
  | [l] => l
  | l :: m :: ls => l ++ '\n' :: unlines (m :: ls)

/-- `s` is what remains of the text typed: the line ends are gone, the rest stands in order. -/
def Entered (typed s : Str) : Prop :=
  '\n' ∉ s ∧ '\r' ∉ s ∧ ∃ parts : List (Str × Str), typed = parts.flatMap (fun p => p.1 ++ p.2) ∧
    s = parts.flatMap (fun p => p.1) ∧ ∀ p ∈ parts, ∀ c ∈ p.2, c = '\n' ∨ c = '\r'

end EDTF.Spec
