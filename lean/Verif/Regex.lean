/-
Regular expressions: syntax tree, parser for the part of Go's syntax that
re/re.go uses, and a leftmost-first backtracking matcher with captures.
-/
import Verif.Basic
namespace EDTF

/-- Syntax tree.  `cls fold rs` matches one character in one of the ranges
`rs`; with `fold` the test is case-insensitive (`(?i)`).  `grp i` is capture
group number `i`. -/
inductive Re where
  | eps
  | cls (fold : Bool) (rs : List (Char × Char))
  | bos
  | eos
  | cat (a b : Re)
  | alt (a b : Re)
  | opt (a : Re)
  | star (a : Re)
  | plus (a : Re)
  | grp (i : Nat) (a : Re)
  deriving DecidableEq, Repr

def inR (c : Char) (r : Char × Char) : Bool := Nat.ble r.1.toNat c.toNat && Nat.ble c.toNat r.2.toNat

/-- The ASCII members of the simple-folding orbit of `c` (unicode.SimpleFold):
the other case of an ASCII letter, and `s`/`S` for U+017F, `k`/`K` for U+212A. -/
def orbit (c : Char) : List Char :=
  if Nat.ble 97 c.toNat && Nat.ble c.toNat 122 then [c, Char.ofNat (c.toNat - 32)]
  else if Nat.ble 65 c.toNat && Nat.ble c.toNat 90 then [c, Char.ofNat (c.toNat + 32)]
  else if c = '\u017f' then ['s', 'S']
  else if c = '\u212a' then ['k', 'K']
  else [c]

def clsHas (fold : Bool) (rs : List (Char × Char)) (c : Char) : Bool :=
  if fold then (orbit c).any (fun d => rs.any (inR d)) else rs.any (inR c)

/-- Matcher state: whether we are at the beginning of the text, the remaining
text, and the captures so far (most recent first). -/
structure St where
  beg : Bool
  rest : Str
  caps : List (Nat × Str)
  deriving DecidableEq, Repr

/-- Greedy iteration of a matcher; every iteration must consume something. -/
def starRun (f : St → List St) : Nat → St → List St
  | 0, st => [st]
  | n + 1, st =>
    ((f st).filter (fun s => s.rest.length < st.rest.length)).flatMap (starRun f n) ++ [st]

/-- All ways to match `r` at the given state, in order of preference. -/
def Re.run : Re → St → List St
  | .eps, st => [st]
  | .cls fold rs, st =>
    match st.rest with
    | [] => []
    | c :: cs => if clsHas fold rs c then [⟨false, cs, st.caps⟩] else []
  | .bos, st => if st.beg then [st] else []
  | .eos, st => if st.rest.isEmpty then [st] else []
  | .cat a b, st => (a.run st).flatMap b.run
  | .alt a b, st => a.run st ++ b.run st
  | .opt a, st => a.run st ++ [st]
  | .star a, st => starRun a.run st.rest.length st
  | .plus a, st => (a.run st).flatMap (fun s => starRun a.run s.rest.length s)
  | .grp i a, st =>
    (a.run st).map (fun s =>
      ⟨s.beg, s.rest, (i, st.rest.take (st.rest.length - s.rest.length)) :: s.caps⟩)

/-- First match starting at the leftmost possible position. -/
def Re.search (r : Re) : Bool → Str → Option St
  | beg, [] => (r.run ⟨beg, [], []⟩).head?
  | beg, c :: cs =>
    match (r.run ⟨beg, c :: cs, []⟩).head? with
    | some s => some s
    | none => r.search false cs

/-- regexp.MatchString -/
def Re.matchString (r : Re) (s : Str) : Bool := (r.search true s).isSome

/-- The text of group `i`; groups that did not take part give the empty string. -/
def capOf (caps : List (Nat × Str)) (i : Nat) : Str := (caps.lookup i).getD []

/-- regexp.FindStringSubmatch: `none` when there is no match, otherwise the
function giving the text of each group `i ≥ 1`.  In Go the result slice has
one more element than the pattern has groups; the length tests in the code
compare with exactly that number (see `Re.groups` and the examples in
`Patterns`), so they only test whether there is a match. -/
def Re.submatch (r : Re) (s : Str) : Option (Nat → Str) :=
  (r.search true s).map (fun st => capOf st.caps)

/-- Highest group number. -/
def Re.groups : Re → Nat
  | .eps | .cls _ _ | .bos | .eos => 0
  | .cat a b => max a.groups b.groups
  | .alt a b => max a.groups b.groups
  | .opt a => a.groups
  | .star a => a.groups
  | .plus a => a.groups
  | .grp i a => max i a.groups

/-- `x{n}` for n ≥ 1. -/
def Re.rep (a : Re) : Nat → Re
  | 0 => .eps
  | 1 => a
  | n + 2 => .cat a (Re.rep a (n + 1))

/-! ### Parsing the regex syntax -/

namespace ReParse

/-- Ranges of a Perl class letter. -/
def perl : Char → Option (List (Char × Char))
  | 'd' => some [('0', '9')]
  | 's' => some [('\t', '\n'), ('\x0c', '\r'), (' ', ' ')]
  | _ => none

/-- Members of a bracketed class up to `]`. -/
def clsBody : Nat → Str → List (Char × Char) → Option (List (Char × Char) × Str)
  | 0, _, _ => none
  | n + 1, s, acc =>
    match s with
    | ']' :: rest => some (acc.reverse, rest)
    | '\\' :: c :: rest => clsBody n rest ((c, c) :: acc)
    | a :: '-' :: b :: rest =>
      if b = ']' then clsBody n ('-' :: b :: rest) ((a, a) :: acc)
      else clsBody n rest ((a, b) :: acc)
    | a :: rest => clsBody n rest ((a, a) :: acc)
    | [] => none

def catList : List Re → Re
  | [] => .eps
  | [a] => a
  | a :: as => .cat a (catList as)

/-- One postfix operator, if present. -/
def postfix? (a : Re) : Str → Re × Str
  | '?' :: rest => (.opt a, rest)
  | '*' :: rest => (.star a, rest)
  | '+' :: rest => (.plus a, rest)
  | '{' :: d :: '}' :: rest => (Re.rep a (d.toNat - 48), rest)
  | s => (a, s)

/-- Parser state: current `(?i)` flag and the number of the next group. -/
structure PS where
  fold : Bool
  next : Nat

mutual
/-- Alternatives up to `)` or the end.  `(?i)` stays in force across `|`. -/
def altP : Nat → PS → Str → Option (Re × PS × Str)
  | 0, _, _ => none
  | n + 1, ps, s => do
    let (items, ps, rest) ← seqP n ps s
    match rest with
    | '|' :: rest' =>
      let (r, ps, rest) ← altP n ps rest'
      return (.alt (catList items) r, ps, rest)
    | _ => return (catList items, ps, rest)
/-- A sequence of items up to `|`, `)` or the end. -/
def seqP : Nat → PS → Str → Option (List Re × PS × Str)
  | 0, _, _ => none
  | n + 1, ps, s => do
    match s with
    | [] => return ([], ps, [])
    | '|' :: _ => return ([], ps, s)
    | ')' :: _ => return ([], ps, s)
    | '(' :: '?' :: 'i' :: ')' :: rest => seqP n { ps with fold := true } rest
    | _ =>
      let (a, ps, rest) ← atomP n ps s
      let (a, rest) := postfix? a rest
      let (as, ps, rest) ← seqP n ps rest
      return (a :: as, ps, rest)
/-- One item.  The `(?i)` flag is restored at the closing parenthesis. -/
def atomP : Nat → PS → Str → Option (Re × PS × Str)
  | 0, _, _ => none
  | n + 1, ps, s => do
    match s with
    | '(' :: '?' :: ':' :: rest =>
      let (r, ps', rest) ← altP n ps rest
      match rest with
      | ')' :: rest => return (r, { ps' with fold := ps.fold }, rest)
      | _ => none
    | '(' :: rest =>
      let (r, ps', rest) ← altP n { ps with next := ps.next + 1 } rest
      match rest with
      | ')' :: rest => return (.grp ps.next r, { ps' with fold := ps.fold }, rest)
      | _ => none
    | '[' :: rest =>
      let (rs, rest) ← clsBody n rest []
      return (.cls ps.fold rs, ps, rest)
    | '\\' :: c :: rest =>
      match perl c with
      | some rs => return (.cls ps.fold rs, ps, rest)
      | none => return (.cls ps.fold [(c, c)], ps, rest)
    | '^' :: rest => return (.bos, ps, rest)
    | '$' :: rest => return (.eos, ps, rest)
    | c :: rest => return (.cls ps.fold [(c, c)], ps, rest)
    | [] => none
end

end ReParse

/-- regexp.MustCompile for the supported syntax. -/
def Re.compile (s : Str) : Option Re :=
  match ReParse.altP (s.length + 2) ⟨false, 1⟩ s with
  | some (r, _, []) => some r
  | _ => none

/-- Right-associate concatenations and alternations. -/
def Re.catR : Re → Re → Re
  | .cat a b, c => a.catR (b.catR c)
  | a, c => .cat a c

def Re.altR : Re → Re → Re
  | .alt a b, c => a.altR (b.altR c)
  | a, c => .alt a c

def Re.flat : Re → Re
  | .cat a b => a.flat.catR b.flat
  | .alt a b => a.flat.altR b.flat
  | .opt a => .opt a.flat
  | .star a => .star a.flat
  | .plus a => .plus a.flat
  | .grp i a => .grp i a.flat
  | r => r

/-- Make every character test case-insensitive. -/
def Re.ci : Re → Re
  | .cls _ rs => .cls true rs
  | .cat a b => .cat a.ci b.ci
  | .alt a b => .alt a.ci b.ci
  | .opt a => .opt a.ci
  | .star a => .star a.ci
  | .plus a => .plus a.ci
  | .grp i a => .grp i a.ci
  | r => r

end EDTF
