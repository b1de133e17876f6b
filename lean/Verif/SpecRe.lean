/-
What it means for a regular expression to match, independent of the matcher:
the ways to match a text, the order of preference between ways (Perl's and
Go's "leftmost-first"), and the texts of the groups.
-/
import Verif.Regex
namespace EDTF.Spec

/-- The choices made on the way, in order: `true` for the preferred branch
(left alternative, one more repetition, taking an optional part). -/
abbrev Path := List Bool

/-- The case folding of a character, for comparisons with ASCII characters: U+017F
folds to `s` and U+212A to `k`. -/
def foldChar (c : Char) : Char :=
  if 'A'.toNat ≤ c.toNat ∧ c.toNat ≤ 'Z'.toNat then Char.ofNat (c.toNat + 32)
  else if c = '\u017f' then 's'
  else if c = '\u212a' then 'k'
  else c

/-- A character class: the character is in one of the ranges; ignoring case, a
character with the same folding is. -/
def InClass (fold : Bool) (rs : List (Char × Char)) (c : Char) : Prop :=
  ∃ d lo hi, (lo, hi) ∈ rs ∧ lo.toNat ≤ d.toNat ∧ d.toNat ≤ hi.toNat ∧ (d = c ∨ (fold = true ∧ foldChar d = foldChar c))

/-- All classes are of ASCII characters. -/
def Ascii : Re → Prop
  | .cls _ rs => ∀ x ∈ rs, x.2.toNat < 128
  | .cat a b => Ascii a ∧ Ascii b
  | .alt a b => Ascii a ∧ Ascii b
  | .opt a | .star a | .plus a | .grp _ a => Ascii a
  | .eps | .bos | .eos => True

/-- `Way r b w rest p cs`: the expression matches the text `w` when `rest`
follows (and nothing precedes, if `b`), with the choices `p`; `cs` are the
groups in the order in which they were closed, with their texts.  Repetitions
match at least one character each. -/
inductive Way : Re → Bool → Str → Str → Path → List (Nat × Str) → Prop
  | eps {b rest} : Way .eps b [] rest [] []
  | cls {fold rs b c rest} : InClass fold rs c → Way (.cls fold rs) b [c] rest [] []
  | bos {rest} : Way .bos true [] rest [] []
  | eos {b} : Way .eos b [] [] [] []
  | cat {r r' b w v rest p q cs ds} : Way r b w (v ++ rest) p cs → Way r' (b && w.isEmpty) v rest q ds →
      Way (.cat r r') b (w ++ v) rest (p ++ q) (cs ++ ds)
  | left {r r' b w rest p cs} : Way r b w rest p cs → Way (.alt r r') b w rest (true :: p) cs
  | right {r r' b w rest p cs} : Way r' b w rest p cs → Way (.alt r r') b w rest (false :: p) cs
  | take {r b w rest p cs} : Way r b w rest p cs → Way (.opt r) b w rest (true :: p) cs
  | skip {r b rest} : Way (.opt r) b [] rest [false] []
  | more {r b w v rest p q cs ds} : w ≠ [] → Way r b w (v ++ rest) p cs → Way (.star r) (b && w.isEmpty) v rest q ds →
      Way (.star r) b (w ++ v) rest (true :: (p ++ q)) (cs ++ ds)
  | stop {r b rest} : Way (.star r) b [] rest [false] []
  | plus {r b w v rest p q cs ds} : Way r b w (v ++ rest) p cs → Way (.star r) (b && w.isEmpty) v rest q ds →
      Way (.plus r) b (w ++ v) rest (p ++ q) (cs ++ ds)
  | grp {r i b w rest p cs} : Way r b w rest p cs → Way (.grp i r) b w rest p (cs ++ [(i, w)])

/-- The first way is preferred: where they first differ it takes the preferred branch. -/
def Preferred (p q : Path) : Prop := ∃ c p' q', p = c ++ true :: p' ∧ q = c ++ false :: q'

/-- The match that counts: it starts at `u.length`, no way to match starts
earlier, and every other way to match there is less preferred. -/
def Finds (r : Re) (u w rest : Str) (cs : List (Nat × Str)) : Prop :=
  (∀ u' w' rest' p cs', u' ++ (w' ++ rest') = u ++ (w ++ rest) → u'.length < u.length → ¬ Way r u'.isEmpty w' rest' p cs') ∧
  ∃ p, Way r u.isEmpty w rest p cs ∧
    ∀ w' rest' p' cs', w' ++ rest' = w ++ rest → Way r u.isEmpty w' rest' p' cs' → p' = p ∨ Preferred p p'

/-- The text of a group: the last one recorded, otherwise empty. -/
def GroupIs (cs : List (Nat × Str)) (i : Nat) (t : Str) : Prop :=
  (∃ before after, cs = before ++ (i, t) :: after ∧ ∀ x ∈ after, x.1 ≠ i) ∨ (t = [] ∧ ∀ x ∈ cs, x.1 ≠ i)

end EDTF.Spec
