/-
The specification of the comparison of two strings: what After, Before, Between
and the Unix ranges give for every string, read from the records the strings
denote (`SpecDenote`) and from the errors and panics of the other strings
(`SpecFail`).
-/
import Verif.SpecDenote
import Verif.SpecFail
import Verif.Cmp
namespace EDTF.Spec

/-! ### The bounds of a record -/

/-- The four bounds of a record, from left to right; `none` is a bound that is open or unknown. -/
def Bounds (d : EDTFDate) (sl su el eu : Option Int) : Prop :=
  ∃ (s e : Str) (a b c z : Date), d.start = some ⟨s, some a, some b⟩ ∧ d.stop = some ⟨e, some c, some z⟩ ∧
    a.timestamp = sl ∧ b.timestamp = su ∧ c.timestamp = el ∧ z.timestamp = eu

/-- The error for a bound that is open or unknown.  (Not the error the name
`NotSet` suggests.) -/
def noBound : Err := .wrapped (.notImplemented [] [])

/-! ### Order -/

/-- The outcome of comparing `s` with `t` when one bound of each is needed.
`mine` and `theirs` take the bound of `s` and the bound of `t` out of (lower,
upper); `holds` compares them. -/
inductive Compared (f : Int → Nat → Nat → Int) (mine theirs : Option Int × Option Int → Option Int) (holds : Int → Int → Prop)
    (s t : Str) : Res Bool → Prop
  /-- the first string is wrong -/
  | left (e : Err) (h : Fails s e) : Compared f mine theirs holds s t (.err .plain)
  | leftPanic (h : Panics s) : Compared f mine theirs holds s t .panic
  /-- the second string is wrong -/
  | right (hs : Accepted s) (e : Err) (h : Fails t e) : Compared f mine theirs holds s t (.err .plain)
  | rightPanic (hs : Accepted s) (h : Panics t) : Compared f mine theirs holds s t .panic
  /-- open is neither after nor before anything -/
  | opened (hs : s = c! "..") (ht : Accepted t) : Compared f mine theirs holds s t (.ok false)
  /-- one of the two bounds is open or unknown -/
  | missing (hs : s ≠ c! "..") (x y : EDTFDate) (hx : Denotes f s x) (hy : Denotes f t y) (xl xu yl yu a b c d : Option Int)
      (bx : Bounds x xl a b xu) (bz : Bounds y yl c d yu) (h : mine (xl, xu) = none ∨ theirs (yl, yu) = none) :
      Compared f mine theirs holds s t (.err noBound)
  /-- both are there -/
  | yes (hs : s ≠ c! "..") (x y : EDTFDate) (hx : Denotes f s x) (hy : Denotes f t y) (xl xu yl yu a b c d : Option Int)
      (bx : Bounds x xl a b xu) (bz : Bounds y yl c d yu) (p q : Int) (hp : mine (xl, xu) = some p) (hq : theirs (yl, yu) = some q)
      (h : holds p q) : Compared f mine theirs holds s t (.ok true)
  | no (hs : s ≠ c! "..") (x y : EDTFDate) (hx : Denotes f s x) (hy : Denotes f t y) (xl xu yl yu a b c d : Option Int)
      (bx : Bounds x xl a b xu) (bz : Bounds y yl c d yu) (p q : Int) (hp : mine (xl, xu) = some p) (hq : theirs (yl, yu) = some q)
      (h : ¬ holds p q) : Compared f mine theirs holds s t (.ok false)

/-- `s` is after `t`: it starts when `t` ends, or later. -/
def AfterOutcome (f : Int → Nat → Nat → Int) : Str → Str → Res Bool → Prop := Compared f Prod.fst Prod.snd (fun p q => q ≤ p)
/-- `s` is before `t`: it ends when `t` starts, or earlier. -/
def BeforeOutcome (f : Int → Nat → Nat → Int) : Str → Str → Res Bool → Prop := Compared f Prod.snd Prod.fst (fun p q => p ≤ q)

/-- `s` is between `i` and `c`: not before `i`, and not after `c` unless `c` is
open.  (An open `c` is not read at all.) -/
inductive BetweenOutcome (f : Int → Nat → Nat → Int) (s i c : Str) : Res Bool → Prop
  | beforeError (e : Err) (h : BeforeOutcome f s i (.err e)) : BetweenOutcome f s i c (.err (.wrapped e))
  | beforePanic (h : BeforeOutcome f s i .panic) : BetweenOutcome f s i c .panic
  | early (h : BeforeOutcome f s i (.ok true)) : BetweenOutcome f s i c (.ok false)
  | openEnd (h : BeforeOutcome f s i (.ok false)) (hc : c = c! "..") : BetweenOutcome f s i c (.ok true)
  | afterError (h : BeforeOutcome f s i (.ok false)) (hc : c ≠ c! "..") (e : Err) (ha : AfterOutcome f s c (.err e)) :
      BetweenOutcome f s i c (.err (.wrapped e))
  | afterPanic (h : BeforeOutcome f s i (.ok false)) (hc : c ≠ c! "..") (ha : AfterOutcome f s c .panic) : BetweenOutcome f s i c .panic
  | after (h : BeforeOutcome f s i (.ok false)) (hc : c ≠ c! "..") (b : Bool) (ha : AfterOutcome f s c (.ok b)) :
      BetweenOutcome f s i c (.ok !b)

/-! ### Unix ranges -/

/-- The strings for which no range is looked for. -/
def NoRange (s : Str) : Prop := s ∈ [[], c! "..", c! "open", c! "uuuu"]

/-- The ranges of a string. -/
inductive RangesOutcome (f : Int → Nat → Nat → Int) (s : Str) : Res (Option Unix.Range) → Prop
  | skipped (h : NoRange s) : RangesOutcome f s (.ok none)
  | error (h : ¬ NoRange s) (e : Err) (he : Fails s e) : RangesOutcome f s (.err (.wrapped e))
  | panic (h : ¬ NoRange s) (he : Panics s) : RangesOutcome f s .panic
  | missing (h : ¬ NoRange s) (d : EDTFDate) (hd : Denotes f s d) (sl su el eu : Option Int) (hb : Bounds d sl su el eu)
      (hn : sl = none ∨ su = none ∨ el = none ∨ eu = none) : RangesOutcome f s (.ok none)
  | found (h : ¬ NoRange s) (d : EDTFDate) (hd : Denotes f s d) (a b c e : Int) (hb : Bounds d (some a) (some b) (some c) (some e)) :
      RangesOutcome f s (.ok (some ⟨⟨a, e⟩, ⟨b, c⟩⟩))

/-! ### Which strings have no bound -/

/-- No lower bound: unknown, open, an interval without a start, and a set that
starts with `..` or ends with `..` or with nothing after its last comma.  The
last two are sets that say nothing about an earlier time. -/
inductive NoLower : Str → Prop
  | unknown : NoLower []
  | opened : NoLower (c! "..")
  | startless (l : Str) (hl : l = [] ∨ l = c! "..") (x : Date0) (h : x.ok) : NoLower (l ++ '/' :: x.text)
  | set (o c : Char) (hb : Brackets o c) (cs : List Chunk) (hc : ChunksOk cs) (hm : MembersOk (cs.flatMap Chunk.members))
      (h : cs.any Chunk.opensStart = true ∨ .blank ∈ cs) : NoLower (o :: (commaJoin (cs.map Chunk.text) ++ [c]))

/-- No upper bound: unknown, open, an interval without an end, and a set that
ends with `x..` and does not start with `..`. -/
inductive NoUpper : Str → Prop
  | unknown : NoUpper []
  | opened : NoUpper (c! "..")
  | endless (neg : Bool) (n : Nat) (h : n < 10000) (r : Str) (hr : r = [] ∨ r = c! "..") :
      NoUpper ((⟨neg, n, .none⟩ : Date0).text ++ '/' :: r)
  | set (o c : Char) (hb : Brackets o c) (cs : List Chunk) (hc : ChunksOk cs) (hm : MembersOk (cs.flatMap Chunk.members))
      (h1 : cs.any Chunk.opensEnd = true) (h2 : cs.any Chunk.opensStart = false) :
      NoUpper (o :: (commaJoin (cs.map Chunk.text) ++ [c]))

end EDTF.Spec
