/-
What the errors of the comparisons say, for every string.
-/
import Verif.SpecCmp
import Verif.SpecMessage
namespace EDTF.Spec

/-- What is said of a string that is wrong. -/
def wrongText (s why : Str) : Str := c! "Failed to parse '" ++ s ++ c! "', " ++ why

/-- What is said of a bound that is open or unknown.  The reason is that of an error without
a label and a string, see `noBound`. -/
def boundText (which whose s : Str) : Str :=
  c! "Failed to derive " ++ which ++ c! " time for " ++ whose ++ c! " date (" ++ s ++ c! "), Not implemented '' ()"

/-- The text of the error for comparing `s` with `t`, when `mine` names the bound of `s` that is
needed and `theirs` that of `t`.  The second string is always called the inception and
the first the cessation. -/
inductive ComparedText (mine theirs : Str) (noMine noTheirs : Str → Prop) (s t : Str) : Str → Prop
  /-- the first string is wrong -/
  | left (w : Str) (h : ErrorText s w) : ComparedText mine theirs noMine noTheirs s t (wrongText s w)
  /-- the second one is -/
  | right (hs : Accepted s) (w : Str) (h : ErrorText t w) : ComparedText mine theirs noMine noTheirs s t (wrongText t w)
  /-- the second string lacks its bound; this comes before the same for the first -/
  | theirs (hs : Accepted s) (ho : s ≠ c! "..") (h : noTheirs t) :
      ComparedText mine theirs noMine noTheirs s t (boundText theirs (c! "inception") t)
  | mine (ho : s ≠ c! "..") (h : noMine s) (ht : Accepted t) (h2 : ¬ noTheirs t) :
      ComparedText mine theirs noMine noTheirs s t (boundText mine (c! "cessation") s)

/-- What IsAfter says. -/
def AfterText : Str → Str → Str → Prop := ComparedText (c! "lower") (c! "upper") NoLower NoUpper
/-- What IsBefore says. -/
def BeforeText : Str → Str → Str → Prop := ComparedText (c! "upper") (c! "lower") NoUpper NoLower

/-- What IsBetween says. -/
inductive BetweenText (f : Int → Nat → Nat → Int) (s i c : Str) : Str → Prop
  | before (w : Str) (h : BeforeText s i w) : BetweenText f s i c (c! "Failed to determine if date is before inception date, " ++ w)
  | after (h : BeforeOutcome f s i (.ok false)) (hc : c ≠ c! "..") (w : Str) (ha : AfterText s c w) :
      BetweenText f s i c (c! "Failed to determine if date is after cessation date, " ++ w)

/-- What DeriveRanges says: only wrong strings are errors. -/
inductive RangesText (s : Str) : Str → Prop
  | wrong (h : ¬ NoRange s) (w : Str) (hw : ErrorText s w) : RangesText s (wrongText s w)

end EDTF.Spec
