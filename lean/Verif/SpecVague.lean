/-
Specification for C97: the fewer digits are given, the longer the time.
-/
import Verif.SpecSort
import Verif.SpecSame
namespace EDTF.Spec

/-- The first text is the second one, with some digits left out: each is written as `X`. -/
inductive Vaguer : Str → Str → Prop
  | nil : Vaguer [] []
  | same (c : Char) {m s : Str} (h : Vaguer m s) : Vaguer (c :: m) (c :: s)
  | hidden (k : Nat) (hk : k < 10) {m s : Str} (h : Vaguer m s) : Vaguer ('X' :: m) (dig k :: s)

/-- A month is written "0X", perhaps with a qualifier before it. -/
def ZeroMonth (m : Str) : Prop :=
  ∃ u y q v : Str, y.length = 4 ∧ '-' ∉ y ∧ q ∈ [[], c! "?", c! "~", c! "%"] ∧ m = u ++ (y ++ '-' :: (q ++ '0' :: 'X' :: v))

/-- A number that is no month stands for the month: a season, or another part of the year. -/
def PartNumber (s : Str) : Prop := ∃ (neg : Bool) (n k : Nat), n < 10000 ∧ 12 < k ∧ k < 100 ∧ s = signed neg (pad4 n) ++ '-' :: pad2 k

end EDTF.Spec
