/-
The specification of capital and small letters: which of them the texts may exchange.
-/
import Verif.SpecSame
import Verif.SpecLength
namespace EDTF.Spec

/-- A capital letter and its small letter. -/
def BigSmall (a b : Char) : Prop := ∃ k, k < 26 ∧ a = Char.ofNat (65 + k) ∧ b = Char.ofNat (97 + k)

/-- Two texts that differ at most in capital and small letters. -/
inductive Alike : Str → Str → Prop
  | nil : Alike [] []
  | same (a : Char) {s t : Str} (h : Alike s t) : Alike (a :: s) (a :: t)
  | big {a b : Char} (k : BigSmall a b) {s t : Str} (h : Alike s t) : Alike (a :: s) (b :: t)
  | small {a b : Char} (k : BigSmall a b) {s t : Str} (h : Alike s t) : Alike (b :: s) (a :: t)

/-- A year and a month in digits, and a day with an unspecified digit: "1985-04-1x". -/
def UnknownDay (s : Str) : Prop :=
  ∃ (n m : Nat) (a b : Char), s = pad4 n ++ '-' :: (pad2 m ++ ['-', a, b]) ∧ a ∈ c! "0123456789Xx" ∧ b ∈ c! "0123456789Xx" ∧
    (a ∈ c! "Xx" ∨ b ∈ c! "Xx")

/-- Two results of the same kind that mean the same time. -/
def SameResult (d e : EDTFDate) : Prop := SameTime d e ∧ d.level = e.level ∧ d.feature = e.feature

end EDTF.Spec
