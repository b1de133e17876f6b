/- Which text bytes are taken for where U+FFFD stands for what is not UTF-8. -/
import Verif.SpecBytes
import Verif.SpecJson
namespace EDTF.Spec

/-- Bytes are cut into characters from the left; a byte at which no character begins is U+FFFD. -/
inductive ReadAs : Bytes → Str → Prop
  | nil : ReadAs [] []
  | char (c : Char) (v w : Bytes) (s : Str) (h : IsUtf8 v [c]) (k : ReadAs w s) : ReadAs (v ++ w) (c :: s)
  | broken (x : UInt8) (w : Bytes) (s : Str) (h : ∀ c p q, x :: w = p ++ q → ¬ IsUtf8 p [c]) (k : ReadAs w s) : ReadAs (x :: w) ('�' :: s)

end EDTF.Spec
