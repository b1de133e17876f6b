/-
What a JSON text is and what it stands for, written out as a grammar (RFC 8259), and what
decoding a document into a date does, field by field.  Nothing here uses the scanner.
-/
import Verif.Json
import Verif.SpecYmd
namespace EDTF
namespace Spec

/-- The blanks JSON allows between tokens. -/
def JBlank (s : Str) : Prop := ∀ c ∈ s, c = ' ' ∨ c = '\t' ∨ c = '\n' ∨ c = '\r'

/-- One unit of a string: a character, or a number given by a `\u` escape. -/
inductive JItem where
  | chr (c : Char)
  | code (u : Nat)

/-- The value of a hexadecimal digit. -/
def HexIs (c : Char) (v : Nat) : Prop :=
  (c! "0123456789abcdef")[v]? = some c ∨ (c! "0123456789ABCDEF")[v]? = some c

/-- The two-character escapes. -/
def escapes : List (Char × Char) :=
  [('"', '"'), ('\\', '\\'), ('/', '/'), ('b', '\x08'), ('f', '\x0c'), ('n', '\n'), ('r', '\r'), ('t', '\t')]

/-- The text between two quotes, cut into units. -/
inductive JItems : Str → List JItem → Prop where
  | nil : JItems [] []
  | plain {c : Char} {s : Str} {is : List JItem} : c ≠ '"' → c ≠ '\\' → 32 ≤ c.toNat → JItems s is →
      JItems (c :: s) (.chr c :: is)
  | escape {e c : Char} {s : Str} {is : List JItem} : (e, c) ∈ escapes → JItems s is →
      JItems ('\\' :: e :: s) (.chr c :: is)
  | code {a b c d : Char} {w x y z : Nat} {s : Str} {is : List JItem} :
      HexIs a w → HexIs b x → HexIs c y → HexIs d z → JItems s is →
      JItems ('\\' :: 'u' :: a :: b :: c :: d :: s) (.code (16 * (16 * (16 * w + x) + y) + z) :: is)

/-- A UTF-16 high surrogate. -/
def HighSur (u : Nat) : Prop := 0xD800 ≤ u ∧ u ≤ 0xDBFF
/-- A UTF-16 low surrogate. -/
def LowSur (u : Nat) : Prop := 0xDC00 ≤ u ∧ u ≤ 0xDFFF
instance (u : Nat) : Decidable (HighSur u) := by unfold HighSur; infer_instance
instance (u : Nat) : Decidable (LowSur u) := by unfold LowSur; infer_instance

/-- The character of one code outside a pair: a surrogate stands for U+FFFD. -/
def loneChar (u : Nat) : Char := if HighSur u ∨ LowSur u then '�' else Char.ofNat u

/-- The string a list of units stands for: a high surrogate directly followed by a low one
is one character. -/
def unitsStr : List JItem → Str
  | [] => []
  | .chr c :: is => c :: unitsStr is
  | [.code u] => [loneChar u]
  | .code u :: .chr c :: is => loneChar u :: c :: unitsStr is
  | .code u :: .code l :: is =>
    if HighSur u ∧ LowSur l then Char.ofNat (0x10000 + 0x400 * (u - 0xD800) + (l - 0xDC00)) :: unitsStr is
    else loneChar u :: unitsStr (.code l :: is)

/-- `raw`, between quotes, is a JSON string with the value `val`. -/
def JString (raw val : Str) : Prop := ∃ is, JItems raw is ∧ val = unitsStr is

/-- Decimal digits, at least one. -/
def JDigits (s : Str) : Prop := s ≠ [] ∧ ∀ c ∈ s, c ∈ c! "0123456789"

/-- A JSON number. -/
def JNumber (l : Str) : Prop :=
  ∃ sign int frac exp : Str, l = sign ++ int ++ frac ++ exp ∧
    (sign = [] ∨ sign = ['-']) ∧
    (int = ['0'] ∨ (JDigits int ∧ int.head? ≠ some '0')) ∧
    (frac = [] ∨ ∃ ds, JDigits ds ∧ frac = '.' :: ds) ∧
    (exp = [] ∨ ∃ e g ds, (e = 'e' ∨ e = 'E') ∧ (g = [] ∨ g = ['+'] ∨ g = ['-']) ∧ JDigits ds ∧ exp = e :: (g ++ ds))

mutual
/-- `t` is a JSON text of the document `v`, without blanks around it. -/
inductive JText : JV → Str → Prop where
  | null : JText .null (c! "null")
  | true : JText (.bool true) (c! "true")
  | false : JText (.bool false) (c! "false")
  | num {l : Str} : JNumber l → JText (.num l) l
  | str {raw val : Str} : JString raw val → JText (.str raw val) ('"' :: (raw ++ ['"']))
  | arr0 {b : Str} : JBlank b → JText (.arr []) ('[' :: (b ++ [']']))
  | arr {vs : List JV} {t : Str} : JElems vs t → JText (.arr vs) ('[' :: (t ++ [']']))
  | obj0 {b : Str} : JBlank b → JText (.obj []) ('{' :: (b ++ ['}']))
  | obj {ms : List ((Str × Str) × JV)} {t : Str} : JMembers ms t → JText (.obj ms) ('{' :: (t ++ ['}']))
/-- One or more values separated by commas. -/
inductive JElems : List JV → Str → Prop where
  | one {v : JV} {a t b : Str} : JBlank a → JText v t → JBlank b → JElems [v] (a ++ t ++ b)
  | more {v : JV} {a t b : Str} {vs : List JV} {r : Str} : JBlank a → JText v t → JBlank b → JElems vs r →
      JElems (v :: vs) (a ++ t ++ b ++ ',' :: r)
/-- One or more named values separated by commas. -/
inductive JMembers : List ((Str × Str) × JV) → Str → Prop where
  | one {k k' : Str} {v : JV} {a b c t d : Str} : JBlank a → JString k k' → JBlank b → JBlank c → JText v t → JBlank d →
      JMembers [((k, k'), v)] (a ++ '"' :: (k ++ '"' :: (b ++ ':' :: (c ++ t ++ d))))
  | more {k k' : Str} {v : JV} {a b c t d : Str} {ms : List ((Str × Str) × JV)} {r : Str} :
      JBlank a → JString k k' → JBlank b → JBlank c → JText v t → JBlank d → JMembers ms r →
      JMembers (((k, k'), v) :: ms) (a ++ '"' :: (k ++ '"' :: (b ++ ':' :: (c ++ t ++ d ++ ',' :: r))))
end

/-- `s` is a whole JSON text of the document `v`. -/
def JDocument (v : JV) (s : Str) : Prop := ∃ a t b, JBlank a ∧ JText v t ∧ JBlank b ∧ s = a ++ t ++ b

mutual
/-- Brackets and braces open at the same time at most `n` deep. -/
inductive Nested : Nat → JV → Prop where
  | null {n : Nat} : Nested n .null
  | bool {n : Nat} {b : Bool} : Nested n (.bool b)
  | num {n : Nat} {l : Str} : Nested n (.num l)
  | str {n : Nat} {r v : Str} : Nested n (.str r v)
  | arr {n : Nat} {vs : List JV} : NestedElems n vs → Nested (n + 1) (.arr vs)
  | obj {n : Nat} {ms : List ((Str × Str) × JV)} : NestedMembers n ms → Nested (n + 1) (.obj ms)
inductive NestedElems : Nat → List JV → Prop where
  | nil {n : Nat} : NestedElems n []
  | cons {n : Nat} {v : JV} {vs : List JV} : Nested n v → NestedElems n vs → NestedElems n (v :: vs)
inductive NestedMembers : Nat → List ((Str × Str) × JV) → Prop where
  | nil {n : Nat} : NestedMembers n []
  | cons {n : Nat} {k : Str × Str} {v : JV} {ms : List ((Str × Str) × JV)} : Nested n v → NestedMembers n ms →
      NestedMembers n ((k, v) :: ms)
end

/-! ### Decoding into a date -/

/-- A character of a member's name against a small letter of a field's name: case does not
matter, and the long s and the Kelvin sign count as the letters they fold to. -/
def SameLetter (c d : Char) : Prop :=
  c = d ∨ c = d.toUpper ∨ (c = 'ſ' ∧ d = 's') ∨ (c = '\u212A' ∧ d = 'k')
instance (c d : Char) : Decidable (SameLetter c d) := by unfold SameLetter; infer_instance

/-- A member's name names a field. -/
def NameIs : Str → Str → Prop
  | [], [] => True
  | c :: k, d :: n => SameLetter c d ∧ NameIs k n
  | _, _ => False
instance NameIs.dec : (k n : Str) → Decidable (NameIs k n)
  | [], [] => .isTrue trivial
  | c :: k, d :: n => by
    have := NameIs.dec k n
    unfold NameIs; infer_instance
  | [], _ :: _ => .isFalse id
  | _ :: _, [] => .isFalse id

/-- The values given for a field, in order. -/
def given (name : Str) (ms : List ((Str × Str) × JV)) : List JV :=
  ms.filterMap (fun m => if NameIs m.1.2 name then some m.2 else none)

/-- Values taken one after the other. -/
inductive Steps {α : Type} (R : α → JV → α → Prop) : α → List JV → α → Prop where
  | nil {a : α} : Steps R a [] a
  | cons {a b c : α} {v : JV} {vs : List JV} : R a v b → Steps R b vs c → Steps R a (v :: vs) c

/-- Into a string: null leaves it as it is. -/
def StrFrom (old : Str) (v : JV) (new : Str) : Prop := (v = .null ∧ new = old) ∨ ∃ raw, v = .str raw new
/-- Into an integer of 64 bits. -/
def IntFrom (old : Int) (v : JV) (new : Int) : Prop := (v = .null ∧ new = old) ∨ ∃ l, v = .num l ∧ IntText l new
/-- Into a set of flags: a number of 32 bits without a sign. -/
def FlagsFrom (old : Prec) (v : JV) (new : Prec) : Prop :=
  (v = .null ∧ new = old) ∨ ∃ ds : List Nat, ds ≠ [] ∧ (∀ d ∈ ds, d < 10) ∧ v = .num (ds.map dig) ∧ new.toNat = value10 ds
/-- Into a boolean. -/
def BoolFrom (old : Bool) (v : JV) (new : Bool) : Prop := (v = .null ∧ new = old) ∨ v = .bool new
/-- Into a pointer: null makes it nil; anything else goes into what it points to, or into a new value. -/
def PtrFrom {α : Type} (zero : α) (R : α → JV → α → Prop) (old : Option α) (v : JV) (new : Option α) : Prop :=
  (v = .null ∧ new = none) ∨ (v ≠ .null ∧ ∃ b, new = some b ∧ R (old.getD zero) v b)
/-- Into a timestamp: an integer of 64 bits, bare or as the text of a string, where no escape is understood. -/
def TimestampFrom (_ : Int) (v : JV) (new : Int) : Prop :=
  (∃ l, v = .num l ∧ IntText l new) ∨ ∃ raw val, v = .str raw val ∧ IntText raw new

/-- Into a calendar date, as ymd.go lists its fields; members with other names are passed over. -/
def YmdFromMembers (old : YMD) (ms : List ((Str × Str) × JV)) (new : YMD) : Prop :=
  Steps IntFrom old.year (given (c! "year") ms) new.year ∧
  Steps IntFrom old.month (given (c! "month") ms) new.month ∧
  Steps IntFrom old.day (given (c! "day") ms) new.day
def YmdFrom (old : YMD) (v : JV) (new : YMD) : Prop := (v = .null ∧ new = old) ∨ ∃ ms, v = .obj ms ∧ YmdFromMembers old ms new

/-- Into a boundary, as date.go lists its fields; members with other names are passed over. -/
def DateFromMembers (old : Date) (ms : List ((Str × Str) × JV)) (new : Date) : Prop :=
  Steps StrFrom old.dateTime (given (c! "datetime") ms) new.dateTime ∧
  Steps (PtrFrom 0 TimestampFrom) old.timestamp (given (c! "timestamp") ms) new.timestamp ∧
  Steps (PtrFrom ⟨0, 0, 0⟩ YmdFrom) old.ymd (given (c! "ymd") ms) new.ymd ∧
  Steps FlagsFrom old.uncertain (given (c! "uncertain") ms) new.uncertain ∧
  Steps FlagsFrom old.approximate (given (c! "approximate") ms) new.approximate ∧
  Steps FlagsFrom old.unspecified (given (c! "unspecified") ms) new.unspecified ∧
  Steps FlagsFrom old.precision (given (c! "precision") ms) new.precision ∧
  Steps BoolFrom old.isOpen (given (c! "open") ms) new.isOpen ∧
  Steps BoolFrom old.unknown (given (c! "unknown") ms) new.unknown ∧
  Steps FlagsFrom old.inclusivity (given (c! "inclusivity") ms) new.inclusivity
def DateFrom (old : Date) (v : JV) (new : Date) : Prop := (v = .null ∧ new = old) ∨ ∃ ms, v = .obj ms ∧ DateFromMembers old ms new

/-- Into a range, as daterange.go lists its fields; members with other names are passed over. -/
def DateRangeFromMembers (old : DateRange) (ms : List ((Str × Str) × JV)) (new : DateRange) : Prop :=
  Steps StrFrom old.edtf (given (c! "edtf") ms) new.edtf ∧
  Steps (PtrFrom {} DateFrom) old.lower (given (c! "lower") ms) new.lower ∧
  Steps (PtrFrom {} DateFrom) old.upper (given (c! "upper") ms) new.upper
def DateRangeFrom (old : DateRange) (v : JV) (new : DateRange) : Prop := (v = .null ∧ new = old) ∨ ∃ ms, v = .obj ms ∧ DateRangeFromMembers old ms new

/-- Into a date, as edtf.go lists its fields; members with other names are passed over. -/
def EdtfFromMembers (old : EDTFDate) (ms : List ((Str × Str) × JV)) (new : EDTFDate) : Prop :=
  Steps (PtrFrom {} DateRangeFrom) old.start (given (c! "start") ms) new.start ∧
  Steps (PtrFrom {} DateRangeFrom) old.stop (given (c! "end") ms) new.stop ∧
  Steps StrFrom old.edtf (given (c! "edtf") ms) new.edtf ∧
  Steps IntFrom old.level (given (c! "level") ms) new.level ∧
  Steps StrFrom old.feature (given (c! "feature") ms) new.feature
def EdtfFrom (old : EDTFDate) (v : JV) (new : EDTFDate) : Prop := (v = .null ∧ new = old) ∨ ∃ ms, v = .obj ms ∧ EdtfFromMembers old ms new

end Spec
end EDTF
