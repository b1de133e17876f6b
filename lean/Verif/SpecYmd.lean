/-
The specification of the helpers of packages common and calendar that read years,
months and days from any text or number: what each returns, for all arguments.
-/
import Verif.Spec
namespace EDTF.Spec

/-- A decimal integer of 64 bits. -/
def IntText (t : Str) (v : Int) : Prop := Decimal t v ∧ -2 ^ 63 ≤ v ∧ v < 2 ^ 63

/-- A month or a day, where nothing counts as 0. -/
def PartText (t : Str) (v : Int) : Prop := (t = [] ∧ v = 0) ∨ IntText t v

/-- Pieces with a sign between each two. -/
def joinWith (c : Char) : List Str → Str
  | [] => []
  | [p] => p
  | p :: q :: ps => p ++ c :: joinWith c (q :: ps)

/-- The pieces of a text between the hyphens. -/
def DashPieces (s : Str) (ps : List Str) : Prop := ps ≠ [] ∧ (∀ p ∈ ps, '-' ∉ p) ∧ s = joinWith '-' ps

/-! ### Days of a month -/

/-- The number of days of month `m` of year `y`: months 0 and from 13 on count as months of 31 days. -/
inductive DaysOutcome (y m : Int) : Res Int → Prop
  | month (k : Nat) (hy : y.natAbs ≤ 9999) (hk : m = k) (h1 : 1 ≤ k) (h2 : k ≤ 12) : DaysOutcome y m (.ok (monthLen y k))
  | other (hy : y.natAbs ≤ 9999) (h : m = 0 ∨ 12 < m) : DaysOutcome y m (.ok 31)
  | error (h : 9999 < y.natAbs ∨ m < 0) : DaysOutcome y m (.err .plain)

/-- The same from texts. -/
inductive DaysTexts (a b : Str) : Res Int → Prop
  | read (y m : Int) (hy : IntText a y) (hm : IntText b m) (r : Res Int) (h : DaysOutcome y m r) : DaysTexts a b r
  | error (h : ¬ ∃ y m, IntText a y ∧ IntText b m) : DaysTexts a b (.err .plain)

/-- The same from one text.  (What stands before the first of two hyphens is dropped.) -/
inductive DaysText (s : Str) : Res Int → Prop
  | two (a b : Str) (h : DashPieces s [a, b]) (r : Res Int) (hr : DaysTexts a b r) : DaysText s r
  | three (a b c : Str) (h : DashPieces s [a, b, c]) (r : Res Int) (hr : DaysTexts ('-' :: b) c r) : DaysText s r
  | error (ps : List Str) (h : DashPieces s ps) (h2 : ps.length ≠ 2) (h3 : ps.length ≠ 3) : DaysText s (.err .plain)

/-! ### Year, month and day -/

/-- Year, month and day as numbers; a day without a month is not allowed. -/
def YmdTexts (a b c : Str) (y m d : Int) : Prop := IntText a y ∧ PartText b m ∧ PartText c d ∧ (b = [] → c = [])

/-- The date read.  Month 0 counts as January if the day is 0, day 0 as the last of the month;
a negative day is taken as it is. -/
inductive YmdReads (a b c : Str) : YMD → Prop
  | noMonth (y : Int) (h : YmdTexts a b c y 0 0) (hy : y.natAbs ≤ 9999) : YmdReads a b c ⟨y, 1, 31⟩
  | noDay (y : Int) (m : Nat) (h : YmdTexts a b c y m 0) (hy : y.natAbs ≤ 9999) (h1 : 1 ≤ m) (h2 : m ≤ 12) :
      YmdReads a b c ⟨y, m, monthLen y m⟩
  | day (y : Int) (m : Nat) (d : Int) (h : YmdTexts a b c y m d) (hy : y.natAbs ≤ 9999) (h1 : 1 ≤ m) (h2 : m ≤ 12)
      (hd : d ≠ 0) (hl : d ≤ monthLen y m) : YmdReads a b c ⟨y, m, d⟩

/-- The year has more than four digits.  (The least integer of 64 bits has no counterpart without a sign.) -/
def YmdLarge (a b c : Str) (t : Str) : Prop :=
  ∃ y m d, YmdTexts a b c y m d ∧ 9999 < y.natAbs ∧ y ≠ -2 ^ 63 ∧ t = Nat.toDigits 10 y.natAbs

inductive YmdOutcome (a b c : Str) : Res YMD → Prop
  | read (v : YMD) (h : YmdReads a b c v) : YmdOutcome a b c (.ok v)
  | large (t : Str) (h : YmdLarge a b c t) : YmdOutcome a b c (.err (.unsupported (c! "year") t))
  | error (h1 : ∀ v, ¬ YmdReads a b c v) (h2 : ∀ t, ¬ YmdLarge a b c t) : YmdOutcome a b c (.err .plain)

/-- The same from one text.  (What stands before the first of three hyphens is dropped.) -/
inductive YmdText (s : Str) : Res YMD → Prop
  | one (a : Str) (h : DashPieces s [a]) (r : Res YMD) (hr : YmdOutcome a [] [] r) : YmdText s r
  | two (a b : Str) (h : DashPieces s [a, b]) (r : Res YMD) (hr : YmdOutcome a b [] r) : YmdText s r
  | three (a b c : Str) (h : DashPieces s [a, b, c]) (r : Res YMD) (hr : YmdOutcome a b c r) : YmdText s r
  | four (a b c d : Str) (h : DashPieces s [a, b, c, d]) (r : Res YMD) (hr : YmdOutcome ('-' :: b) c d r) : YmdText s r
  | error (ps : List Str) (h : DashPieces s ps) (hl : 4 < ps.length) : YmdText s (.err .plain)

/-! ### Instants -/

/-- What may follow the seconds: nothing, or a fraction of a second. -/
def Fraction (z : Str) : Prop :=
  z = [] ∨ ∃ c d ds, (c = '.' ∨ c = ',') ∧ z = c :: d :: ds ∧ (d :: ds).all isDig = true

/-- A time of day; the hour may have one digit, and a fraction of a second may follow. -/
inductive TimeText : Str → Int → Prop
  | two (h m s : Nat) (z : Str) (h1 : h < 24) (h2 : m < 60) (h3 : s < 60) (h4 : Fraction z) :
      TimeText (pad2 h ++ ':' :: (pad2 m ++ ':' :: (pad2 s ++ z))) (3600 * h + 60 * m + s)
  | one (h m s : Nat) (z : Str) (h1 : h < 10) (h2 : m < 60) (h3 : s < 60) (h4 : Fraction z) :
      TimeText (dig h :: ':' :: (pad2 m ++ ':' :: (pad2 s ++ z))) (3600 * h + 60 * m + s)

/-- The instant of a date and a time of day. -/
inductive InstantOutcome (f : Int → Nat → Nat → Int) (v : YMD) (t : Str) : Res Int → Prop
  | read (y : Int) (m d : Nat) (hv : v = ⟨y, m, d⟩) (hy : y.natAbs ≤ 9999) (V : Valid y m d) (n : Int) (h : TimeText t n) :
      InstantOutcome f v t (.ok (86400 * f y m d + n))
  | error (h : ¬ ∃ (y : Int) (m d : Nat), v = ⟨y, m, d⟩ ∧ y.natAbs ≤ 9999 ∧ Valid y m d ∧ ∃ n, TimeText t n) :
      InstantOutcome f v t (.err .plain)

/-- The same from texts. -/
inductive InstantTexts (f : Int → Nat → Nat → Int) (a b c t : Str) : Res Int → Prop
  | read (v : YMD) (h : YmdReads a b c v) (r : Res Int) (hr : InstantOutcome f v t r) : InstantTexts f a b c t r
  | large (z : Str) (h : YmdLarge a b c z) : InstantTexts f a b c t (.err (.unsupported (c! "year") z))
  | error (h1 : ∀ v, ¬ YmdReads a b c v) (h2 : ∀ z, ¬ YmdLarge a b c z) : InstantTexts f a b c t (.err .plain)

end EDTF.Spec
