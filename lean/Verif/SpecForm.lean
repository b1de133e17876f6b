/-
The written forms that the tests (`IsDate`, `IsLevel1`, ...) are about.  The digits
need not make a date that exists.
-/
import Verif.SpecLang
namespace EDTF.Spec

/-- `n` places, each a digit or one of the characters `xs`. -/
def Places (n : Nat) (xs : Str) (w : Str) : Prop := w.length = n ∧ ∀ c ∈ w, c ∈ c! "0123456789" ++ xs

/-- A qualifier or nothing. -/
def Mark (w : Str) : Prop := w = [] ∨ ∃ q ∈ c! "%~?", w = [q]

/-- Nothing or two dots. -/
def Dots (w : Str) : Prop := w = [] ∨ w = c! ".."

/-! ### Level 0 -/

/-- A year, a year and a month from 01 to 12, or these and a day from 01 to 31. -/
def DateShape (s : Str) : Prop := ∃ x : Date0, x.shaped ∧ s = x.text

/-- A time zone: none, `Z`, or hours and perhaps minutes after a sign. -/
inductive ZoneForm : Str → Prop
  | none : ZoneForm []
  | utc : ZoneForm (c! "Z")
  | hours (c : Char) (hc : c ∈ c! "+-") (a : Nat) (ha : a < 100) : ZoneForm (c :: pad2 a)
  | minutes (c : Char) (hc : c ∈ c! "+-") (a b : Nat) (ha : a < 100) (hb : b < 100) : ZoneForm (c :: (pad2 a ++ ':' :: pad2 b))

/-- A date and a time. -/
def TimeForm (s : Str) : Prop :=
  ∃ (d : Str) (h m t : Nat) (z : Str), DateShape d ∧ h < 100 ∧ m < 100 ∧ t < 100 ∧ ZoneForm z ∧
    s = d ++ 'T' :: (pad2 h ++ ':' :: (pad2 m ++ ':' :: (pad2 t ++ z)))

/-- Two dates. -/
def PairForm (s : Str) : Prop := ∃ a b, DateShape a ∧ DateShape b ∧ s = a ++ '/' :: b

/-! ### Level 1 -/

/-- One of the letters `ys`, perhaps a minus sign, and digits. -/
def LetterForm (ys : Str) (s : Str) : Prop := ∃ y ∈ ys, ∃ neg ds, Digits ds ∧ s = y :: signed neg (ds.map dig)

/-- A year and a number from 01 to 12 or from 21 to 24. -/
def SeasonForm (s : Str) : Prop :=
  ∃ (neg : Bool) (n m : Nat), n < 10000 ∧ ((1 ≤ m ∧ m ≤ 12) ∨ (21 ≤ m ∧ m ≤ 24)) ∧ s = signed neg (pad4 n) ++ '-' :: pad2 m

/-- The name of a season, a comma and a year. -/
def SeasonNameForm (s : Str) : Prop :=
  ∃ (w t1 t2 : Str) (z : Season) (n : Nat), Folded z.word w ∧ Blank t1 ∧ Blank t2 ∧ n < 10000 ∧ s = w ++ (t1 ++ ',' :: (t2 ++ pad4 n))

/-- A date and a qualifier. -/
def QualifiedForm (s : Str) : Prop := ∃ d, DateShape d ∧ ∃ q ∈ c! "?~%", s = d ++ [q]

/-- A month, where each digit may be one of `xs` instead. -/
def MonthShape (xs : Str) (w : Str) : Prop :=
  ∃ a b, w = [a, b] ∧ ((a ∈ c! "0" ++ xs ∧ b ∈ c! "123456789" ++ xs) ∨ (a ∈ c! "1" ++ xs ∧ b ∈ c! "012" ++ xs))

/-- A day, where each digit may be one of `xs` instead; but not 10 and 20. -/
def DayShape (xs : Str) (w : Str) : Prop :=
  ∃ a b, w = [a, b] ∧ ((a ∈ c! "012" ++ xs ∧ b ∈ c! "123456789" ++ xs) ∨ (a ∈ c! "3" ++ xs ∧ b ∈ c! "01" ++ xs))

/-- A date without sign, where digits may be one of `xs`. -/
def UnspecifiedForm (xs : Str) (s : Str) : Prop :=
  ∃ y t, Places 4 xs y ∧ s = y ++ t ∧
    (t = [] ∨ ∃ m u, MonthShape xs m ∧ t = '-' :: (m ++ u) ∧ (u = [] ∨ ∃ d, DayShape xs d ∧ u = '-' :: d))

/-- Nothing or two dots, and a date. -/
def StartForm (s : Str) : Prop := ∃ l d, Dots l ∧ DateShape d ∧ s = l ++ '/' :: d
/-- A date, and nothing or two dots. -/
def EndForm (s : Str) : Prop := ∃ d r, DateShape d ∧ Dots r ∧ s = d ++ '/' :: r
/-- A minus sign before a year that may have one already. -/
def NegativeForm (s : Str) : Prop := ∃ neg n, n < 10000 ∧ s = '-' :: signed neg (pad4 n)

/-! ### Level 2 -/

/-- A letter, perhaps a minus sign, digits, a letter and digits. -/
def ExponentialForm (s : Str) : Prop :=
  ∃ y ∈ c! "Yy", ∃ e ∈ c! "Ee", ∃ neg ms es, Digits ms ∧ Digits es ∧ s = y :: signed neg (ms.map dig ++ e :: es.map dig)

/-- A year in one of three forms, one of the letters `ss` and digits. -/
def SignificantForm (ys ss : Str) (s : Str) : Prop :=
  ∃ u, ((∃ neg n, n < 10000 ∧ u = signed neg (pad4 n)) ∨ LetterForm ys u ∨ ExponentialForm u) ∧
    ∃ c ∈ ss, ∃ ds, Digits ds ∧ s = u ++ c :: ds.map dig

/-- A year without sign and a number from 10 to 12 or from 21 to 41. -/
def SubYearForm (s : Str) : Prop :=
  ∃ n m, n < 10000 ∧ ((10 ≤ m ∧ m ≤ 12) ∨ (21 ≤ m ∧ m ≤ 41)) ∧ s = pad4 n ++ '-' :: pad2 m

/-- One or more dates, each followed by nothing, a comma or two dots. -/
inductive ItemsForm : Str → Prop
  | one {d p : Str} (hd : DateShape d) (hp : p = [] ∨ p = c! "," ∨ p = c! "..") : ItemsForm (d ++ p)
  | more {d p t : Str} (hd : DateShape d) (hp : p = [] ∨ p = c! "," ∨ p = c! "..") (ht : ItemsForm t) : ItemsForm (d ++ p ++ t)

/-- Such dates between brackets, which need not match, and dots at the two ends. -/
def SetForm (s : Str) : Prop :=
  ∃ o ∈ c! "[{", ∃ c ∈ c! "]}", ∃ l m r, Dots l ∧ ItemsForm m ∧ Dots r ∧ s = o :: (l ++ (m ++ (r ++ [c])))

/-- Year, month and day of four, two and two digits, each perhaps with a qualifier after it. -/
def GroupForm (s : Str) : Prop :=
  ∃ y q t, Places 4 [] y ∧ Mark q ∧ s = y ++ (q ++ t) ∧
    (t = [] ∨ ∃ m q' u, Places 2 [] m ∧ Mark q' ∧ t = '-' :: (m ++ (q' ++ u)) ∧
      (u = [] ∨ ∃ d q'', Places 2 [] d ∧ Mark q'' ∧ u = '-' :: (d ++ q'')))

/-- The same with the qualifiers in front, a sign if `sg`, and `xs` for digits. -/
def EndpointForm (sg : Bool) (xs : Str) (s : Str) : Prop :=
  ∃ q neg y t, Mark q ∧ (neg = true → sg = true) ∧ Places 4 xs y ∧ s = q ++ (signed neg y ++ t) ∧
    (t = [] ∨ ∃ q' m u, Mark q' ∧ Places 2 xs m ∧ t = '-' :: (q' ++ (m ++ u)) ∧
      (u = [] ∨ ∃ q'' d, Mark q'' ∧ Places 2 xs d ∧ u = '-' :: (q'' ++ d)))

/-- Year, month and day of four, two and two places, digits or `xs`. -/
def DigitForm (xs : Str) (s : Str) : Prop :=
  ∃ y t, Places 4 xs y ∧ s = y ++ t ∧
    (t = [] ∨ ∃ m u, Places 2 xs m ∧ t = '-' :: (m ++ u) ∧ (u = [] ∨ ∃ d, Places 2 xs d ∧ u = '-' :: d))

/-- Two dates with qualifiers and unspecified digits. -/
def IntervalForm (xs : Str) (s : Str) : Prop := ∃ a b, EndpointForm true xs a ∧ EndpointForm true xs b ∧ s = a ++ '/' :: b

end EDTF.Spec
