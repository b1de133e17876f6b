/-
The specification of the functions that are exported besides `ParseString`: the span
of any text, and the parsers of the single features and levels.
-/
import Verif.SpecFail
import Verif.SpecDenote
namespace EDTF.Spec

/-! ### The span of a text -/

/-- One of two sides: a date, nothing, or two dots. -/
inductive SideOf (f : Int → Nat → Nat → Int) : Str → DateRange → Prop
  | range {t : Str} {R : DateRange} (h : RangeOf f t R) : SideOf f t R
  | opened : SideOf f (c! "..") (openRange (c! ".."))

/-- The start and the stop of a text: a date, or two sides. -/
inductive SpanText (f : Int → Nat → Nat → Int) : Str → DateRange → DateRange → Prop
  | one {t : Str} {S E : DateRange} (h : SpanOf f t S E) : SpanText f t S E
  | two {t u : Str} {S E : DateRange} (hS : SideOf f t S) (hE : SideOf f u E) : SpanText f (t ++ '/' :: u) S E

/-- The error of a text that has no start and stop. -/
inductive SpanFails : Str → Err → Prop
  | one (t : Str) (ht : '/' ∉ t) (e : Err) (h : DateFails t e) : SpanFails t e
  | left (t u : Str) (ht : '/' ∉ t) (hu : '/' ∉ u) (h1 : t ≠ [] ∧ t ≠ c! "..") (e : Err) (h : DateFails t e) : SpanFails (t ++ '/' :: u) e
  | right (t u : Str) (ht : '/' ∉ t) (hu : '/' ∉ u) (h1 : t = [] ∨ t = c! ".." ∨ Reads t) (h2 : u ≠ [] ∧ u ≠ c! "..") (e : Err) (h : DateFails u e) :
      SpanFails (t ++ '/' :: u) e
  | many (t u v : Str) : SpanFails (t ++ '/' :: (u ++ '/' :: v)) (.invalid (c! "date span") (t ++ '/' :: (u ++ '/' :: v)))

/-! ### The parsers of the features -/

/-- A result that is the span of `text`, with its text `s`, its level and its label. -/
structure SpanOutcome (f : Int → Nat → Nat → Int) (text s : Str) (level : Int) (label : Str) (r : Res EDTFDate) : Prop where
  accepts : ∀ d, r = .ok d ↔ ∃ S E, SpanText f text S E ∧ d = ⟨some S, some E, s, level, label⟩
  rejects : ∀ e, r = .err e ↔ SpanFails text e
  returns : r ≠ .panic

/-- A function that reads the strings of a form and returns the span of their own text. -/
def SpanParser (f : Int → Nat → Nat → Int) (P : Str → Res EDTFDate) (form : Str → Prop) (level : Int) (label : Str) : Prop :=
  ∀ s, (form s → SpanOutcome f s s level label (P s)) ∧ (¬ form s → P s = .err (.invalid label s))

/-- A function that does the same as another for the strings of a form. -/
def SameOn (P Q : Str → Res EDTFDate) (form : Str → Prop) (label : Str) : Prop :=
  ∀ s, (form s → P s = Q s) ∧ (¬ form s → P s = .err (.invalid label s))

/-- A string that begins with a year and the number of a month or season. -/
def SeasonStart (s : Str) : Prop :=
  ∃ (neg : Bool) (n m : Nat) (rest : Str), n < 10000 ∧ ((1 ≤ m ∧ m ≤ 12) ∨ (21 ≤ m ∧ m ≤ 24)) ∧ s = signed neg (pad4 n) ++ '-' :: (pad2 m ++ rest)

/-- A string that ends with the name of a season, a comma and a year. -/
def SeasonEnd (s : Str) : Prop := ∃ pre t, SeasonNameForm t ∧ s = pre ++ t

/-- The first year and month and the last year and month of the season in a string. -/
inductive SeasonAt : Str → Int → Nat → Int → Nat → Prop
  | month (neg : Bool) (n m : Nat) (hn : n < 10000) (h1 : 1 ≤ m) (h2 : m ≤ 12) (rest : Str) :
      SeasonAt (signed neg (pad4 n) ++ '-' :: (pad2 m ++ rest)) (if neg then -(n : Int) else n) m (if neg then -(n : Int) else n) m
  | season (neg : Bool) (n : Nat) (hn : n < 10000) (z : Season) (rest : Str) :
      SeasonAt (signed neg (pad4 n) ++ '-' :: (pad2 z.code ++ rest)) (if neg then -(n : Int) else n) z.firstMonth
        (z.lastYear (if neg then -(n : Int) else n)) z.lastMonth
  | name (pre w t1 t2 : Str) (z : Season) (n : Nat) (hw : Folded z.word w) (h1 : Blank t1) (h2 : Blank t2) (hn : n < 10000)
      (hp : ¬ SeasonStart (pre ++ (w ++ (t1 ++ ',' :: (t2 ++ pad4 n))))) :
      SeasonAt (pre ++ (w ++ (t1 ++ ',' :: (t2 ++ pad4 n)))) n z.firstMonth (z.lastYear n) z.lastMonth

/-- A year in at least four characters, where the sign counts. -/
def paddedYear (y : Int) : Str :=
  if 0 ≤ y then pad4 y.natAbs else if -1000 < y then '-' :: pad3 y.natAbs else '-' :: pad4 y.natAbs

/-- The text that stands for the months from one to another. -/
def monthsText (y1 : Int) (m1 : Nat) (y2 : Int) (m2 : Nat) : Str :=
  (paddedYear y1 ++ '-' :: (pad2 m1 ++ c! "-01")) ++ '/' :: (paddedYear y2 ++ '-' :: (pad2 m2 ++ '-' :: pad2 (monthLen y2 m2)))

/-- The text that stands for a grouping of a year; `t` is the next year. -/
def groupingText (n : Nat) (t : Str) (g : Grouping) : Str :=
  (pad4 n ++ '-' :: (pad2 g.firstMonth ++ c! "-01")) ++ '/' ::
    (if g.crosses then t ++ c! "-02" else pad4 n ++ '-' :: (pad2 g.lastMonth ++ '-' :: pad2 (monthLen 1 g.lastMonth)))

/-! ### The order of the features -/

/-- The value of the first condition that holds, or else `d`. -/
inductive First {α : Type} (d : α) : List (Prop × α) → α → Prop
  | none : First d [] d
  | here {p : Prop} {a : α} {l : List (Prop × α)} (h : p) : First d ((p, a) :: l) a
  | next {p : Prop} {a b : α} {l : List (Prop × α)} (h : ¬ p) (k : First d l b) : First d ((p, a) :: l) b

/-- The labels of Level 0 in their order. -/
def labels0 (s : Str) : List (Prop × Str) := [(DateShape s, c! "Date"), (TimeForm s, c! "Date and Time"), (PairForm s, c! "Time Interval")]

/-- The labels of Level 1 in their order. -/
def labels1 (s : Str) : List (Prop × Str) :=
  [(LetterForm (c! "Y") s, c! "Letter-prefixed calendar year"), (SeasonStart s ∨ SeasonEnd s, c! "Seasons"),
   (QualifiedForm s, c! "Qualification of a date (complete)"), (UnspecifiedForm (c! "X") s, c! "Unspecified digit(s) from the right"),
   (NegativeForm s, c! "Negative calendar year"), (StartForm s, c! "Extended Interval (Start)"), (EndForm s, c! "Extended Interval (End)")]

/-- The labels of Level 2 in their order. -/
def labels2 (s : Str) : List (Prop × Str) :=
  [(ExponentialForm s, c! "Exponential year"), (SignificantForm (c! "Y") (c! "S") s, c! "Significant digits"), (SubYearForm s, c! "Sub-year groupings"),
   (SetForm s, c! "Set representation"), (GroupForm s, c! "Qualification (Group)"), (EndpointForm false [] s, c! "Qualification (Individual)"),
   (DigitForm (c! "X") s, c! "Unspecified Digit"), (IntervalForm (c! "X") s, c! "Interval")]

/-- A list of labels as a list of answers. -/
def answers (level : Int) (l : List (Prop × Str)) : List (Prop × Res (Int × Str)) := l.map fun x => (x.1, .ok (level, x.2))

end EDTF.Spec
