/-
The specification of the accepted language: which dates can be read, and which
strings `ParseString` takes without an error.  It uses the written forms of
`Spec` (and of dates with unspecified digits and qualifiers), not the model.
-/
import Verif.PropsIv
namespace EDTF.Spec

/-! ### Dates that can be read -/

/-- One place of a year: a digit, or `X` for any digit.  The least and the
greatest digit. -/
inductive Place : Char → Nat → Nat → Prop
  | digit (k : Nat) (h : k < 10) : Place (dig k) k k
  | any : Place 'X' 0 9

/-- A year and its first and last value.  Unspecified digits are read only if
the last digit is one of them, the first digit is not, and there is no sign. -/
inductive YearReads : Bool → Str → Int → Int → Prop
  | digits (neg : Bool) (n : Nat) (h : n < 10000) :
      YearReads neg (pad4 n) (if neg then -(n : Int) else n) (if neg then -(n : Int) else n)
  | unspecified (a : Nat) (h : a < 10) {b c : Char} {b1 b2 c1 c2 : Nat} (hb : Place b b1 b2) (hc : Place c c1 c2) :
      YearReads false [dig a, b, c, 'X'] ((1000 * a + 100 * b1 + 10 * c1 : Nat) : Int) ((1000 * a + 100 * b2 + 10 * c2 + 9 : Nat) : Int)

/-- A month, or its absence, and the first and last month.  ("0X" is taken for
October to December, as is "1X".) -/
inductive MonthReads : Str → Nat → Nat → Prop
  | absent : MonthReads [] 1 12
  | digits (m : Nat) (h1 : 1 ≤ m) (h2 : m ≤ 12) : MonthReads (pad2 m) m m
  | any : MonthReads (c! "XX") 1 12
  | zero : MonthReads (c! "0X") 10 12
  | one : MonthReads (c! "1X") 10 12

/-- A day, or its absence, and the first and last day, where `l1` and `l2` are
the lengths of the first and of the last month.  ("00" is taken for the last day
of the month.) -/
inductive DayReads (l1 l2 : Nat) : Str → Nat → Nat → Prop
  | absent : DayReads l1 l2 [] 1 l2
  | digits (d : Nat) (h1 : 1 ≤ d) (h2 : d ≤ 31) : DayReads l1 l2 (pad2 d) d d
  | zero : DayReads l1 l2 (c! "00") l1 l2
  | any : DayReads l1 l2 (c! "XX") 1 l2
  | tens1 : DayReads l1 l2 (c! "1X") 10 19
  | tens2 : DayReads l1 l2 (c! "2X") 20 29
  | tens3 : DayReads l1 l2 (c! "3X") 30 l2

/-- A date, possibly with unspecified digits, that can be read: its first and
its last day exist. -/
def XDate.Readable (x : XDate) : Prop :=
  ∃ (y1 y2 : Int) (m1 m2 d1 d2 : Nat), YearReads x.neg x.year y1 y2 ∧ MonthReads x.mx m1 m2 ∧
    DayReads (monthLen y1 m1) (monthLen y2 m2) x.dx d1 d2 ∧ Valid y1 m1 d1 ∧ Valid y2 m2 d2

/-- A date with qualifiers that can be read. -/
def Endpoint.Readable (e : Endpoint) : Prop := e.shape ∧ e.date.Readable

/-- The text is that of a date that can be read. -/
def Reads (t : Str) : Prop := ∃ e : Endpoint, e.Readable ∧ t = e.text

/-! ### What the season parser takes after a year and a month -/

/-- A year the season parser can write back (it does not pad after a sign). -/
def SeasonYear (y : Int) : Prop := 0 ≤ y ∨ y ≤ -1000

/-- A day with an unspecified digit, `X` or `x`, as the Level 1 pattern has it. -/
def LooseDay (a b : Char) : Prop :=
  ((a ∈ c! "012Xx" ∧ b ∈ c! "123456789Xx") ∨ (a ∈ c! "3Xx" ∧ b ∈ c! "01Xx")) ∧
  (a ∈ c! "Xx" ∨ b ∈ c! "Xx")

instance (a b : Char) : Decidable (LooseDay a b) := by unfold LooseDay; infer_instance

/-- What may follow the month: a qualifier, an open or unknown end (each after a
day, which need not exist), or a day with unspecified digits if the year is not
negative. -/
inductive AfterMonth : Bool → Str → Prop
  | qualifier (neg : Bool) (q : Char) (hq : q ∈ c! "?~%") : AfterMonth neg [q]
  | dayQualifier (neg : Bool) (d : Nat) (h1 : 1 ≤ d) (h2 : d ≤ 31) (q : Char) (hq : q ∈ c! "?~%") : AfterMonth neg ('-' :: (pad2 d ++ [q]))
  | ended (neg : Bool) (t : Str) (ht : t = [] ∨ t = c! "..") : AfterMonth neg ('/' :: t)
  | dayEnded (neg : Bool) (d : Nat) (h1 : 1 ≤ d) (h2 : d ≤ 31) (t : Str) (ht : t = [] ∨ t = c! "..") :
      AfterMonth neg ('-' :: (pad2 d ++ '/' :: t))
  | loose (a b : Char) (h : LooseDay a b) : AfterMonth false ['-', a, b]

/-! ### Exponential years -/

/-- `r` is `n` rounded to 64 binary places, to the nearest and ties to even. -/
def Rounds64 (n r : Nat) : Prop :=
  (n < 2 ^ 64 ∧ r = n) ∨
  ∃ k q, 0 < k ∧ 2 ^ (63 + k) ≤ n ∧ n < 2 ^ (64 + k) ∧ r = q * 2 ^ k ∧
    (2 * (n - r) + 2 * (r - n) < 2 ^ k ∨ (2 * (n - r) + 2 * (r - n) = 2 ^ k ∧ 2 ∣ q))

/-- The year read from `ms E es`: the rounded value, cut to 64 bits with sign,
if it has at most four digits. -/
def ExpYear (neg : Bool) (ms es : List Nat) (v : Int) : Prop :=
  value10 es < 2 ^ 63 ∧ -9999 ≤ v ∧ v ≤ 9999 ∧
  ∃ r, Rounds64 (value10 ms * 10 ^ value10 es) r ∧ (2 ^ 64 : Int) ∣ (if neg then -(r : Int) else r) - v

/-- Decimal digits, at least one. -/
def Digits (ds : List Nat) : Prop := ds ≠ [] ∧ ∀ d ∈ ds, d < 10

/-- An optional sign. -/
def signed (neg : Bool) (t : Str) : Str := if neg then '-' :: t else t

/-! ### Significant digits -/

/-- The year before the `S`, as a text and as a number. -/
inductive SigText : Str → Int → Prop
  | date (neg : Bool) (n : Nat) (h : n < 10000) : SigText (signed neg (pad4 n)) (if neg then -(n : Int) else n)
  | letter (neg : Bool) (us : List Nat) (hu : Digits us) (hl : (signed neg (us.map dig)).length ≤ 4) :
      SigText ('Y' :: signed neg (us.map dig)) (if neg then -(value10 us : Int) else value10 us)
  | exponential (yc ec : Char) (hy : yc ∈ c! "Yy") (he : ec ∈ c! "Ee") (neg : Bool) (ms es : List Nat) (hm : Digits ms) (hes : Digits es)
      (v : Int) (hv : ExpYear neg ms es v) : SigText (yc :: signed neg (ms.map dig ++ ec :: es.map dig)) v

/-- The numbers of significant digits for which the year can be read. -/
def SigFits (v : Int) (k : Nat) : Prop :=
  (1000 ≤ v.natAbs ∧ v.natAbs ≤ 9999 ∧ k ≤ 4) ∨ (-999 ≤ v ∧ v ≤ -100 ∧ k = 4)

/-! ### Sets -/

/-- Dates written one after the other with nothing between them. -/
def runText : List Date0 → Str
  | [] => []
  | x :: xs => x.text ++ runText xs

/-- A date as the pattern has it: the day need not exist. -/
def Date0.shaped (x : Date0) : Prop :=
  x.year < 10000 ∧
  match x.tail with
  | .none => True
  | .month m => 1 ≤ m ∧ m ≤ 12
  | .day m d => 1 ≤ m ∧ m ≤ 12 ∧ 1 ≤ d ∧ d ≤ 31

/-- One or more such dates. -/
def RunOk (r : List Date0) : Prop := r ≠ [] ∧ ∀ x ∈ r, x.shaped

/-- What stands between the commas of a set. -/
inductive Chunk where
  | run (r : List Date0)
  | pair (a b : List Date0)
  | upTo (r : List Date0)
  | onFrom (r : List Date0)
  | blank
  | dots

namespace Chunk

def text : Chunk → Str
  | run r => runText r
  | pair a b => runText a ++ (c! ".." ++ runText b)
  | upTo r => c! ".." ++ runText r
  | onFrom r => runText r ++ c! ".."
  | blank => []
  | dots => c! ".."

/-- The members; an absent one counts as an empty text. -/
def members : Chunk → List Str
  | run r => [runText r]
  | pair a b => [runText a, runText b]
  | upTo r => [runText r]
  | onFrom r => [runText r]
  | blank => [[]]
  | dots => [[]]

def ok : Chunk → Prop
  | run r => RunOk r
  | pair a b => RunOk a ∧ RunOk b
  | upTo r => RunOk r
  | onFrom r => RunOk r
  | blank => True
  | dots => True

/-- Allowed as the first chunk. -/
def first : Chunk → Bool
  | blank => false
  | dots => false
  | _ => true

/-- Allowed after the first chunk. -/
def later : Chunk → Bool
  | upTo _ => false
  | _ => true

/-- Allowed before the last chunk. -/
def inner : Chunk → Bool
  | run _ => true
  | pair _ _ => true
  | upTo _ => true
  | _ => false

end Chunk

/-- The chunks of a set: the first one has a date, only the first may be `..x`,
and only the last may be `x..`, `..` or empty. -/
def ChunksOk (cs : List Chunk) : Prop :=
  (∀ c ∈ cs, c.ok) ∧ (∃ c, cs.head? = some c ∧ c.first = true) ∧ (∀ c ∈ cs.drop 1, c.later = true) ∧ (∀ c ∈ cs.dropLast, c.inner = true)

/-- The order of texts. -/
inductive TextLe : Str → Str → Prop
  | nil (t : Str) : TextLe [] t
  | lt (a b : Char) (s t : Str) (h : a.toNat < b.toNat) : TextLe (a :: s) (b :: t)
  | eq (a : Char) (s t : Str) (h : TextLe s t) : TextLe (a :: s) (a :: t)

/-- Only the least and the greatest member are looked at: the greatest must be
a date that can be read, and so must the least unless it is absent. -/
def MembersOk (ms : List Str) : Prop :=
  ∃ a b, a ∈ ms ∧ b ∈ ms ∧ (∀ t ∈ ms, TextLe a t ∧ TextLe t b) ∧ Reads b ∧ (a = [] ∨ Reads a)

/-! ### The accepted language -/

/-- The strings that `ParseString` takes without an error. -/
inductive Accepted : Str → Prop
  /-- unknown -/
  | unknown : Accepted []
  /-- open -/
  | opened : Accepted (c! "..")
  /-- a date that exists -/
  | date (x : Date0) (h : x.ok) : Accepted x.text
  /-- a day with a time of day -/
  | time (neg : Bool) (y m d hh mi ss : Nat) (z : Zone) (hy : y < 10000) (V : Valid y m d) (k1 : hh < 24) (k2 : mi < 60) (k3 : ss < 60)
      (hz : z.ok) : Accepted (clockText neg y m d hh mi ss z)
  /-- two dates, with unspecified digits and with qualifiers on the left -/
  | interval (a b : Endpoint) (ha : a.Readable) (hb : b.Readable) (ra : noRight a.qy a.qm a.qd) (rb : noRight b.qy b.qm b.qd) :
      Accepted (a.text ++ '/' :: b.text)
  /-- an open or unknown start, and a date that exists -/
  | startless (t : Str) (ht : t = [] ∨ t = c! "..") (x : Date0) (h : x.ok) : Accepted (t ++ '/' :: x.text)
  /-- a year, and an open or unknown end -/
  | endless (neg : Bool) (n : Nat) (h : n < 10000) (t : Str) (ht : t = [] ∨ t = c! "..") : Accepted (signed neg (pad4 n) ++ '/' :: t)
  /-- a qualified year -/
  | qualifiedYear (neg : Bool) (n : Nat) (h : n < 10000) (q : Char) (hq : q ∈ c! "?~%") : Accepted (signed neg (pad4 n) ++ [q])
  /-- a date without a sign, either with unspecified digits or with qualifiers, all on the left or all on the right -/
  | single (e : Endpoint) (h : e.Readable) (hn : e.date.neg = false) (hq : noLeft e.qy e.qm e.qd ∨ noRight e.qy e.qm e.qd)
      (hx : 'X' ∈ e.text → e.qy = .none ∧ e.qm = .none ∧ e.qd = .none) : Accepted e.text
  /-- a year and a month with something after them -/
  | month (neg : Bool) (n m : Nat) (hn : n < 10000) (h1 : 1 ≤ m) (h2 : m ≤ 12) (hy : SeasonYear (if neg then -(n : Int) else n))
      (t : Str) (ht : AfterMonth neg t) : Accepted (signed neg (pad4 n) ++ '-' :: (pad2 m ++ t))
  /-- a season by number -/
  | season (neg : Bool) (n : Nat) (hn : n < 10000) (z : Season) (hy : SeasonYear (if neg then -(n : Int) else n))
      (hz : z = .winter → (if neg then -(n : Int) else n) ≠ 9999 ∧ (if neg then -(n : Int) else n) ≠ -1000) :
      Accepted (signed neg (pad4 n) ++ '-' :: pad2 z.code)
  /-- a season by name -/
  | seasonName (z : Season) (w t1 t2 : Str) (n : Nat) (hw : Folded z.word w) (h1 : Blank t1) (h2 : Blank t2) (hn : n < 10000)
      (hz : z = .winter → n ≠ 9999) : Accepted (w ++ (t1 ++ ',' :: (t2 ++ pad4 n)))
  /-- a letter and a year of four digits -/
  | letter (neg : Bool) (n : Nat) (h : n < 10000) : Accepted ('Y' :: signed neg (pad4 n))
  /-- an exponential year of four digits -/
  | exponential (yc ec : Char) (hy : yc ∈ c! "Yy") (he : ec ∈ c! "Ee") (neg : Bool) (ms es : List Nat) (hm : Digits ms) (hes : Digits es)
      (v : Int) (hv : ExpYear neg ms es v) (h : 1000 ≤ v.natAbs) : Accepted (yc :: signed neg (ms.map dig ++ ec :: es.map dig))
  /-- a year with significant digits -/
  | significant (t : Str) (v : Int) (h : SigText t v) (ds : List Nat) (hd : Digits ds) (hk : SigFits v (value10 ds)) :
      Accepted (t ++ 'S' :: ds.map dig)
  /-- a sub-year grouping -/
  | grouping (n : Nat) (hn : n < 10000) (g : Grouping) (hg : g.crosses = true → 999 ≤ n ∧ n ≤ 9998) : Accepted (pad4 n ++ '-' :: pad2 g.code)
  /-- a set -/
  | set (o c : Char) (hb : Brackets o c) (cs : List Chunk) (hc : ChunksOk cs) (hm : MembersOk (cs.flatMap Chunk.members)) :
      Accepted (o :: (commaJoin (cs.map Chunk.text) ++ [c]))

end EDTF.Spec
