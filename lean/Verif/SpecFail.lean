/-
The specification of failure: for every string that is not accepted, the error that
`ParseString` returns, or that it panics.  It uses the written forms of `SpecForm` and
the accepted language of `SpecLang`, not the model.
-/
import Verif.SpecForm
namespace EDTF.Spec

/-! ### Reading one date -/

/-- A day, where each digit may be `X` instead. -/
def DayLike (w : Str) : Prop :=
  ∃ a b, w = [a, b] ∧ ((a ∈ c! "012X" ∧ b ∈ c! "0123456789X") ∨ (a ∈ c! "3X" ∧ b ∈ c! "01X"))

/-- A date with qualifiers whose month and day have the right form. -/
def Endpoint.like (e : Endpoint) : Prop :=
  e.shape ∧
  match e.date.tail with
  | .none => True
  | .month m => MonthShape (c! "X") m
  | .day m d => MonthShape (c! "X") m ∧ DayLike d

/-- The error of a text that is not a date to be read.  The year is looked at first,
then the day. -/
inductive DateFails : Str → Err → Prop
  /-- not the form of a date -/
  | form (t : Str) (h : ¬ ∃ e : Endpoint, e.like ∧ t = e.text) : DateFails t (.invalid (c! "date") t)
  /-- the first and the last digit of the year are unspecified -/
  | millennium (e : Endpoint) (h : e.like) (hn : e.date.neg = false) (a b : Char) (hy : e.date.year = ['X', a, b, 'X']) :
      DateFails e.text (.notImplemented (c! "date") e.text)
  /-- a negative year whose last digit is unspecified -/
  | negative (e : Endpoint) (h : e.like) (hn : e.date.neg = true) (a b c : Char) (hy : e.date.year = [a, b, c, 'X']) : DateFails e.text .plain
  /-- the day "0X" -/
  | zeroX (e : Endpoint) (h : e.like) (hy : ∀ a b c, e.date.year = [a, b, c, 'X'] → a ≠ 'X' ∧ e.date.neg = false) (hd : e.date.dx = c! "0X") :
      DateFails e.text (.invalid (c! "date") e.text)
  /-- otherwise -/
  | other (e : Endpoint) (h : e.like) (hy : ∀ a b c, e.date.year = [a, b, c, 'X'] → a ≠ 'X' ∧ e.date.neg = false) (hd : e.date.dx ≠ c! "0X")
      (hr : ¬ e.date.Readable) : DateFails e.text .plain

/-! ### Exponential years -/

/-- `r` is `n` rounded to `p` binary places, to the nearest and ties to even. -/
def Rounds (p n r : Nat) : Prop :=
  (n < 2 ^ p ∧ r = n) ∨
  ∃ k q, 0 < k ∧ 2 ^ (p - 1 + k) ≤ n ∧ n < 2 ^ (p + k) ∧ r = q * 2 ^ k ∧
    (2 * (n - r) + 2 * (r - n) < 2 ^ k ∨ (2 * (n - r) + 2 * (r - n) = 2 ^ k ∧ 2 ∣ q))

/-- `r` is what math/big makes of `z * f ^ n`: by repeated squaring, the squares
rounded to 192 places and the products to 128. -/
inductive PowSteps : Nat → Nat → Nat → Nat → Prop
  | done (z f : Nat) : PowSteps 0 z f z
  | even {n z f f' r : Nat} (hn : 0 < n) (hf : Rounds 192 (f * f) f') (h : PowSteps n z f' r) : PowSteps (2 * n) z f r
  | odd {n z f z' f' r : Nat} (hz : Rounds 128 (z * f) z') (hf : Rounds 192 (f * f) f') (h : PowSteps n z' f' r) : PowSteps (2 * n + 1) z f r

/-- What math/big takes for the power of five: exact up to the 27th. -/
def Pow5 (n w : Nat) : Prop := (n ≤ 27 ∧ w = 5 ^ n) ∨ (27 < n ∧ PowSteps (n - 27) (5 ^ 27) 5 w)

/-- The largest binary exponent, plus one, is 2^31: below this bound a float is finite. -/
def floatBound : Nat := 2 ^ (2 ^ 31 - 1)

/-- The numbers of `ms E es` are too large to be read. -/
def TooLarge (ms es : List Nat) : Prop := 2 ^ 63 ≤ value10 es ∨ floatBound ≤ value10 ms * 2 ^ value10 es

/-- The value of `ms E es`, as math/big computes it, is infinite. -/
def Overflows (ms es : List Nat) : Prop :=
  ∃ w r, Pow5 (value10 es) w ∧ Rounds 64 (value10 ms * 2 ^ value10 es * w) r ∧ floatBound ≤ r

/-- The year read from `ms E es`. -/
def ExpReads (neg : Bool) (ms es : List Nat) (v : Int) : Prop := ¬ TooLarge ms es ∧ ¬ Overflows ms es ∧ ExpYear neg ms es v

/-- The error of a year with an exponent, written `t`. -/
inductive ExpFails (neg : Bool) (ms es : List Nat) (t : Str) : Err → Prop
  | large (h : TooLarge ms es) : ExpFails neg ms es t .plain
  | unsupported (h1 : ¬ TooLarge ms es) (h2 : ¬ Overflows ms es) (h3 : ¬ ∃ v, ExpYear neg ms es v) :
      ExpFails neg ms es t (.unsupported (c! "exponential notation") t)

/-! ### Significant digits -/

/-- A number in decimal digits, without leading zeros. -/
def Numeral (v : Int) (t : Str) : Prop :=
  ∃ ds, Digits ds ∧ (ds.head? = some 0 → ds = [0]) ∧ value10 ds = v.natAbs ∧ t = signed (decide (v < 0)) (ds.map dig)

/-- The year before the `S`, as a text and as a number. -/
inductive SigReads : Str → Int → Prop
  | date (neg : Bool) (n : Nat) (h : n < 10000) : SigReads (signed neg (pad4 n)) (if neg then -(n : Int) else n)
  | letter (neg : Bool) (us : List Nat) (hu : Digits us) (hl : (signed neg (us.map dig)).length ≤ 4) :
      SigReads ('Y' :: signed neg (us.map dig)) (if neg then -(value10 us : Int) else value10 us)
  | exponential (yc ec : Char) (hy : yc ∈ c! "Yy") (he : ec ∈ c! "Ee") (neg : Bool) (ms es : List Nat) (hm : Digits ms) (hes : Digits es)
      (v : Int) (hv : ExpReads neg ms es v) : SigReads (yc :: signed neg (ms.map dig ++ ec :: es.map dig)) v

/-- The first of the two years made from the text `u` of the year `v` and `k` digits: the
last `k` characters are replaced by zeros, or by nines if a minus sign remains. -/
def sigEdge (v : Int) (u : Str) (k : Nat) : Str :=
  u.take (u.length - k) ++ List.replicate k (if v < 0 ∧ k < u.length then '9' else '0')

/-! ### The levels -/

/-- The forms of Level 0. -/
def Level0Form (s : Str) : Prop := DateShape s ∨ TimeForm s ∨ PairForm s
/-- The forms of Level 1, with a small `x` also. -/
def Level1Form (s : Str) : Prop :=
  LetterForm (c! "Y") s ∨ SeasonForm s ∨ SeasonNameForm s ∨ QualifiedForm s ∨ UnspecifiedForm (c! "Xx") s ∨ StartForm s ∨ EndForm s ∨ NegativeForm s
/-- The forms of Level 2. -/
def Level2Form (s : Str) : Prop :=
  ExponentialForm s ∨ SignificantForm (c! "Y") (c! "S") s ∨ SubYearForm s ∨ SetForm s ∨ GroupForm s ∨ EndpointForm false [] s ∨
    DigitForm (c! "X") s ∨ IntervalForm (c! "X") s
/-- Begins with one of the forms of Level 2, in capital or small letters. -/
def Level2Start (s : Str) : Prop :=
  ∃ u v, s = u ++ v ∧
    (ExponentialForm u ∨ SignificantForm (c! "Yy") (c! "Ssſ") u ∨ SubYearForm u ∨ SetForm u ∨ GroupForm u ∨ EndpointForm false [] u ∨
      DigitForm (c! "Xx") u ∨ IntervalForm (c! "Xx") u)

/-! ### Failure -/

/-- Three digits. -/
def pad3 (n : Nat) : Str := [dig (n / 100), dig (n / 10 % 10), dig (n % 10)]

/-- The error returned for a string that is not accepted. -/
inductive Fails : Str → Err → Prop
  /-- one date -/
  | single (s : Str) (e : Err)
      (h : DateShape s ∨ UnspecifiedForm (c! "X") s ∨ GroupForm s ∨ EndpointForm false [] s ∨ DigitForm (c! "X") s)
      (h1 : ¬ SeasonForm s) (h2 : ¬ SubYearForm s) (hn : ¬ Accepted s) (hd : DateFails s e) : Fails s e
  /-- a date and a time -/
  | time (s : Str) (h : TimeForm s) (hn : ¬ Accepted s) : Fails s .plain
  /-- two dates, the first of which cannot be read -/
  | left (t u : Str) (e : Err) (h : PairForm (t ++ '/' :: u) ∨ IntervalForm (c! "X") (t ++ '/' :: u)) (ht : '/' ∉ t)
      (hd : DateFails t e) : Fails (t ++ '/' :: u) e
  /-- two dates, the second of which cannot be read, or an open start -/
  | right (t u : Str) (e : Err) (h : PairForm (t ++ '/' :: u) ∨ IntervalForm (c! "X") (t ++ '/' :: u) ∨ StartForm (t ++ '/' :: u)) (ht : '/' ∉ t)
      (h1 : t = [] ∨ t = c! ".." ∨ Reads t) (hd : DateFails u e) : Fails (t ++ '/' :: u) e
  /-- a letter and too many digits -/
  | letterLong (neg : Bool) (us : List Nat) (hu : Digits us) (hl : 4 < us.length) :
      Fails ('Y' :: signed neg (us.map dig)) (.unsupported (c! "Letter-prefixed calendar year") ('Y' :: signed neg (us.map dig)))
  /-- a letter and too few digits -/
  | letterShort (neg : Bool) (us : List Nat) (hu : Digits us) (hl : us.length < 4) :
      Fails ('Y' :: signed neg (us.map dig)) (.invalid (c! "date") (signed neg (us.map dig)))
  /-- a month of the years -999 to -1, with something after it -/
  | month (n m : Nat) (h1 : 1 ≤ n) (h2 : n ≤ 999) (h3 : 1 ≤ m) (h4 : m ≤ 12) (t : Str) (ht : AfterMonth true t) :
      Fails ('-' :: (pad4 n ++ '-' :: (pad2 m ++ t))) (.invalid (c! "date") ('-' :: (pad3 n ++ '-' :: (pad2 m ++ c! "-01"))))
  /-- a season of these years -/
  | season (n : Nat) (h1 : 1 ≤ n) (h2 : n ≤ 999) (z : Season) :
      Fails ('-' :: (pad4 n ++ '-' :: pad2 z.code)) (.invalid (c! "date") ('-' :: (pad3 n ++ '-' :: (pad2 z.firstMonth ++ c! "-01"))))
  /-- the winter that ends in -999 -/
  | winter : Fails (c! "-1000-24") (.invalid (c! "date") (c! "-999-02-28"))
  /-- the winter that ends in 10000 -/
  | lastWinter : Fails (c! "9999-24") .plain
  | lastWinterName (w t1 t2 : Str) (hw : Folded (c! "winter") w) (h1 : Blank t1) (h2 : Blank t2) : Fails (w ++ (t1 ++ ',' :: (t2 ++ c! "9999"))) .plain
  /-- two minus signs -/
  | minus (n : Nat) (h : n < 10000) : Fails ('-' :: '-' :: pad4 n) (.invalid (c! "date") ('-' :: '-' :: pad4 n))
  /-- a small `x` -/
  | small (s : Str) (h : UnspecifiedForm (c! "Xx") s) (h1 : ¬ UnspecifiedForm (c! "X") s) (hn : ¬ Accepted s) :
      Fails s (.invalid (c! "Extended Interval") s)
  /-- an exponential year that cannot be read -/
  | exponential (yc ec : Char) (hy : yc ∈ c! "Yy") (he : ec ∈ c! "Ee") (neg : Bool) (ms es : List Nat) (hm : Digits ms) (hes : Digits es) (e : Err)
      (h : ExpFails neg ms es (signed neg (ms.map dig ++ ec :: es.map dig)) e) : Fails (yc :: signed neg (ms.map dig ++ ec :: es.map dig)) e
  /-- an exponential year that has not four digits -/
  | exponentialShort (yc ec : Char) (hy : yc ∈ c! "Yy") (he : ec ∈ c! "Ee") (neg : Bool) (ms es : List Nat) (hm : Digits ms) (hes : Digits es)
      (v : Int) (hv : ExpReads neg ms es v) (h : v.natAbs < 1000) (t : Str) (ht : Numeral v t) :
      Fails (yc :: signed neg (ms.map dig ++ ec :: es.map dig)) (.invalid (c! "date") t)
  /-- significant digits of a letter and too many characters -/
  | sigLetter (neg : Bool) (us : List Nat) (hu : Digits us) (hl : 4 < (signed neg (us.map dig)).length) (ds : List Nat) (hd : Digits ds) :
      Fails ('Y' :: (signed neg (us.map dig) ++ 'S' :: ds.map dig))
        (.unsupported (c! "Significant digits") ('Y' :: (signed neg (us.map dig) ++ 'S' :: ds.map dig)))
  /-- significant digits of an exponential year that cannot be read -/
  | sigExponential (yc ec : Char) (hy : yc ∈ c! "Yy") (he : ec ∈ c! "Ee") (neg : Bool) (ms es : List Nat) (hm : Digits ms) (hes : Digits es) (e : Err)
      (h : ExpFails neg ms es (signed neg (ms.map dig ++ ec :: es.map dig)) e) (ds : List Nat) (hd : Digits ds) :
      Fails (yc :: (signed neg (ms.map dig ++ ec :: es.map dig) ++ 'S' :: ds.map dig)) e
  /-- a number of digits that is longer than the year -/
  | sigLarge (t : Str) (v : Int) (h : SigReads t v) (u : Str) (hu : Numeral v u) (ds : List Nat) (hd : Digits ds) (hk : 10 ^ u.length ≤ value10 ds) :
      Fails (t ++ 'S' :: ds.map dig) (.invalid (c! "Significant digits") (t ++ 'S' :: ds.map dig))
  /-- a year that has not four digits -/
  | sigShort (t : Str) (v : Int) (h : SigReads t v) (u : Str) (hu : Numeral v u) (ds : List Nat) (hd : Digits ds) (hk : value10 ds ≤ u.length)
      (hs : ¬ SigFits v (value10 ds)) : Fails (t ++ 'S' :: ds.map dig) (.invalid (c! "date") (sigEdge v u (value10 ds)))
  /-- a grouping that ends in a year that has not four digits -/
  | grouping (n : Nat) (hn : n < 10000) (g : Grouping) (hg : g.crosses = true) (h : n < 999 ∨ n = 9999) (t : Str) (ht : Numeral (n + 1) t) :
      Fails (pad4 n ++ '-' :: pad2 g.code) (.invalid (c! "date") (t ++ c! "-02"))
  /-- a set with `a..b..c` in it -/
  | setDots (s : Str) (h : SetForm s) (hn : ¬ ∃ (o c : Char) (cs : List Chunk), ChunksOk cs ∧ s = o :: (commaJoin (cs.map Chunk.text) ++ [c])) :
      Fails s (.invalid (c! "Set representation") s)
  /-- a set whose least member cannot be read -/
  | setLeast (o c : Char) (ho : o ∈ c! "[{") (hc : c ∈ c! "]}") (cs : List Chunk) (hs : ChunksOk cs) (a : Str) (ha : a ∈ cs.flatMap Chunk.members)
      (hl : ∀ t ∈ cs.flatMap Chunk.members, TextLe a t) (h0 : a ≠ []) (e : Err) (hd : DateFails a e) :
      Fails (o :: (commaJoin (cs.map Chunk.text) ++ [c])) e
  /-- a set whose greatest member cannot be read -/
  | setGreatest (o c : Char) (ho : o ∈ c! "[{") (hc : c ∈ c! "]}") (cs : List Chunk) (hs : ChunksOk cs) (a b : Str)
      (ha : a ∈ cs.flatMap Chunk.members) (hb : b ∈ cs.flatMap Chunk.members)
      (hl : ∀ t ∈ cs.flatMap Chunk.members, TextLe a t ∧ TextLe t b) (h0 : a = [] ∨ Reads a) (e : Err) (hd : DateFails b e) :
      Fails (o :: (commaJoin (cs.map Chunk.text) ++ [c])) e
  /-- something after a form of Level 2 -/
  | more (s : Str) (h0 : ¬ Level0Form s) (h1 : ¬ Level1Form s) (h2 : ¬ Level2Form s) (h : Level2Start s) :
      Fails s (.invalid (c! "Invalid or unsupported Level 2 string") s)
  /-- none of the forms -/
  | unrecognized (s : Str) (h0 : ¬ Level0Form s) (h1 : ¬ Level1Form s) (h2 : ¬ Level2Start s) (h : s ≠ [] ∧ s ≠ c! "..") :
      Fails s (.unrecognized (c! "Invalid or unsupported EDTF string") s)

/-- The strings on which the parser panics: an infinite year, or more significant digits
than characters in the year. -/
inductive Panics : Str → Prop
  | infinite (yc ec : Char) (hy : yc ∈ c! "Yy") (he : ec ∈ c! "Ee") (neg : Bool) (ms es : List Nat) (hm : Digits ms) (hes : Digits es)
      (h1 : ¬ TooLarge ms es) (h2 : Overflows ms es) : Panics (yc :: signed neg (ms.map dig ++ ec :: es.map dig))
  | infiniteSig (yc ec : Char) (hy : yc ∈ c! "Yy") (he : ec ∈ c! "Ee") (neg : Bool) (ms es : List Nat) (hm : Digits ms) (hes : Digits es)
      (h1 : ¬ TooLarge ms es) (h2 : Overflows ms es) (ds : List Nat) (hd : Digits ds) :
      Panics (yc :: (signed neg (ms.map dig ++ ec :: es.map dig) ++ 'S' :: ds.map dig))
  | digits (t : Str) (v : Int) (h : SigReads t v) (u : Str) (hu : Numeral v u) (ds : List Nat) (hd : Digits ds)
      (h1 : u.length < value10 ds) (h2 : value10 ds < 10 ^ u.length) : Panics (t ++ 'S' :: ds.map dig)

end EDTF.Spec
