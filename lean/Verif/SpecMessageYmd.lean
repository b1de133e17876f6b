/-
What the errors of the helpers for years, months, days and instants say, for all arguments.
-/
import Verif.SpecYmd
import Verif.SpecRange
import Verif.SpecMessageDirect
import Verif.SpecPrintable
namespace EDTF.Spec

/-! ### Numbers -/

/-- Two hexadecimal digits. -/
def hex2 (n : Nat) : Str := [(c! "0123456789abcdef").getD (n / 16) '?', (c! "0123456789abcdef").getD (n % 16) '?']

/-- A character outside of ASCII that is written as a number. -/
def Unprintable (c : Char) : Prop := ∃ r ∈ unprintable, r.1 ≤ c.toNat ∧ c.toNat ≤ r.2

/-- A character in quotation marks, as package strconv writes it. -/
inductive Escaped : Char → Str → Prop
  | mark (c : Char) (h : c = '"' ∨ c = '\\') : Escaped c ['\\', c]
  | named (n : Nat) (l : Char) (h : (n, l) ∈ [(7, 'a'), (8, 'b'), (9, 't'), (10, 'n'), (11, 'v'), (12, 'f'), (13, 'r')]) :
      Escaped (Char.ofNat n) ['\\', l]
  | control (c : Char) (h : c.toNat < 7 ∨ (13 < c.toNat ∧ c.toNat < 32) ∨ c.toNat = 127) : Escaped c (c! "\\x" ++ hex2 c.toNat)
  | plain (c : Char) (h1 : c ≠ '"') (h2 : c ≠ '\\') (h3 : 32 ≤ c.toNat) (h4 : c.toNat ≠ 127) (h5 : ¬ Unprintable c) : Escaped c [c]
  | short (c : Char) (h : Unprintable c) (hc : c.toNat < 2 ^ 16) : Escaped c (c! "\\u" ++ hexDigits 4 c.toNat)
  | long (c : Char) (h : Unprintable c) (hc : 2 ^ 16 ≤ c.toNat) : Escaped c (c! "\\U" ++ hexDigits 8 c.toNat)

/-- The same for every character of a text. -/
inductive EscapedAll : Str → Str → Prop
  | nil : EscapedAll [] []
  | cons (c : Char) (s u v : Str) (h : Escaped c u) (k : EscapedAll s v) : EscapedAll (c :: s) (u ++ v)

/-- A text that begins with a number of more than 64 bits. -/
def LongNumber (t : Str) : Prop :=
  ∃ sg ds rest, (sg = [] ∨ sg = c! "-" ∨ sg = c! "+") ∧ (∀ d ∈ ds, d < 10) ∧ 2 ^ 64 ≤ value10 ds ∧ t = sg ++ (ds.map dig ++ rest)

/-- Why a text is no decimal integer of 64 bits.  (It is read from the left.) -/
inductive NoIntReason (t : Str) : Str → Prop
  | long (h : LongNumber t) : NoIntReason t (c! "value out of range")
  | range (v : Int) (h : Decimal t v) (hv : v < -2 ^ 63 ∨ 2 ^ 63 ≤ v) : NoIntReason t (c! "value out of range")
  | other (h1 : ∀ v, ¬ Decimal t v) (h2 : ¬ LongNumber t) : NoIntReason t (c! "invalid syntax")

/-- What is said of a text that is no decimal integer of 64 bits. -/
def NoInt (t w : Str) : Prop := ∃ q r, EscapedAll t q ∧ NoIntReason t r ∧ w = c! "strconv.Atoi: parsing \"" ++ q ++ c! "\": " ++ r

/-! ### Days of a month -/

/-- A number of at least two characters. -/
def twoText (m : Int) : Str :=
  if m < 0 then '-' :: Nat.toDigits 10 m.natAbs else if m < 10 then pad2 m.natAbs else Nat.toDigits 10 m.natAbs

/-- A number of at least four digits. -/
def fourText (n : Nat) : Str := if n < 10000 then pad4 n else Nat.toDigits 10 n

/-- The month after month `m`; all months from 12 on count as December. -/
def nextMonth (m : Int) : Int := if 12 ≤ m then 1 else m + 1

/-- A day that package time could not read, and where. -/
def cannot (day rest layout part : Str) : Str :=
  c! "parsing time " ++ quoted day ++ c! " as " ++ quoted layout ++ c! ": cannot parse " ++ quoted rest ++ c! " as " ++ quoted part

/-- What is said if a month has no days. -/
inductive DaysComplaint (y m : Int) : Str → Prop
  /-- a year of more than four digits: they are followed by another digit -/
  | year (hy : 9999 < y.natAbs) (hm : y ≠ -2 ^ 63) : DaysComplaint y m
      (cannot (fourText y.natAbs ++ '-' :: (twoText (nextMonth m) ++ c! "-01")) ((Nat.toDigits 10 y.natAbs).drop 4 ++ '-' :: (twoText (nextMonth m) ++ c! "-01"))
        (c! "2006-01-02") (c! "-"))
  /-- the least integer of 64 bits keeps its sign -/
  | least (hy : y = -2 ^ 63) : DaysComplaint y m
      (cannot (c! "-9223372036854775808-" ++ (twoText (nextMonth m) ++ c! "-01")) (c! "-9223372036854775808-" ++ (twoText (nextMonth m) ++ c! "-01"))
        (c! "2006-01-02") (c! "2006"))
  /-- the month after month -1 is month 0 -/
  | zero (hy : y.natAbs ≤ 9999) (h : m = -1) : DaysComplaint y m
      (c! "parsing time " ++ quoted (pad4 y.natAbs ++ c! "-00-01") ++ c! ": month out of range")
  | negative (hy : y.natAbs ≤ 9999) (h : m < -1) : DaysComplaint y m
      (cannot (pad4 y.natAbs ++ '-' :: (twoText (m + 1) ++ c! "-01")) (twoText (m + 1) ++ c! "-01") (c! "2006-01-02") (c! "01"))

/-- The same from texts: the year first, then the month. -/
inductive DaysTextsSay (a b : Str) : Str → Prop
  | year (w : Str) (h : NoInt a w) : DaysTextsSay a b w
  | month (y : Int) (hy : IntText a y) (w : Str) (h : NoInt b w) : DaysTextsSay a b w
  | days (y m : Int) (hy : IntText a y) (hm : IntText b m) (w : Str) (h : DaysComplaint y m w) : DaysTextsSay a b w

/-- The same from one text. -/
inductive DaysTextSays (s : Str) : Str → Prop
  | two (a b : Str) (h : DashPieces s [a, b]) (w : Str) (hw : DaysTextsSay a b w) : DaysTextSays s w
  | three (a b c : Str) (h : DashPieces s [a, b, c]) (w : Str) (hw : DaysTextsSay ('-' :: b) c w) : DaysTextSays s w
  | error (ps : List Str) (h : DashPieces s ps) (h2 : ps.length ≠ 2) (h3 : ps.length ≠ 3) : DaysTextSays s (c! "Invalid YYYYMM string")

/-! ### Year, month and day -/

/-- What is said of three texts, in the order in which it is looked at. -/
inductive YmdSays (a b c : Str) : Str → Prop
  | noYear (h : a = []) : YmdSays a b c (c! "Missing year")
  | noMonth (h : a ≠ []) (hb : b = []) (hc : c ≠ []) : YmdSays a b c (c! "Missing month")
  | year (h : a ≠ []) (hb : b = [] → c = []) (w : Str) (hw : NoInt a w) : YmdSays a b c w
  | month (y : Int) (hy : IntText a y) (h : b ≠ []) (w : Str) (hw : NoInt b w) : YmdSays a b c w
  | day (y m : Int) (hy : IntText a y) (hm : IntText b m) (h : c ≠ []) (w : Str) (hw : NoInt c w) : YmdSays a b c w
  | large (y m d : Int) (h : YmdTexts a b c y m d) (hy : 9999 < y.natAbs) (hl : y ≠ -2 ^ 63) :
      YmdSays a b c (c! "Unsupported EDTF string '" ++ Nat.toDigits 10 y.natAbs ++ c! "' (year)")
  | zeroMonth (y d : Int) (h : YmdTexts a b c y 0 d) (hy : y.natAbs ≤ 9999 ∨ y = -2 ^ 63) (hd : d ≠ 0) : YmdSays a b c (c! "Missing month")
  | highMonth (y m d : Int) (h : YmdTexts a b c y m d) (hy : y.natAbs ≤ 9999 ∨ y = -2 ^ 63) (hm : 12 < m) : YmdSays a b c (c! "Invalid month")
  /-- a negative month, or the least integer of 64 bits -/
  | days (y m d : Int) (h : YmdTexts a b c y m d) (hy : y.natAbs ≤ 9999 ∨ y = -2 ^ 63) (hm : m ≤ 12) (h0 : m = 0 → d = 0) (w : Str)
      (hw : DaysComplaint y (if m = 0 then 1 else m) w) : YmdSays a b c w
  | highDay (y : Int) (m : Nat) (d : Int) (h : YmdTexts a b c y m d) (hy : y.natAbs ≤ 9999) (h1 : 1 ≤ m) (h2 : m ≤ 12) (hd : (monthLen y m : Int) < d) :
      YmdSays a b c (c! "Invalid days for month")

/-- The same from one text. -/
inductive YmdTextSays (s : Str) : Str → Prop
  | one (a : Str) (h : DashPieces s [a]) (w : Str) (hw : YmdSays a [] [] w) : YmdTextSays s w
  | two (a b : Str) (h : DashPieces s [a, b]) (w : Str) (hw : YmdSays a b [] w) : YmdTextSays s w
  | three (a b c : Str) (h : DashPieces s [a, b, c]) (w : Str) (hw : YmdSays a b c w) : YmdTextSays s w
  | four (a b c d : Str) (h : DashPieces s [a, b, c, d]) (w : Str) (hw : YmdSays ('-' :: b) c d w) : YmdTextSays s w
  | error (ps : List Str) (h : DashPieces s ps) (hl : 4 < ps.length) : YmdTextSays s (c! "Invalid YMD string")

/-! ### Instants -/

/-- A part of a date and time, in the order in which package time reads them. -/
inductive TimePart
  | sep (c : Char)
  | year
  | month
  | day
  | hour
  | minute
  | second

/-- How the layouts of package time write it. -/
def TimePart.sign : TimePart → Str
  | .sep c => [c]
  | .year => c! "2006"
  | .month => c! "01"
  | .day => c! "02"
  | .hour => c! "15"
  | .minute => c! "04"
  | .second => c! "05"

/-- Nothing that begins with a digit. -/
def NoDigitNext (s : Str) : Prop := ∀ d rest, d < 10 → s ≠ dig d :: rest

/-- A fraction of a second, and what follows it. -/
inductive FractionThen : Str → Str → Prop
  | none (rest : Str) (h : ∀ c d t, (c = '.' ∨ c = ',') → d < 10 → rest ≠ c :: dig d :: t) : FractionThen rest rest
  | some (c : Char) (hc : c = '.' ∨ c = ',') (ds : List Nat) (hd : Digits ds) (rest : Str) (hr : NoDigitNext rest) :
      FractionThen (c :: (ds.map dig ++ rest)) rest

/-- A part at the beginning of a text: its number and what follows. -/
inductive Takes : TimePart → Str → Nat → Str → Prop
  | sep (c : Char) (rest : Str) : Takes (.sep c) (c :: rest) 0 rest
  | year (n : Nat) (h : n < 10000) (rest : Str) : Takes .year (pad4 n ++ rest) n rest
  | month (n : Nat) (h1 : 1 ≤ n) (h2 : n ≤ 12) (rest : Str) : Takes .month (pad2 n ++ rest) n rest
  | day (n : Nat) (h : n < 100) (rest : Str) : Takes .day (pad2 n ++ rest) n rest
  | hour (n : Nat) (h : n < 24) (rest : Str) : Takes .hour (pad2 n ++ rest) n rest
  | hour1 (n : Nat) (h : n < 10) (rest : Str) (hr : NoDigitNext rest) : Takes .hour (dig n :: rest) n rest
  | minute (n : Nat) (h : n < 60) (rest : Str) : Takes .minute (pad2 n ++ rest) n rest
  | second (n : Nat) (h : n < 60) (t rest : Str) (ht : FractionThen t rest) : Takes .second (pad2 n ++ t) n rest

/-- A part at the beginning of a text whose number is too large, and its name. -/
inductive Over : TimePart → Str → Str → Prop
  | month (n : Nat) (h : n = 0 ∨ 12 < n) (h2 : n < 100) (rest : Str) : Over .month (pad2 n ++ rest) (c! "month")
  | hour (n : Nat) (h : 24 ≤ n) (h2 : n < 100) (rest : Str) : Over .hour (pad2 n ++ rest) (c! "hour")
  | minute (n : Nat) (h : 60 ≤ n) (h2 : n < 100) (rest : Str) : Over .minute (pad2 n ++ rest) (c! "minute")
  | second (n : Nat) (h : 60 ≤ n) (h2 : n < 100) (rest : Str) : Over .second (pad2 n ++ rest) (c! "second")

/-- The whole text, part by part. -/
inductive TakesAll : List TimePart → Str → List Nat → Prop
  | nil : TakesAll [] [] []
  | cons (p : TimePart) (ps : List TimePart) (s rest : Str) (n : Nat) (ns : List Nat) (h : Takes p s n rest) (k : TakesAll ps rest ns) :
      TakesAll (p :: ps) s (n :: ns)

/-- A byte in quotation marks, as package time writes those that are not printable ASCII. -/
def byteText (b : UInt8) : Str := c! "\\x" ++ hex2 b.toNat

/-- A text in quotation marks, as package time writes it. -/
def timeQuoted (s : Str) : Str :=
  c! "\"" ++ s.flatMap (fun c => if c = '"' ∨ c = '\\' then ['\\', c] else if c.toNat < 32 ∨ 127 < c.toNat then (String.utf8EncodeChar c).flatMap byteText else [c]) ++ c! "\""

/-- The first part that cannot be read, and what is said of it. -/
inductive Stops (layout : Str) : List TimePart → Str → Str → Prop
  | here (p : TimePart) (ps : List TimePart) (s : Str) (h1 : ∀ n rest, ¬ Takes p s n rest) (h2 : ∀ w, ¬ Over p s w) :
      Stops layout (p :: ps) s (c! " as " ++ timeQuoted layout ++ c! ": cannot parse " ++ timeQuoted s ++ c! " as " ++ timeQuoted p.sign)
  | over (p : TimePart) (ps : List TimePart) (s w : Str) (h : Over p s w) : Stops layout (p :: ps) s (c! ": " ++ w ++ c! " out of range")
  | extra (s : Str) (h : s ≠ []) : Stops layout [] s (c! ": extra text: " ++ timeQuoted s)
  | later (p : TimePart) (ps : List TimePart) (s rest : Str) (n : Nat) (h : Takes p s n rest) (w : Str) (k : Stops layout ps rest w) : Stops layout (p :: ps) s w

/-- The parts of a date and a time. -/
def dateTimeParts : List TimePart := [.year, .sep '-', .month, .sep '-', .day, .sep 'T', .hour, .sep ':', .minute, .sep ':', .second]

/-- What is said of a text that is no date and time; that there is no such day comes last. -/
inductive TimeSays (s : Str) : Str → Prop
  | stops (w : Str) (h : Stops (c! "2006-01-02T15:04:05") dateTimeParts s w) : TimeSays s (c! "parsing time " ++ timeQuoted s ++ w)
  | day (y m d : Nat) (ns : List Nat) (h : TakesAll dateTimeParts s (y :: 0 :: m :: 0 :: d :: ns)) (hd : d = 0 ∨ monthLen y m < d) :
      TimeSays s (c! "parsing time " ++ timeQuoted s ++ c! ": day out of range")

/-- A date and a time as a text; the year without its sign, except for the least integer of 64 bits. -/
def instantText (v : YMD) (t : Str) : Str :=
  (if v.year = -2 ^ 63 then c! "-9223372036854775808" else fourText v.year.natAbs) ++
    '-' :: (twoText v.month ++ '-' :: (twoText v.day ++ 'T' :: t))

/-- What is said if three texts and a time give no instant. -/
inductive InstantSays (a b c t : Str) : Str → Prop
  | date (w : Str) (h : YmdSays a b c w) : InstantSays a b c t w
  | time (v : YMD) (h : YmdReads a b c v) (w : Str) (hw : TimeSays (instantText v t) w) : InstantSays a b c t w

end EDTF.Spec
