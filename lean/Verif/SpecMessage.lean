/-
The specification of the texts of plain errors: what the error for a string says when it
is none of the error types of errors.go.  It uses the written forms of `SpecForm` and the
failures of `SpecFail`, not the model.
-/
import Verif.SpecFail
namespace EDTF.Spec

/-- In quotation marks. -/
def quoted (t : Str) : Str := '"' :: (t ++ ['"'])

/-- A text that is not a number. -/
def noNumber (t : Str) : Str := c! "strconv.Atoi: parsing " ++ quoted t ++ c! ": invalid syntax"

/-- A digit is unspecified, but not the last one. -/
def Hole (w : Str) : Prop := 'X' ∈ w ∧ w.getLast? ≠ some 'X'

/-- Why a date cannot be read.  The year comes first, then the month, then the day; if they
are numbers there is no such day. -/
inductive Cause (x : XDate) : Str → Prop
  | year (h : Hole x.year) : Cause x (noNumber (signed x.neg x.year))
  | month (h : ¬ Hole x.year) (hm : Hole x.mx) : Cause x (noNumber x.mx)
  | day (h : ¬ Hole x.year) (hm : ¬ Hole x.mx) (hd : Hole x.dx) : Cause x (noNumber x.dx)
  | calendar (h : ¬ Hole x.year) (hm : ¬ Hole x.mx) (hd : ¬ Hole x.dx) : Cause x (c! "Invalid days for month")

/-- What the error for a date says. -/
inductive DateText : Str → Str → Prop
  /-- a negative year whose last digit is unspecified -/
  | negative (e : Endpoint) (h : e.like) (hn : e.date.neg = true) (a b c : Char) (hy : e.date.year = [a, b, c, 'X']) :
      DateText e.text (c! "strconv.ParseInt: parsing \"-\": invalid syntax")
  /-- otherwise -/
  | other (e : Endpoint) (h : e.like) (hy : ∀ a b c, e.date.year = [a, b, c, 'X'] → a ≠ 'X' ∧ e.date.neg = false) (hd : e.date.dx ≠ c! "0X")
      (hr : ¬ e.date.Readable) (t : Str) (ht : Cause e.date t) : DateText e.text t

/-! ### Times -/

/-- The layout of a date and a time, as package time writes it. -/
def layoutText (neg : Bool) (z : Zone) : Str :=
  signed neg (c! "2006-01-02T15:04:05" ++ match z with
    | .none => []
    | .utc => c! "Z"
    | .hours _ _ => c! "-07"
    | .full _ _ _ => c! "-07:00")

/-- The part of a day and time that is out of range: the first one from the left, but the
minutes of the zone before its hours, and the day of the month last. -/
inductive OutOfRange (y m d hh mi ss : Nat) (z : Zone) : Str → Prop
  | hour (h : 24 ≤ hh) : OutOfRange y m d hh mi ss z (c! "hour")
  | minute (h1 : hh < 24) (h : 60 ≤ mi) : OutOfRange y m d hh mi ss z (c! "minute")
  | second (h1 : hh < 24) (h2 : mi < 60) (h : 60 ≤ ss) : OutOfRange y m d hh mi ss z (c! "second")
  | zoneMinute (h1 : hh < 24) (h2 : mi < 60) (h3 : ss < 60) (n : Bool) (a b : Nat) (hz : z = .full n a b) (h : 60 < b) :
      OutOfRange y m d hh mi ss z (c! "time zone offset minute")
  | zoneHour (h1 : hh < 24) (h2 : mi < 60) (h3 : ss < 60) (n : Bool) (a b : Nat) (hz : z = .hours n a ∨ (z = .full n a b ∧ b ≤ 60)) (h : 24 < a) :
      OutOfRange y m d hh mi ss z (c! "time zone offset hour")
  | day (h1 : hh < 24) (h2 : mi < 60) (h3 : ss < 60) (h4 : z.ok) (h : ¬ Valid y m d) : OutOfRange y m d hh mi ss z (c! "day")

/-- A time of day and a zone, after a date. -/
def timePart (hh mi ss : Nat) (z : Zone) : Str := 'T' :: (pad2 hh ++ ':' :: (pad2 mi ++ ':' :: (pad2 ss ++ z.text)))

/-- What the error for a date and a time says. -/
inductive ClockText : Str → Str → Prop
  /-- a time after a year or a month -/
  | short (x : Date0) (hx : x.shaped) (ht : ∀ m d, x.tail ≠ .day m d) (hh mi ss : Nat) (h1 : hh < 100) (h2 : mi < 100) (h3 : ss < 100)
      (z : Zone) (hz : z.shape) :
      ClockText (x.text ++ timePart hh mi ss z)
        (c! "parsing time " ++ quoted (x.text ++ timePart hh mi ss z) ++ c! " as " ++ quoted (layoutText x.neg z) ++
          c! ": cannot parse " ++ quoted (timePart hh mi ss z) ++ c! " as \"-\"")
  /-- something out of range -/
  | range (neg : Bool) (y m d : Nat) (hx : (⟨neg, y, .day m d⟩ : Date0).shaped) (hh mi ss : Nat) (h1 : hh < 100) (h2 : mi < 100) (h3 : ss < 100)
      (z : Zone) (hz : z.shape) (what : Str) (h : OutOfRange y m d hh mi ss z what) :
      ClockText ((⟨neg, y, .day m d⟩ : Date0).text ++ timePart hh mi ss z)
        (c! "parsing time " ++ quoted ((⟨neg, y, .day m d⟩ : Date0).text ++ timePart hh mi ss z) ++ c! ": " ++ what ++ c! " out of range")

/-! ### Exponents -/

/-- What the error for an exponential year that is too large says. -/
inductive ExpText (es : List Nat) : Str → Prop
  | exponent (h : 2 ^ 63 ≤ value10 es) : ExpText es (c! "strconv.ParseInt: parsing " ++ quoted (es.map dig) ++ c! ": value out of range")
  | float (h : value10 es < 2 ^ 63) : ExpText es (c! "exponent overflow")

/-- What the error for the winter that ends in the year 10000 says. -/
def winterText : Str := c! "parsing time \"10000-03-01\" as \"2006-01-02\": cannot parse \"0-03-01\" as \"-\""

/-! ### Strings -/

/-- What the error for a string says, when it is a plain one. -/
inductive Explains : Str → Str → Prop
  /-- one date -/
  | single (s t : Str)
      (h : DateShape s ∨ UnspecifiedForm (c! "X") s ∨ GroupForm s ∨ EndpointForm false [] s ∨ DigitForm (c! "X") s)
      (h1 : ¬ SeasonForm s) (h2 : ¬ SubYearForm s) (hn : ¬ Accepted s) (hd : DateText s t) : Explains s t
  /-- a date and a time -/
  | time (s t : Str) (h : ClockText s t) : Explains s t
  /-- two dates, the first of which cannot be read -/
  | left (a b t : Str) (h : PairForm (a ++ '/' :: b) ∨ IntervalForm (c! "X") (a ++ '/' :: b)) (ha : '/' ∉ a) (hd : DateText a t) :
      Explains (a ++ '/' :: b) t
  /-- two dates, the second of which cannot be read, or an open start -/
  | right (a b t : Str) (h : PairForm (a ++ '/' :: b) ∨ IntervalForm (c! "X") (a ++ '/' :: b) ∨ StartForm (a ++ '/' :: b)) (ha : '/' ∉ a)
      (h1 : a = [] ∨ a = c! ".." ∨ Reads a) (hd : DateText b t) : Explains (a ++ '/' :: b) t
  /-- the winter that ends in 10000 -/
  | lastWinter : Explains (c! "9999-24") winterText
  | lastWinterName (w t1 t2 : Str) (hw : Folded (c! "winter") w) (h1 : Blank t1) (h2 : Blank t2) :
      Explains (w ++ (t1 ++ ',' :: (t2 ++ c! "9999"))) winterText
  /-- an exponential year that is too large -/
  | exponential (yc ec : Char) (hy : yc ∈ c! "Yy") (he : ec ∈ c! "Ee") (neg : Bool) (ms es : List Nat) (hm : Digits ms) (hes : Digits es)
      (h : TooLarge ms es) (t : Str) (ht : ExpText es t) : Explains (yc :: signed neg (ms.map dig ++ ec :: es.map dig)) t
  /-- the same with significant digits -/
  | sigExponential (yc ec : Char) (hy : yc ∈ c! "Yy") (he : ec ∈ c! "Ee") (neg : Bool) (ms es : List Nat) (hm : Digits ms) (hes : Digits es)
      (h : TooLarge ms es) (ds : List Nat) (hd : Digits ds) (t : Str) (ht : ExpText es t) :
      Explains (yc :: (signed neg (ms.map dig ++ ec :: es.map dig) ++ 'S' :: ds.map dig)) t
  /-- a set whose least member cannot be read -/
  | setLeast (o c : Char) (ho : o ∈ c! "[{") (hc : c ∈ c! "]}") (cs : List Chunk) (hs : ChunksOk cs) (a : Str) (ha : a ∈ cs.flatMap Chunk.members)
      (hl : ∀ t ∈ cs.flatMap Chunk.members, TextLe a t) (h0 : a ≠ []) (t : Str) (hd : DateText a t) :
      Explains (o :: (commaJoin (cs.map Chunk.text) ++ [c])) t
  /-- a set whose greatest member cannot be read -/
  | setGreatest (o c : Char) (ho : o ∈ c! "[{") (hc : c ∈ c! "]}") (cs : List Chunk) (hs : ChunksOk cs) (a b : Str)
      (ha : a ∈ cs.flatMap Chunk.members) (hb : b ∈ cs.flatMap Chunk.members)
      (hl : ∀ t ∈ cs.flatMap Chunk.members, TextLe a t ∧ TextLe t b) (h0 : a = [] ∨ Reads a) (t : Str) (hd : DateText b t) :
      Explains (o :: (commaJoin (cs.map Chunk.text) ++ [c])) t

/-- The text of the error types of errors.go: a kind, the string in quotation marks and the
label in parentheses. -/
inductive KnownText : Err → Str → Prop
  | invalid (label w : Str) : KnownText (.invalid label w) (c! "Invalid EDTF string '" ++ w ++ c! "' (" ++ label ++ c! ")")
  | unsupported (label w : Str) : KnownText (.unsupported label w) (c! "Unsupported EDTF string '" ++ w ++ c! "' (" ++ label ++ c! ")")
  | unrecognized (label w : Str) : KnownText (.unrecognized label w) (c! "Unrecognized EDTF string '" ++ w ++ c! "' (" ++ label ++ c! ")")
  | notImplemented (label w : Str) : KnownText (.notImplemented label w) (c! "Not implemented '" ++ w ++ c! "' (" ++ label ++ c! ")")

/-- What the error for a string says. -/
def ErrorText (s t : Str) : Prop := (∃ e, Fails s e ∧ KnownText e t) ∨ Explains s t

end EDTF.Spec
