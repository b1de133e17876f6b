/- C01-C05, C08, C09: level 0 dates and intervals.
`f` is any function that counts days as the calendar does (`DayCount`). -/
import Verif.LemmasLang
namespace EDTF
open Spec

variable {f : Int → Nat → Nat → Int}

/-! ### Exact results -/

/-- The complete result of parsing any existing level 0 date of years
-9999..9999: a single day has a start range made of its first second and an end
range made of its last second; a month or year has its first day as start range
and its last day as end range.  (The reported precision is always YEAR: C46.) -/
theorem parse_date0 (hf : DayCount f) {x : Date0} (h : x.ok) :
    parseString x.text = .ok
      { start := some { edtf := x.text
                        lower := some (dayStart f x.value x.first.1 x.first.2 0 0 Prec.YEAR)
                        upper := some (if x.tail = .day x.first.1 x.first.2
                          then dayStart f x.value x.first.1 x.first.2 0 0 Prec.YEAR
                          else dayEnd f x.value x.first.1 x.first.2 0 0 Prec.YEAR) }
        stop := some { edtf := x.text
                       lower := some (if x.tail = .day x.first.1 x.first.2
                          then dayEnd f x.value x.last.1 x.last.2 0 0 Prec.YEAR
                          else dayStart f x.value x.last.1 x.last.2 0 0 Prec.YEAR)
                       upper := some (dayEnd f x.value x.last.1 x.last.2 0 0 Prec.YEAR) }
        edtf := x.text
        level := 0
        feature := c! "Date" } := by
  have hd : L0.isDate x.text = true := isDate_iff.2 ⟨x, h.1, Date0.ok_shape h, rfl⟩
  have hq : Date0.qOk x .none .none .none := by
    refine ⟨rfl, rfl, rfl, ?_⟩
    obtain ⟨neg, n, t⟩ := x
    cases t <;> simp
  have key := dateSpan_date0 h hq
  have e : x.qtext .none .none .none = x.text := rfl
  rw [e] at key
  rw [parseString_isDate hd, parseDate_eq hd, key]
  have v1 := Date0.valid_first h
  have v2 := Date0.valid_last h
  simp only [Res.ok_bind, mkEDTF, spanRec, dayStart, dayEnd, dated_congr hf v1, dated_congr hf v2]
  have m0 : marked saysUncertain .none .none .none = 0 ∧ marked saysApproximate .none .none .none = 0 := by decide
  rw [m0.1, m0.2]
  have hday : (Date0.isDay x = true) ↔ x.tail = .day x.first.1 x.first.2 := by
    obtain ⟨neg, n, t⟩ := x
    cases t <;> simp [Date0.isDay, Date0.first]
  simp only [hday]
  rfl

/-- Bounds of any existing level 0 date. -/
theorem date0_bounds (hf : DayCount f) {x : Date0} (h : x.ok) :
    ∃ d, parseString x.text = .ok d ∧ d.level = 0 ∧ d.feature = c! "Date" ∧ d.edtf = x.text ∧
      d.lower = .ok (86400 * f x.value x.first.1 x.first.2) ∧
      d.upper = .ok (86400 * f x.value x.last.1 x.last.2 + 86399) := by
  refine ⟨_, parse_date0 hf h, rfl, rfl, rfl, ?_, ?_⟩
  · simp [EDTFDate.lower, dayStart, dated]
  · simp [EDTFDate.upper, dayEnd, dated]

/-! ### C01 -/

/-- C01: a complete date denotes exactly that day, and all four boundaries
carry its year, month and day. -/
theorem C01_complete_date (hf : DayCount f) {y m d : Nat} (hy : y < 10000) (h : Valid y m d) :
    ∃ r : EDTFDate, parseString (pad4 y ++ c! "-" ++ pad2 m ++ c! "-" ++ pad2 d) = .ok r ∧
      r.level = 0 ∧ r.feature = c! "Date" ∧
      r.lower = .ok (86400 * f y m d) ∧ r.upper = .ok (86400 * f y m d + 86399) ∧
      ∃ s1 s2 e1 e2 : Date,
        r.start.bind (·.lower) = some s1 ∧ r.start.bind (·.upper) = some s2 ∧
        r.stop.bind (·.lower) = some e1 ∧ r.stop.bind (·.upper) = some e2 ∧
        s1.ymd = some ⟨y, m, d⟩ ∧ s2.ymd = some ⟨y, m, d⟩ ∧ e1.ymd = some ⟨y, m, d⟩ ∧ e2.ymd = some ⟨y, m, d⟩ ∧
        s1.dateTime = rfcText y m d 0 0 0 ∧ e2.dateTime = rfcText y m d 23 59 59 := by
  have hx : (⟨false, y, .day m d⟩ : Date0).ok := ⟨hy, h⟩
  have e : pad4 y ++ c! "-" ++ pad2 m ++ c! "-" ++ pad2 d = (⟨false, y, .day m d⟩ : Date0).text := by
    simp [date0_text, yearStr, sgn]
  rw [e]
  refine ⟨_, parse_date0 hf hx, rfl, rfl, ?_, ?_, _, _, _, _, rfl, rfl, rfl, rfl, ?_⟩
  · simp [EDTFDate.lower, dayStart, dated, Date0.first, Date0.value]
  · simp [EDTFDate.upper, dayEnd, dated, Date0.last, Date0.value]
  · simp [dayStart, dayEnd, dated, Date0.first, Date0.last, Date0.value]

example : pad4 1985 ++ c! "-" ++ pad2 4 ++ c! "-" ++ pad2 12 = c! "1985-04-12" ∧ Valid 1985 4 12 := by decide
example : Valid 2000 2 29 ∧ ¬ Valid 1900 2 29 := by decide

/-! ### C02 -/

/-- C02: a year and month denote exactly that calendar month. -/
theorem C02_year_month (hf : DayCount f) {y m : Nat} (hy : y < 10000) (h1 : 1 ≤ m) (h2 : m ≤ 12) :
    ∃ r : EDTFDate, parseString (pad4 y ++ c! "-" ++ pad2 m) = .ok r ∧
      r.level = 0 ∧ r.feature = c! "Date" ∧
      r.lower = .ok (86400 * f y m 1) ∧ r.upper = .ok (86400 * f y m (monthLen y m) + 86399) := by
  have hx : (⟨false, y, .month m⟩ : Date0).ok := ⟨hy, h1, h2⟩
  have e : pad4 y ++ c! "-" ++ pad2 m = (⟨false, y, .month m⟩ : Date0).text := by
    simp [date0_text, yearStr, sgn]
  rw [e]
  obtain ⟨r, a, b, c, -, d1, d2⟩ := date0_bounds hf hx
  exact ⟨r, a, b, c, d1, d2⟩

example : pad4 2004 ++ c! "-" ++ pad2 2 = c! "2004-02" ∧ monthLen 2004 2 = 29 := by decide

/-! ### C03 -/

/-- C03: a year denotes exactly that calendar year. -/
theorem C03_year (hf : DayCount f) {y : Nat} (hy : y < 10000) :
    ∃ r : EDTFDate, parseString (pad4 y) = .ok r ∧ r.level = 0 ∧ r.feature = c! "Date" ∧
      r.lower = .ok (86400 * f y 1 1) ∧ r.upper = .ok (86400 * f y 12 31 + 86399) := by
  have hx : (⟨false, y, .none⟩ : Date0).ok := ⟨hy, trivial⟩
  have e : pad4 y = (⟨false, y, .none⟩ : Date0).text := by
    simp [date0_text, yearStr, sgn]
  rw [e]
  obtain ⟨r, a, b, c, -, d1, d2⟩ := date0_bounds hf hx
  exact ⟨r, a, b, c, d1, d2⟩

example : pad4 77 = c! "0077" := by decide

/-! ### C04 -/

/-- C04: negative years, of any precision; `-0000` is year 0. -/
theorem C04_negative (hf : DayCount f) {n : Nat} (hn : n < 10000) :
    (∃ r : EDTFDate, parseString (c! "-" ++ pad4 n) = .ok r ∧
      r.lower = .ok (86400 * f (-n) 1 1) ∧ r.upper = .ok (86400 * f (-n) 12 31 + 86399)) ∧
    (∀ m, 1 ≤ m → m ≤ 12 → ∃ r : EDTFDate, parseString (c! "-" ++ pad4 n ++ c! "-" ++ pad2 m) = .ok r ∧
      r.lower = .ok (86400 * f (-n) m 1) ∧ r.upper = .ok (86400 * f (-n) m (monthLen (-n) m) + 86399)) ∧
    (∀ m d, Valid (-n) m d → ∃ r : EDTFDate,
      parseString (c! "-" ++ pad4 n ++ c! "-" ++ pad2 m ++ c! "-" ++ pad2 d) = .ok r ∧
      r.lower = .ok (86400 * f (-n) m d) ∧ r.upper = .ok (86400 * f (-n) m d + 86399)) := by
  refine ⟨?_, ?_, ?_⟩
  · have hx : (⟨true, n, .none⟩ : Date0).ok := ⟨hn, trivial⟩
    have e : c! "-" ++ pad4 n = (⟨true, n, .none⟩ : Date0).text := by simp [date0_text, yearStr, sgn]
    rw [e]
    obtain ⟨r, a, -, -, -, d1, d2⟩ := date0_bounds hf hx
    exact ⟨r, a, d1, d2⟩
  · intro m h1 h2
    have hx : (⟨true, n, .month m⟩ : Date0).ok := ⟨hn, h1, h2⟩
    have e : c! "-" ++ pad4 n ++ c! "-" ++ pad2 m = (⟨true, n, .month m⟩ : Date0).text := by
      simp [date0_text, yearStr, sgn]
    rw [e]
    obtain ⟨r, a, -, -, -, d1, d2⟩ := date0_bounds hf hx
    exact ⟨r, a, d1, d2⟩
  · intro m d hv
    have hx : (⟨true, n, .day m d⟩ : Date0).ok := ⟨hn, hv⟩
    have e : c! "-" ++ pad4 n ++ c! "-" ++ pad2 m ++ c! "-" ++ pad2 d = (⟨true, n, .day m d⟩ : Date0).text := by
      simp [date0_text, yearStr, sgn]
    rw [e]
    obtain ⟨r, a, -, -, -, d1, d2⟩ := date0_bounds hf hx
    exact ⟨r, a, d1, d2⟩

example : Valid (-(4 : Nat)) 2 29 ∧ c! "-" ++ pad4 4 ++ c! "-" ++ pad2 2 ++ c! "-" ++ pad2 29 = c! "-0004-02-29" := by
  decide

/-! ### C05 -/

/-- C05: a day beyond the end of the month is an error (a plain one). -/
theorem C05_missing_day (neg : Bool) {n m d : Nat} (hn : n < 10000) (m1 : 1 ≤ m) (m2 : m ≤ 12)
    (h : monthLen (if neg then -(n : Int) else n) m < d) (hd : d ≤ 31) :
    parseString ((if neg then '-' :: pad4 n else pad4 n) ++ c! "-" ++ pad2 m ++ c! "-" ++ pad2 d) = .err .plain := by
  have e : (if neg then '-' :: pad4 n else pad4 n) ++ c! "-" ++ pad2 m ++ c! "-" ++ pad2 d
      = (⟨neg, n, .day m d⟩ : Date0).text := by
    simp [date0_text, yearStr, sgn]
  rw [e]
  have hp := monthLen_pos (if neg then -(n : Int) else n) m
  have hd' : L0.isDate (⟨neg, n, .day m d⟩ : Date0).text = true :=
    isDate_iff.2 ⟨⟨neg, n, .day m d⟩, hn, (show 1 ≤ m ∧ m ≤ 12 ∧ 1 ≤ d ∧ d ≤ 31 from ⟨m1, m2, by omega, hd⟩), rfl⟩
  rw [parseString_isDate hd', parseDate_eq hd']
  rw [show (⟨neg, n, .day m d⟩ : Date0).text = (⟨neg, n, .day m d⟩ : Date0).qtext .none .none .none from rfl,
    dateSpan_date0_bad hn m1 m2 h hd ⟨rfl, rfl, rfl⟩]
  rfl

example : monthLen (if true then -((4 : Nat) : Int) else 4) 2 < 30 ∧ monthLen (if false then -((1900 : Nat) : Int) else ((1900 : Nat) : Int)) 2 < 29 := by decide

/-- C05, read the other way: a text `YYYY-MM-DD` with month 01-12 and day 01-31
that parses names an existing day.  (Day 00 and days above 31 are not level 0
texts; they are covered with the level 2 patterns.) -/
theorem C05_accepts_only_days (neg : Bool) {n m d : Nat} (hn : n < 10000) (m1 : 1 ≤ m) (m2 : m ≤ 12)
    (d1 : 1 ≤ d) (hd : d ≤ 31) {r : EDTFDate}
    (h : parseString ((if neg then '-' :: pad4 n else pad4 n) ++ c! "-" ++ pad2 m ++ c! "-" ++ pad2 d) = .ok r) :
    Valid (if neg then -(n : Int) else n) m d := by
  refine ⟨m1, m2, d1, ?_⟩
  rcases Nat.lt_or_ge (monthLen (if neg then -(n : Int) else n) m) d with hc | hc
  · rw [C05_missing_day neg hn m1 m2 hc hd] at h; cases h
  · exact hc

example : monthLen (if false then -((2021 : Nat) : Int) else (2021 : Nat)) 2 < 29 := by decide
example : monthLen (if true then -((1 : Nat) : Int) else (1 : Nat)) 2 < 29 ∧
    '-' :: pad4 1 ++ c! "-" ++ pad2 2 ++ c! "-" ++ pad2 29 = c! "-0001-02-29" := by decide

/-! ### C08 -/

theorem range_congr (hf : DayCount f) {x : Date0} (h : x.ok) (e : Str) (u a p : Prec) :
    x.range U e u a p = x.range f e u a p := by
  unfold Date0.range dayStart dayEnd
  rw [dated_congr hf (Date0.valid_first h), dated_congr hf (Date0.valid_last h)]

/-- C08: the start range of `A/B` is the range of A and the end range is that of B. -/
theorem C08_interval (hf : DayCount f) {a b : Date0} (ha : a.ok) (hb : b.ok) :
    parseString (a.text ++ '/' :: b.text) = .ok
      { start := some (a.range f a.text 0 0 Prec.YEAR)
        stop := some (b.range f b.text 0 0 Prec.YEAR)
        edtf := a.text ++ '/' :: b.text
        level := 0
        feature := c! "Time Interval" } := by
  rw [parseTimeInterval_eq ⟨ha.1, Date0.ok_shape ha⟩ ⟨hb.1, Date0.ok_shape hb⟩]
  have hq : ∀ x : Date0, Date0.qOk x .none .none .none := by
    intro x
    refine ⟨rfl, rfl, rfl, ?_⟩
    obtain ⟨neg, n, t⟩ := x
    cases t <;> simp
  have m0 : marked saysUncertain .none .none .none = 0 ∧ marked saysApproximate .none .none .none = 0 := by decide
  have ka := dateSpan_date0 ha (hq a)
  have kb := dateSpan_date0 hb (hq b)
  rw [m0.1, m0.2] at ka kb
  rw [show a.text = a.qtext .none .none .none from rfl, show b.text = b.qtext .none .none .none from rfl, ka, kb]
  simp only [Res.ok_bind, joinHalves, spanRec, Res.deref_some]
  rw [← range_congr hf ha, ← range_congr hf hb]
  rfl

example : (⟨true, 44, .day 3 15⟩ : Date0).ok ∧ (⟨false, 1985, .month 4⟩ : Date0).ok ∧
    (⟨true, 44, .day 3 15⟩ : Date0).text ++ '/' :: (⟨false, 1985, .month 4⟩ : Date0).text = c! "-0044-03-15/1985-04" := by decide

/-- C08, for the bounds: from the first second of A to the last second of B. -/
theorem C08_bounds (hf : DayCount f) {a b : Date0} (ha : a.ok) (hb : b.ok) :
    ∃ r : EDTFDate, parseString (a.text ++ '/' :: b.text) = .ok r ∧
      r.lower = .ok (86400 * f a.value a.first.1 a.first.2) ∧
      r.upper = .ok (86400 * f b.value b.last.1 b.last.2 + 86399) := by
  refine ⟨_, C08_interval hf ha hb, ?_, ?_⟩
  · simp [EDTFDate.lower, Date0.range, dayStart, dated]
  · simp [EDTFDate.upper, Date0.range, dayEnd, dated]

example : (⟨false, 1964, .none⟩ : Date0).ok ∧ (⟨false, 2008, .month 8⟩ : Date0).ok ∧
    (⟨false, 1964, .none⟩ : Date0).text ++ '/' :: (⟨false, 2008, .month 8⟩ : Date0).text = c! "1964/2008-08" := by
  decide

/-! ### C09 -/

/-- C09 does not hold: an interval that ends before it starts is accepted. -/
theorem C09_negation : ∃ (s : Str) (r : EDTFDate) (lo up : Int), parseString s = .ok r ∧
    r.feature = c! "Time Interval" ∧ r.lower = .ok lo ∧ r.upper = .ok up ∧ up < lo := by
  have ha : (⟨false, 2008, .none⟩ : Date0).ok := by decide
  have hb : (⟨false, 1964, .none⟩ : Date0).ok := by decide
  obtain ⟨r, h1, h2, h3⟩ := C08_bounds dayCount_unixDay ha hb
  have h4 := C08_interval dayCount_unixDay ha hb
  refine ⟨_, r, _, _, h1, ?_, h2, h3, by decide⟩
  rw [h1] at h4; injection h4 with h4; rw [h4]

/-- C09, what does hold: an accepted interval is in order exactly when the
first day of A is not after the last day of B; and A and B exist. -/
theorem C09_order_partial (hf : DayCount f) {a b : Date0} (ha : a.ok) (hb : b.ok) :
    ∃ (r : EDTFDate) (lo up : Int), parseString (a.text ++ '/' :: b.text) = .ok r ∧
      r.lower = .ok lo ∧ r.upper = .ok up ∧
      (lo ≤ up ↔ f a.value a.first.1 a.first.2 ≤ f b.value b.last.1 b.last.2) := by
  obtain ⟨r, h1, h2, h3⟩ := C08_bounds hf ha hb
  exact ⟨r, _, _, h1, h2, h3, by omega⟩

example : (⟨false, 1985, .none⟩ : Date0).ok ∧ (⟨false, 1984, .day 2 29⟩ : Date0).ok ∧
    (⟨false, 1985, .none⟩ : Date0).text ++ '/' :: (⟨false, 1984, .day 2 29⟩ : Date0).text = c! "1985/1984-02-29" ∧
    ∃ r lo up, parseString (c! "1985/1984-02-29") = .ok r ∧ r.lower = .ok lo ∧ r.upper = .ok up ∧ up < lo :=
  ⟨by decide, by decide, by decide, _, _, _, rfl, rfl, rfl, by decide +kernel⟩

end EDTF
