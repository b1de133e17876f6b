/- Lemmas about the time model: fields of instants, parsing and formatting. -/
import Verif.LemmasStr
namespace EDTF
open Spec

/-! ### Fields of an instant given by calendar date and time of day -/

/-- Seconds of the day. -/
def secOf (hh mi ss : Nat) : Int := hh * 3600 + mi * 60 + ss

theorem goDate_eq (y m d : Int) (hh mi ss : Nat) :
    goDate y m d hh mi ss = unixDay y m d * 86400 + secOf hh mi ss := by
  unfold goDate secOf; omega

theorem fields_day {D s : Int} (h0 : 0 ≤ s) (h1 : s < 86400) : (D * 86400 + s) / 86400 = D ∧ (D * 86400 + s) % 86400 = s := by
  omega

theorem timeYear_eq {y : Int} {m d : Nat} (h : Valid y m d) {s : Int} (h0 : 0 ≤ s) (h1 : s < 86400) :
    timeYear (unixDay y m d * 86400 + s) = y := by
  unfold timeYear; rw [(fields_day h0 h1).1, civil_unixDay y m d h]

theorem timeMonth_eq {y : Int} {m d : Nat} (h : Valid y m d) {s : Int} (h0 : 0 ≤ s) (h1 : s < 86400) :
    timeMonth (unixDay y m d * 86400 + s) = m := by
  unfold timeMonth; rw [(fields_day h0 h1).1, civil_unixDay y m d h]

theorem timeDay_eq {y : Int} {m d : Nat} (h : Valid y m d) {s : Int} (h0 : 0 ≤ s) (h1 : s < 86400) :
    timeDay (unixDay y m d * 86400 + s) = d := by
  unfold timeDay; rw [(fields_day h0 h1).1, civil_unixDay y m d h]

theorem timeOfDay_eq {D s : Int} (h0 : 0 ≤ s) (h1 : s < 86400) : timeOfDay (D * 86400 + s) = s := by
  unfold timeOfDay; omega

theorem secOf_range {hh mi ss : Nat} (h1 : hh < 24) (h2 : mi < 60) (h3 : ss < 60) :
    0 ≤ secOf hh mi ss ∧ secOf hh mi ss < 86400 := by unfold secOf; omega

/-- Every instant is a valid date plus a time of day. -/
theorem exists_fields_of_yd (y yd : Int) (h0 : 0 ≤ yd) (h1 : yd < yearLen y) :
    ∃ m d : Nat, Valid y m d ∧ daysBefore m y + ((d : Int) - 1) = yd := by
  have key : ∀ k : Nat, k ≤ 11 → yd < daysBefore ((12 - k : Nat) : Int) y + monthLen y (12 - k) →
      (∃ m d : Nat, Valid y m d ∧ daysBefore m y + ((d : Int) - 1) = yd) ∨ yd < daysBefore ((12 - k : Nat) : Int) y := by
    intro k hk h
    by_cases hc : yd < daysBefore ((12 - k : Nat) : Int) y
    · exact Or.inr hc
    · left
      refine ⟨12 - k, (yd - daysBefore ((12 - k : Nat) : Int) y + 1).toNat, ⟨by omega, by omega, by omega, by omega⟩, by omega⟩
  have all : ∀ k : Nat, k ≤ 11 →
      (∃ m d : Nat, Valid y m d ∧ daysBefore m y + ((d : Int) - 1) = yd) ∨ yd < daysBefore ((12 - k : Nat) : Int) y := by
    intro k
    induction k with
    | zero =>
      intro _
      obtain ⟨-, -, -, h⟩ := daysBefore_month y 12 (by omega) (by omega)
      exact key 0 (by omega) (by have := h rfl; simpa using (by omega : yd < daysBefore ((12 : Nat) : Int) y + monthLen y 12))
    | succ k ih =>
      intro hk
      rcases ih (by omega) with h | h
      · exact Or.inl h
      · obtain ⟨-, -, h', -⟩ := daysBefore_month y (12 - (k + 1)) (by omega) (by omega)
        have h' := h' (by omega)
        rw [show 12 - (k + 1) + 1 = 12 - k by omega] at h'
        exact key (k + 1) hk (by omega)
  rcases all 11 (by omega) with h | h
  · exact h
  · have : daysBefore ((12 - 11 : Nat) : Int) y = 0 := by simp [daysBefore]
    omega

theorem exists_year (z : Int) : ∃ y yd : Int, 0 ≤ yd ∧ yd < yearLen y ∧ z = daysBeforeYear y + yd := by
  have bound : ∀ y : Int, 365 * (y - 1) - 400 ≤ daysBeforeYear y + (if 1 ≤ y then 0 else (1 - y)) := by
    intro y; unfold daysBeforeYear; split <;> omega
  -- the largest year starting at or before z, found by descending from above
  have down : ∀ (n : Nat) (y : Int), z < daysBeforeYear y → daysBeforeYear (y - n) ≤ z →
      ∃ y' yd : Int, 0 ≤ yd ∧ yd < yearLen y' ∧ z = daysBeforeYear y' + yd := by
    intro n
    induction n with
    | zero => intro y h1 h2; simp at h2; omega
    | succ n ih =>
      intro y h1 h2
      have hs := daysBeforeYear_succ (y - 1)
      rw [show y - 1 + 1 = y by omega] at hs
      by_cases hc : daysBeforeYear (y - 1) ≤ z
      · exact ⟨y - 1, z - daysBeforeYear (y - 1), by omega, by omega, by omega⟩
      · exact ih (y - 1) (by omega) (by rw [show y - 1 - (n : Int) = y - ((n + 1 : Nat) : Int) by omega]; exact h2)
  have hi : z < daysBeforeYear (z.natAbs + 1000) := by
    unfold daysBeforeYear; omega
  have lo : daysBeforeYear (-(z.natAbs : Int) - 1000) ≤ z := by
    unfold daysBeforeYear; omega
  refine down (2 * z.natAbs + 2000) (z.natAbs + 1000) hi ?_
  rw [show (z.natAbs : Int) + 1000 - ((2 * z.natAbs + 2000 : Nat) : Int) = -(z.natAbs : Int) - 1000 by omega]
  exact lo

/-- Every day number is the number of an existing day. -/
theorem exists_date (z : Int) : ∃ (y : Int) (m d : Nat), Valid y m d ∧ z = unixDay y m d := by
  obtain ⟨y, yd, h0, h1, h2⟩ := exists_year (z + 719162)
  obtain ⟨m, d, hv, hd⟩ := exists_fields_of_yd y yd h0 h1
  exact ⟨y, m, d, hv, by unfold unixDay; omega⟩

theorem exists_fields (t : Int) : ∃ (y : Int) (m d : Nat) (s : Int), Valid y m d ∧ 0 ≤ s ∧ s < 86400 ∧
    t = unixDay y m d * 86400 + s := by
  obtain ⟨y, m, d, hv, h⟩ := exists_date (t / 86400)
  exact ⟨y, m, d, t % 86400, hv, by omega, by omega, by omega⟩

/-! ### Sign flip -/

theorem valid_neg {y : Int} {m d : Nat} : Valid (-y) m d ↔ Valid y m d := by
  unfold Valid monthLen; simp only [leap_neg]

theorem timeToBCE_eq {y : Int} {m d : Nat} (h : Valid y m d) {s : Int} (h0 : 0 ≤ s) (h1 : s < 86400) :
    timeToBCE (unixDay y m d * 86400 + s) = unixDay (-y) m d * 86400 + s := by
  unfold timeToBCE addDate
  rw [timeYear_eq h h0 h1, timeMonth_eq h h0 h1, timeDay_eq h h0 h1, timeOfDay_eq h0 h1]
  rw [show y + -2 * y = -y by omega, show (d : Int) + 0 = d by omega]

/-! ### Formatting -/

theorem secOf_fields {hh mi ss : Nat} (h1 : hh < 24) (h2 : mi < 60) (h3 : ss < 60) :
    secOf hh mi ss / 3600 = hh ∧ secOf hh mi ss / 60 % 60 = mi ∧ secOf hh mi ss % 60 = ss := by
  unfold secOf; omega

theorem monthLen_le (y : Int) (m : Nat) : monthLen y m ≤ 31 := (monthLen_pos y m).2

theorem formatRFC3339_eq {y : Int} {m d hh mi ss : Nat} (hy : y.natAbs < 100000) (h : Valid y m d)
    (h1 : hh < 24) (h2 : mi < 60) (h3 : ss < 60) :
    formatRFC3339 (unixDay y m d * 86400 + secOf hh mi ss) = rfcText y m d hh mi ss := by
  obtain ⟨a, b⟩ := secOf_range h1 h2 h3
  obtain ⟨e1, e2, e3⟩ := secOf_fields h1 h2 h3
  unfold formatRFC3339 rfcText hmsText
  rw [timeYear_eq h a b, timeMonth_eq h a b, timeDay_eq h a b, timeOfDay_eq a b, e1, e2, e3, fmtYear_eq hy]
  obtain ⟨v1, v2, v3, v4⟩ := h
  have := monthLen_le y m
  rw [fmt2_eq (by omega), fmt2_eq (by omega), fmt2_eq (by omega), fmt2_eq (by omega), fmt2_eq (by omega)]
  simp

/-! ### Parsing -/

theorem getnum_pad2 {n : Nat} (b : Bool) (h : n < 100) (rest : Str) :
    getnum b (pad2 n ++ rest) = some ((n : Int), rest) := by
  simp only [pad2, List.cons_append, List.nil_append, getnum, isDig_dig, Bool.not_true, digVal_dig, Bool.false_eq_true, if_false]
  congr 2; omega

theorem parseTok_year4 (f : Fields) {n : Nat} (h : n < 10000) (rest : Str) :
    parseTok .year4 f (pad4 n ++ rest) = some ({ f with year := (n : Int) }, rest) := by
  have := digitsVal_pad4 n h
  unfold pad4 at this
  simp only [pad4, List.cons_append, List.nil_append, parseTok, isDig_dig, Bool.and_self, if_true, this]

theorem parseTok_lit (f : Fields) (c : Char) (rest : Str) : parseTok (.lit c) f (c :: rest) = some (f, rest) := by
  simp [parseTok]

theorem parseTok_mon2 (f : Fields) {n : Nat} (h1 : 1 ≤ n) (h2 : n ≤ 12) (rest : Str) :
    parseTok .mon2 f (pad2 n ++ rest) = some ({ f with month := (n : Int) }, rest) := by
  simp only [parseTok, getnum_pad2 true (show n < 100 by omega)]
  rw [if_neg (by omega)]

theorem parseTok_mon2_bad (f : Fields) {n : Nat} (h : n = 0 ∨ 12 < n) (h2 : n < 100) (rest : Str) :
    parseTok .mon2 f (pad2 n ++ rest) = none := by
  simp only [parseTok, getnum_pad2 true h2]
  rw [if_pos (by omega)]

theorem parseTok_day2 (f : Fields) {n : Nat} (h : n < 100) (rest : Str) :
    parseTok .day2 f (pad2 n ++ rest) = some ({ f with day := (n : Int) }, rest) := by
  simp only [parseTok, getnum_pad2 true h]

theorem parseTok_hour2 (f : Fields) {n : Nat} (h : n < 24) (rest : Str) :
    parseTok .hour2 f (pad2 n ++ rest) = some ({ f with hour := (n : Int) }, rest) := by
  simp only [parseTok, getnum_pad2 false (show n < 100 by omega)]
  rw [if_neg (by omega)]

theorem parseTok_min2 (f : Fields) {n : Nat} (h : n < 60) (rest : Str) :
    parseTok .min2 f (pad2 n ++ rest) = some ({ f with min := (n : Int) }, rest) := by
  simp only [parseTok, getnum_pad2 true (show n < 100 by omega)]
  rw [if_neg (by omega)]

theorem parseTok_sec2 (f : Fields) {n : Nat} (h : n < 60) (rest : Str) :
    parseTok .sec2 f (pad2 n ++ rest) = some ({ f with sec := (n : Int) }, dropFraction rest) := by
  simp only [parseTok, getnum_pad2 true (show n < 100 by omega)]
  rw [if_neg (by omega)]

/-- time.Parse of a date. -/
theorem timeParse_date {y m d : Nat} (hy : y < 10000) (h1 : 1 ≤ m) (h2 : m ≤ 12) (hd : d < 100) :
    timeParse layoutDate (pad4 y ++ c! "-" ++ pad2 m ++ c! "-" ++ pad2 d) =
      if Valid y m d then some (unixDay y m d * 86400) else none := by
  have key : parseToks layoutDate {} (pad4 y ++ c! "-" ++ pad2 m ++ c! "-" ++ pad2 d)
      = some { year := y, month := m, day := d } := by
    have := parseTok_day2 { year := y, month := m } hd []
    simp only [List.append_nil] at this
    simp only [layoutDate, List.append_assoc, parseToks, parseTok_year4 _ hy, List.cons_append, List.nil_append,
      parseTok_lit, parseTok_mon2 _ h1 h2, this, List.isEmpty_nil, if_true]
  unfold timeParse
  rw [key]
  simp only [daysIn_eq (y : Int) m h1 h2]
  split
  · rw [if_neg (by unfold Valid; omega)]
  · rw [if_pos (by unfold Valid; omega)]
    unfold goDate; congr 1; omega

/-- time.Parse of date and time of day. -/
theorem parseToks_dateTime {y m d hh mi ss : Nat} (hy : y < 10000) (h1 : 1 ≤ m) (h2 : m ≤ 12) (hd : d < 100)
    (k1 : hh < 24) (k2 : mi < 60) (k3 : ss < 60) (ts : List Tok) (rest : Str) :
    parseToks (layoutDateTime ++ ts) {}
      (pad4 y ++ (c! "-" ++ (pad2 m ++ (c! "-" ++ (pad2 d ++ (c! "T" ++ (hmsText hh mi ss ++ rest))))))) =
    parseToks ts { year := y, month := m, day := d, hour := hh, min := mi, sec := ss } (dropFraction rest) := by
  simp only [layoutDateTime, layoutDate, hmsText, List.append_assoc, parseToks, parseTok_year4 _ hy, List.cons_append,
    List.nil_append, parseTok_lit, parseTok_mon2 _ h1 h2, parseTok_day2 _ hd, parseTok_hour2 _ k1, parseTok_min2 _ k2,
    parseTok_sec2 _ k3]

theorem timeParse_dateTime {y m d hh mi ss : Nat} (hy : y < 10000) (h1 : 1 ≤ m) (h2 : m ≤ 12) (hd : d < 100)
    (k1 : hh < 24) (k2 : mi < 60) (k3 : ss < 60) :
    timeParse layoutDateTime (pad4 y ++ c! "-" ++ pad2 m ++ c! "-" ++ pad2 d ++ c! "T" ++ hmsText hh mi ss) =
      if Valid y m d then some (unixDay y m d * 86400 + secOf hh mi ss) else none := by
  have key := parseToks_dateTime hy h1 h2 hd k1 k2 k3 [] []
  simp only [List.append_nil, dropFraction] at key
  unfold timeParse
  simp only [List.append_assoc] at key ⊢
  rw [key]
  simp only [parseToks, List.isEmpty_nil, if_true, daysIn_eq (y : Int) m h1 h2]
  split
  · rw [if_neg (by unfold Valid; omega)]
  · rw [if_pos (by unfold Valid; omega), goDate_eq]; congr 1; omega

/-! ### Days in a month -/

theorem daysInMonth_nonneg {y m : Nat} (hy : y < 10000) (h1 : 1 ≤ m) (h2 : m ≤ 12) :
    daysInMonth y m = .ok (monthLen y m : Int) := by
  have lit01 : (c! "-01" : Str) = c! "-" ++ pad2 1 := by decide
  unfold daysInMonth
  simp only [if_neg (show ¬ (y : Int) < 0 by omega)]
  by_cases hm : m = 12
  · subst hm
    simp only [if_pos (show ((12 : Nat) : Int) ≥ 12 by omega)]
    have : padInt 2 (1 : Int) = pad2 1 := by decide
    rw [padInt4 hy, this, lit01, ← List.append_assoc, timeParse_date hy (by omega) (by omega) (by omega)]
    rw [if_pos ⟨by omega, by omega, by omega, by simp [monthLen]⟩]
    simp only [Res.ok.injEq]
    have hv : Valid ((y : Int)) 1 1 := ⟨by omega, by omega, by omega, by simp [monthLen]⟩
    have e := timeYear_eq hv (s := 0) (by omega) (by omega)
    have e2 := timeMonth_eq hv (s := 0) (by omega) (by omega)
    have e3 := timeDay_eq hv (s := 0) (by omega) (by omega)
    have e4 := timeOfDay_eq (D := unixDay (y : Int) ((1 : Nat) : Int) ((1 : Nat) : Int)) (s := 0) (by omega) (by omega)
    rw [Int.add_zero] at e e2 e3 e4
    unfold addDate
    rw [e, e2, e3, e4]
    have hs := dayCount_unixDay.next_year ((y : Int) - 1)
    simp only [show (y : Int) - 1 + 1 = y by omega] at hs
    have : unixDay ((y : Int) + 0) ((1 : Nat) : Int) (((1 : Nat) : Int) + -1) = unixDay ((y : Int) - 1) ((12 : Nat) : Int) ((31 : Nat) : Int) := by
      have : unixDay ((y : Int) + 0) ((1 : Nat) : Int) (((1 : Nat) : Int) + -1) = unixDay (y : Int) ((1 : Nat) : Int) ((1 : Nat) : Int) - 1 := by
        rw [show (y : Int) + 0 = y by omega]; unfold unixDay; omega
      rw [this, hs]; omega
    rw [this, timeDay_eq ⟨by omega, by omega, by omega, by simp [monthLen]⟩ (by omega) (by omega)]
    simp [monthLen]
  · simp only [if_neg (show ¬ (m : Int) ≥ 12 by omega)]
    rw [padInt4 hy, show (m : Int) + 1 = ((m + 1 : Nat) : Int) by omega, padInt2 (by omega), lit01, ← List.append_assoc,
      timeParse_date hy (by omega) (by omega) (by omega)]
    have hv : Valid ((y : Int)) (m + 1) 1 := ⟨by omega, by omega, by omega, by have := monthLen_pos (y : Int) (m + 1); omega⟩
    rw [if_pos hv]
    simp only [Res.ok.injEq]
    have e := timeYear_eq hv (s := 0) (by omega) (by omega)
    have e2 := timeMonth_eq hv (s := 0) (by omega) (by omega)
    have e3 := timeDay_eq hv (s := 0) (by omega) (by omega)
    have e4 := timeOfDay_eq (D := unixDay (y : Int) ((m + 1 : Nat) : Int) ((1 : Nat) : Int)) (s := 0) (by omega) (by omega)
    rw [Int.add_zero] at e e2 e3 e4
    unfold addDate
    rw [e, e2, e3, e4]
    have hs := dayCount_unixDay.next_month (y : Int) m h1 (by omega)
    have : unixDay ((y : Int) + 0) ((m + 1 : Nat) : Int) (((1 : Nat) : Int) + -1)
        = unixDay (y : Int) (m : Int) ((monthLen y m : Nat) : Int) := by
      have : unixDay ((y : Int) + 0) ((m + 1 : Nat) : Int) (((1 : Nat) : Int) + -1) = unixDay (y : Int) ((m + 1 : Nat) : Int) ((1 : Nat) : Int) - 1 := by
        rw [show (y : Int) + 0 = y by omega]; unfold unixDay; omega
      rw [this, hs]; omega
    have hp := monthLen_pos (y : Int) m
    rw [this, timeDay_eq ⟨h1, h2, by omega, by omega⟩ (by omega) (by omega)]

theorem monthLen_natAbs (y : Int) (m : Nat) : monthLen (y.natAbs : Int) m = monthLen y m := by
  have : Leap (y.natAbs : Int) ↔ Leap y := by
    by_cases h : 0 ≤ y
    · rw [show (y.natAbs : Int) = y by omega]
    · rw [show (y.natAbs : Int) = -y by omega, leap_neg]
  unfold monthLen; simp only [this]

/-- C39 core: the month length, for positive and negative years. -/
theorem daysInMonth_eq {y : Int} {m : Nat} (hy : y.natAbs < 10000) (h1 : 1 ≤ m) (h2 : m ≤ 12) :
    daysInMonth y m = .ok (monthLen y m : Int) := by
  have := daysInMonth_nonneg hy h1 h2
  rw [monthLen_natAbs] at this
  rw [← this]
  unfold daysInMonth
  by_cases h : y < 0
  · have e1 : wrap64 (y - wrap64 (y * 2)) = (y.natAbs : Int) := by
      rw [wrap64_id (n := y * 2) (by omega) (by omega), wrap64_id (by omega) (by omega)]; omega
    simp only [if_pos h, e1, if_neg (show ¬ (y.natAbs : Int) < 0 by omega)]
  · simp only [if_neg h, if_neg (show ¬ (y.natAbs : Int) < 0 by omega)]
    rw [show (y.natAbs : Int) = y by omega]

/-! ### timeWithYMD -/

theorem valid_natAbs {y : Int} {m d : Nat} : Valid (y.natAbs : Int) m d ↔ Valid y m d := by
  unfold Valid; rw [monthLen_natAbs]

theorem timeWithYMD_eq {y : Int} {m d hh mi ss : Nat} (hy : y.natAbs < 10000) (h : Valid y m d)
    (k1 : hh < 24) (k2 : mi < 60) (k3 : ss < 60) :
    timeWithYMD ⟨y, m, d⟩ (hmsText hh mi ss) = .ok (unixDay y m d * 86400 + secOf hh mi ss) := by
  have hv := valid_natAbs.2 h
  obtain ⟨a, b⟩ := secOf_range k1 k2 k3
  have hd : d < 100 := by have := monthLen_le y m; have := h.2.2.2; omega
  have hm : m < 100 := by have := h.2.1; omega
  have key := timeParse_dateTime (y := y.natAbs) hy h.1 h.2.1 hd k1 k2 k3
  unfold timeWithYMD
  by_cases hn : y < 0
  · simp only [hn, decide_true, if_true]
    have e : flipYear y = (y.natAbs : Int) := by rw [flipYear_eq (by omega) (by omega)]; omega
    rw [e, padInt4 hy, padInt2 hm, padInt2 hd, key, if_pos hv]
    simp only
    rw [timeToBCE_eq hv a b]
    rw [show -(y.natAbs : Int) = y by omega]
  · simp only [hn, decide_false, Bool.false_eq_true, if_false]
    have e : (y.natAbs : Int) = y := by omega
    rw [e] at key
    have p4 : padInt 4 y = pad4 y.natAbs := by rw [← padInt4 hy, e]
    rw [p4, padInt2 hm, padInt2 hd, key, if_pos h]

theorem HMS_LOWER_eq : HMS_LOWER = hmsText 0 0 0 := by decide
theorem HMS_UPPER_eq : HMS_UPPER = hmsText 23 59 59 := by decide

theorem timeWithYMD_lower {y : Int} {m d : Nat} (hy : y.natAbs < 10000) (h : Valid y m d) :
    timeWithYMD ⟨y, m, d⟩ HMS_LOWER = .ok (unixDay y m d * 86400) := by
  rw [HMS_LOWER_eq, timeWithYMD_eq hy h (by omega) (by omega) (by omega)]; simp [secOf]

theorem timeWithYMD_upper {y : Int} {m d : Nat} (hy : y.natAbs < 10000) (h : Valid y m d) :
    timeWithYMD ⟨y, m, d⟩ HMS_UPPER = .ok (unixDay y m d * 86400 + 86399) := by
  rw [HMS_UPPER_eq, timeWithYMD_eq hy h (by omega) (by omega) (by omega)]; simp [secOf]

end EDTF
