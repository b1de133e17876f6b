/- C06, C07: dates with a time of day and a zone. -/
import Verif.LemmasDT
namespace EDTF
open Spec

variable {f : Int → Nat → Nat → Int}

/-! ### Years of instants -/

theorem jan1 (y : Int) : unixDay y (1 : Nat) (1 : Nat) = daysBeforeYear y - 719162 := by
  simp [unixDay, daysBefore]

theorem unixDay_split (y : Int) (m d : Nat) : unixDay y m d = unixDay y (1 : Nat) (1 : Nat) + (daysBefore m y + ((d : Int) - 1)) := by
  rw [jan1]; unfold unixDay; omega

theorem jan1_succ (y : Int) : unixDay (y + 1) (1 : Nat) (1 : Nat) = unixDay y (1 : Nat) (1 : Nat) + yearLen y := by
  rw [jan1, jan1, daysBeforeYear_succ]; omega

theorem jan1_mono {a b : Int} (h : a < b) : unixDay a (1 : Nat) (1 : Nat) < unixDay b (1 : Nat) (1 : Nat) := by
  have key : ∀ k : Nat, unixDay a (1 : Nat) (1 : Nat) < unixDay (a + 1 + k) (1 : Nat) (1 : Nat) := by
    intro k
    induction k with
    | zero =>
      have := jan1_succ a
      have := yearLen_le a
      simp only [Int.natCast_zero, Int.add_zero]
      omega
    | succ k ih =>
      have h1 := jan1_succ (a + 1 + k)
      have := yearLen_le (a + 1 + k)
      rw [show a + 1 + (k : Int) + 1 = a + 1 + ((k + 1 : Nat) : Int) by omega] at h1
      omega
  have := key (b - a - 1).toNat
  rwa [show a + 1 + (((b - a - 1).toNat : Nat) : Int) = b by omega] at this

theorem jan1_lt_iff {a b : Int} : unixDay a (1 : Nat) (1 : Nat) < unixDay b (1 : Nat) (1 : Nat) ↔ a < b := by
  constructor
  · intro h
    rcases (by omega : a < b ∨ a = b ∨ b < a) with h1 | h1 | h1
    · exact h1
    · subst h1; omega
    · have := jan1_mono h1; omega
  · exact jan1_mono

theorem valid_yd {y : Int} {m d : Nat} (h : Valid y m d) :
    0 ≤ daysBefore m y + ((d : Int) - 1) ∧ daysBefore m y + ((d : Int) - 1) < yearLen y := by
  obtain ⟨a, b, c, e⟩ := h
  obtain ⟨h1, h2, -, -⟩ := daysBefore_month y m a b
  omega

theorem daysBefore_neg (y m : Int) : daysBefore m (-y) = daysBefore m y := by
  unfold daysBefore; rw [isLeap_neg]

/-- Every instant lies in its year. -/
theorem timeYear_bounds (t : Int) : unixDay (timeYear t) (1 : Nat) (1 : Nat) * 86400 ≤ t ∧
    t < unixDay (timeYear t + 1) (1 : Nat) (1 : Nat) * 86400 := by
  obtain ⟨y, m, d, V, e⟩ := exists_date (t / 86400)
  have ht : t = unixDay y m d * 86400 + t % 86400 := by omega
  have e1 : timeYear t = y := by
    rw [ht]; exact timeYear_eq V (by omega) (by omega)
  rw [e1]
  have h1 := unixDay_split y m d
  have h2 := jan1_succ y
  have h3 := valid_yd V
  omega

theorem timeYear_iff {t y : Int} : timeYear t = y ↔
    unixDay y (1 : Nat) (1 : Nat) * 86400 ≤ t ∧ t < unixDay (y + 1) (1 : Nat) (1 : Nat) * 86400 := by
  constructor
  · rintro rfl; exact timeYear_bounds t
  · rintro ⟨h1, h2⟩
    obtain ⟨b1, b2⟩ := timeYear_bounds t
    have k1 := jan1_lt_iff (a := timeYear t) (b := y + 1)
    have k2 := jan1_lt_iff (a := y) (b := timeYear t + 1)
    omega

/-- Moving an instant to the negative year keeps its distance from the start of
the year. -/
theorem timeToBCE_shift (t : Int) : timeToBCE t =
    t - unixDay (timeYear t) (1 : Nat) (1 : Nat) * 86400 + unixDay (-(timeYear t)) (1 : Nat) (1 : Nat) * 86400 := by
  obtain ⟨y, m, d, V, e⟩ := exists_date (t / 86400)
  have ht : t = unixDay y m d * 86400 + t % 86400 := by omega
  have e1 : timeYear t = y := by
    rw [ht]; exact timeYear_eq V (by omega) (by omega)
  have e2 : timeToBCE t = unixDay (-y) m d * 86400 + t % 86400 := by
    conv => lhs; rw [ht]
    exact timeToBCE_eq V (by omega) (by omega)
  rw [e1, e2, unixDay_split (-y) m d, daysBefore_neg]
  have := unixDay_split y m d
  omega

/-- The instant comes out right exactly when the offset leaves it in the same
(positive) year. -/
theorem timeToBCE_correct {n m d : Nat} (c : Int) :
    timeToBCE (unixDay n m d * 86400 + c) = unixDay (-(n : Int)) m d * 86400 + c ↔
      timeYear (unixDay n m d * 86400 + c) = n := by
  rw [timeToBCE_shift]
  generalize hk : timeYear (unixDay n m d * 86400 + c) = k
  have h1 := unixDay_split (-(n : Int)) m d
  have h2 := unixDay_split n m d
  rw [daysBefore_neg] at h1
  constructor
  · intro h
    rcases (by omega : k < n ∨ k = n ∨ n < k) with a | a | a
    · have b1 := jan1_mono a
      have b2 := jan1_mono (show -(n : Int) < -k by omega)
      omega
    · exact a
    · have b1 := jan1_mono a
      have b2 := jan1_mono (show -k < -(n : Int) by omega)
      omega
  · rintro rfl
    omega

/-! ### Results -/

theorem setTime_instant (hf : DayCount f) {t : Int} (h : ∃ y : Int, -10000 ≤ y ∧ y ≤ 10000 ∧ timeYear t = y) :
    ∃ (y' : Int) (m' d' hh' mi' ss' : Nat), Valid y' m' d' ∧ hh' < 24 ∧ mi' < 60 ∧ ss' < 60 ∧
      86400 * f y' m' d' + (3600 * hh' + 60 * mi' + ss') = t ∧
      Date.setTime {} t = { dated f y' m' d' hh' mi' ss' 0 0 0 with ymd := none } := by
  obtain ⟨y0, l0, l1, hy⟩ := h
  obtain ⟨y, m, d, V, e⟩ := exists_date (t / 86400)
  have e1 : timeYear t = y := by
    have ht : t = unixDay y m d * 86400 + t % 86400 := by omega
    rw [ht]; exact timeYear_eq V (by omega) (by omega)
  obtain ⟨hh, mi, ss, k1, k2, k3, hr⟩ := exists_hms (r := t % 86400) (by omega) (by omega)
  have ht : t = unixDay y m d * 86400 + secOf hh mi ss := by omega
  refine ⟨y, m, d, hh, mi, ss, V, k1, k2, k3, ?_, ?_⟩
  · rw [dayCount_eq hf V, ht]; unfold secOf; omega
  · unfold Date.setTime dated
    rw [ht, formatRFC3339_eq (by omega) V k1 k2 k3, dayCount_eq hf V]
    have : unixDay y m d * 86400 + secOf hh mi ss = 86400 * unixDay y m d + ((3600 * hh + 60 * mi + ss : Nat) : Int) := by
      unfold secOf; omega
    rw [this]

theorem zone_shape {z : Zone} (h : z.ok) : z.shape := by
  cases z <;> simp only [Zone.ok, Zone.shape] at * <;> omega

theorem zone_offset_range {z : Zone} (h : z.ok) : -90000 ≤ z.offset ∧ z.offset ≤ 90000 := by
  cases z with
  | none => simp [Zone.offset]
  | utc => simp [Zone.offset]
  | hours n a => simp only [Zone.ok] at h; simp only [Zone.offset]; split <;> omega
  | full n a b => simp only [Zone.ok] at h; simp only [Zone.offset]; split <;> omega

theorem localTime_year {y m d hh mi ss : Nat} {z : Zone} (V : Valid y m d) (k1 : hh < 24) (k2 : mi < 60) (k3 : ss < 60) (hz : z.ok) :
    timeYear (localTime y m d hh mi ss z) = y - 1 ∨ timeYear (localTime y m d hh mi ss z) = y ∨
      timeYear (localTime y m d hh mi ss z) = y + 1 := by
  have h0 := valid_yd V
  have h1 := unixDay_split y m d
  have h2 := jan1_succ y
  have h3 := jan1_succ (y - 1)
  have h4 := jan1_succ (y + 1)
  have l1 := yearLen_le y
  have l2 := yearLen_le (y - 1)
  have l3 := yearLen_le (y + 1)
  have o := zone_offset_range hz
  obtain ⟨s1, s2⟩ := secOf_range k1 k2 k3
  rw [timeYear_iff, timeYear_iff, timeYear_iff]
  rw [show (y : Int) - 1 + 1 = y by omega] at *
  unfold localTime
  omega

/-! ### C06 -/

/-- C06: a date with a time of day and a zone, in years 0000-9999, denotes the
one second given by its local reading minus the offset; nothing else is set.
Offsets up to 24:60 are covered. -/
theorem C06_instant (hf : DayCount f) {y m d hh mi ss : Nat} {z : Zone} (hy : y < 10000) (V : Valid y m d)
    (k1 : hh < 24) (k2 : mi < 60) (k3 : ss < 60) (hz : z.ok) :
    ∃ (y' : Int) (m' d' hh' mi' ss' : Nat) (r : EDTFDate),
      parseString (clockText false y m d hh mi ss z) = .ok r ∧
      r = instantResult (clockText false y m d hh mi ss z) { dated f y' m' d' hh' mi' ss' 0 0 0 with ymd := none } ∧
      Valid y' m' d' ∧ hh' < 24 ∧ mi' < 60 ∧ ss' < 60 ∧
      86400 * f y' m' d' + (3600 * hh' + 60 * mi' + ss') = 86400 * f y m d + (3600 * hh + 60 * mi + ss) - z.offset ∧
      r.lower = .ok (86400 * f y m d + (3600 * hh + 60 * mi + ss) - z.offset) ∧
      r.upper = .ok (86400 * f y m d + (3600 * hh + 60 * mi + ss) - z.offset) := by
  have key := parse_clock (neg := false) hy V.1 V.2.1 V.2.2.1 (Nat.le_trans V.2.2.2 (monthLen_pos _ _).2)
    (show hh < 100 by omega) (show mi < 100 by omega) (show ss < 100 by omega) (zone_shape hz)
  rw [if_pos ⟨V, ⟨k1, k2, k3⟩, hz⟩] at key
  simp only [Bool.false_eq_true, if_false] at key
  obtain ⟨y', m', d', hh', mi', ss', V', a1, a2, a3, e1, e2⟩ := setTime_instant hf (t := localTime y m d hh mi ss z)
    ⟨_, by rcases localTime_year V k1 k2 k3 hz with h | h | h <;> omega, by rcases localTime_year V k1 k2 k3 hz with h | h | h <;> omega, rfl⟩
  have el : localTime y m d hh mi ss z = 86400 * f y m d + (3600 * hh + 60 * mi + ss) - z.offset := by
    rw [dayCount_eq hf V]; unfold localTime secOf; omega
  refine ⟨y', m', d', hh', mi', ss', _, key, by rw [e2], V', a1, a2, a3, by rw [e1, el], ?_, ?_⟩
  · simp [instantResult, EDTFDate.lower, Date.setTime, el]
  · simp [instantResult, EDTFDate.upper, Date.setTime, el]

/-- "2000-02-28T23:30:00-01:30" is one hour into 29 February 2000 UTC. -/
example : clockText false 2000 2 28 23 30 0 (.full true 1 30) = c! "2000-02-28T23:30:00-01:30" ∧
    Valid (2000 : Nat) 2 28 ∧ (Zone.full true 1 30).ok ∧ 86400 * U (2000 : Nat) 2 28 + (3600 * 23 + 60 * 30 + 0) - (Zone.full true 1 30).offset =
      86400 * U 2000 2 29 + 3600 := by decide +kernel

/-- C06, the converse: a string of that form whose day does not exist, whose
time of day is not on the clock or whose offset exceeds 24:60 is an error. -/
theorem C06_rejects {neg : Bool} {y m d hh mi ss : Nat} {z : Zone} (hy : y < 10000) (h1 : 1 ≤ m) (h2 : m ≤ 12) (d1 : 1 ≤ d) (d2 : d ≤ 31)
    (k1 : hh < 100) (k2 : mi < 100) (k3 : ss < 100) (hz : z.shape)
    (h : ¬ (Valid y m d ∧ (hh < 24 ∧ mi < 60 ∧ ss < 60) ∧ z.ok)) :
    parseString (clockText neg y m d hh mi ss z) = .err .plain := by
  rw [parse_clock hy h1 h2 d1 d2 k1 k2 k3 hz, if_neg h]

example : clockText false 2021 2 29 12 0 0 .utc = c! "2021-02-29T12:00:00Z" ∧ ¬ Valid (2021 : Nat) 2 29 := by decide
example : clockText true 2021 2 28 24 0 0 .none = c! "-2021-02-28T24:00:00" ∧ ¬ (24 < 24) := by decide

/-- C06, the rest of the pattern: a time of day after a year or a month is
accepted by the pattern and then is an error. -/
theorem C06_needs_day {neg : Bool} {y hh mi ss : Nat} {t : Tail} {z : Zone} (hy : y < 10000)
    (ht : t = .none ∨ ∃ m, t = .month m ∧ 1 ≤ m ∧ m ≤ 12) (k1 : hh < 100) (k2 : mi < 100) (k3 : ss < 100) (hz : z.shape) :
    parseString ((⟨neg, y, t⟩ : Date0).text ++ 'T' :: (hmsText hh mi ss ++ z.text)) = .err .plain := by
  have hx : (⟨neg, y, t⟩ : Date0).year < 10000 ∧ Date0.shapeOk ⟨neg, y, t⟩ := by
    refine ⟨hy, ?_⟩
    rcases ht with rfl | ⟨m, rfl, h1, h2⟩
    · trivial
    · exact ⟨h1, h2⟩
  have hdt := isDateAndTime_text hx k1 k2 k3 hz
  obtain ⟨mm, hm, c7, c8, c10⟩ := dt_submatch hx k1 k2 k3 hz
  generalize hs : (⟨neg, y, t⟩ : Date0).text ++ 'T' :: (hmsText hh mi ss ++ z.text) = s at *
  have hnd : L0.isDate s = false := by
    rw [Bool.eq_false_iff]
    intro h
    obtain ⟨x, -, -, e⟩ := isDate_iff.1 h
    exact date0_not_mem x (c := 'T') (by decide) (by decide) (by rw [← e, ← hs]; simp)
  have hl : L0.isLevel0 s = true := by rw [isLevel0_iff, hdt]; simp
  obtain ⟨w, ew, hw⟩ : ∃ w, (⟨neg, y, t⟩ : Date0).text = yearStr neg y ++ w ∧ (w = [] ∨ ∃ m, w = '-' :: pad2 m ∧ 1 ≤ m ∧ m ≤ 12) := by
    rw [date0_text]
    rcases ht with rfl | ⟨m, rfl, h⟩
    · exact ⟨_, rfl, Or.inl rfl⟩
    · exact ⟨_, rfl, Or.inr ⟨m, rfl, h⟩⟩
  have bare : ∀ (L : List Tok) (rest : Str), timeParse (layoutDateTime ++ L) (pad4 y ++ (w ++ 'T' :: rest)) = none := by
    intro L rest
    unfold timeParse
    rcases hw with rfl | ⟨m, rfl, h1, h2⟩
    · simp only [layoutDateTime, layoutDate, List.cons_append, List.nil_append, parseToks, parseTok_year4 _ hy]
      simp [parseTok]
    · simp only [layoutDateTime, layoutDate, List.cons_append, List.nil_append, parseToks, parseTok_year4 _ hy, parseTok_lit, parseTok_mon2 _ h1 h2]
      simp [parseTok]
  rw [ew] at hs
  unfold parseString
  rw [if_pos hl]
  unfold L0.parseString
  rw [if_neg (by rw [hnd]; decide), if_pos hdt]
  unfold L0.parseDateAndTime
  rw [hm]
  simp only
  rw [layoutFor_zone c7 c8 c10]
  cases neg with
  | false =>
    have e : s = pad4 y ++ (w ++
        'T' :: (hmsText hh mi ss ++ z.text)) := by rw [← hs]; simp [yearStr, sgn]
    have hp : hasPrefix s (c! "-") = false := by
      have : '-' ≠ dig (y / 1000 % 10) := (dig_mod_ne _ (by decide)).symm
      rw [e]
      simp [pad4, hasPrefix, List.isPrefixOf, this]
    rw [hp]
    simp only [Bool.false_eq_true, if_false]
    rw [e, bare]
  | true =>
    have e : s = '-' :: (pad4 y ++ (w ++
        'T' :: (hmsText hh mi ss ++ z.text))) := by rw [← hs]; simp [yearStr, sgn]
    have hp : hasPrefix s (c! "-") = true := by rw [e]; simp [hasPrefix]
    rw [hp]
    simp only [if_true]
    have step : ∀ u, timeParse (.lit '-' :: (layoutDateTime ++ Zone.toks z)) ('-' :: u) = timeParse (layoutDateTime ++ Zone.toks z) u := by
      intro u
      unfold timeParse
      conv => lhs; unfold parseToks
      simp only [parseTok_lit]
    rw [e, step, bare]

example : parseString (c! "1985-04T23:20:30Z") = .err .plain := by decide +kernel

/-! ### C07 -/

/-- C07 without an offset: the one second given by the reading in the negative
year. -/
theorem C07_utc_partial (hf : DayCount f) {n m d hh mi ss : Nat} {z : Zone} (hn : n < 10000) (V : Valid (-(n : Int)) m d)
    (k1 : hh < 24) (k2 : mi < 60) (k3 : ss < 60) (hz : z = .none ∨ z = .utc) :
    ∃ r : EDTFDate, parseString (clockText true n m d hh mi ss z) = .ok r ∧
      r = instantResult (clockText true n m d hh mi ss z) { dated f (-(n : Int)) m d hh mi ss 0 0 0 with ymd := none } ∧
      r.lower = .ok (86400 * f (-(n : Int)) m d + (3600 * hh + 60 * mi + ss)) ∧
      r.upper = .ok (86400 * f (-(n : Int)) m d + (3600 * hh + 60 * mi + ss)) := by
  have Vp : Valid n m d := valid_neg.1 V
  have hok : z.ok := by rcases hz with rfl | rfl <;> trivial
  have ho : z.offset = 0 := by rcases hz with rfl | rfl <;> rfl
  have key := parse_clock (neg := true) hn V.1 V.2.1 V.2.2.1 (Nat.le_trans V.2.2.2 (monthLen_pos _ _).2)
    (show hh < 100 by omega) (show mi < 100 by omega) (show ss < 100 by omega) (zone_shape hok)
  rw [if_pos ⟨Vp, ⟨k1, k2, k3⟩, hok⟩] at key
  simp only [if_true] at key
  obtain ⟨s1, s2⟩ := secOf_range k1 k2 k3
  have e : timeToBCE (localTime n m d hh mi ss z) = unixDay (-(n : Int)) m d * 86400 + secOf hh mi ss := by
    unfold localTime
    rw [ho, Int.sub_zero]
    exact timeToBCE_eq Vp s1 s2
  have et : Date.setTime {} (unixDay (-(n : Int)) m d * 86400 + secOf hh mi ss) =
      { dated f (-(n : Int)) m d hh mi ss 0 0 0 with ymd := none } := by
    unfold Date.setTime dated
    rw [formatRFC3339_eq (by omega) V k1 k2 k3, dayCount_eq hf V]
    have : unixDay (-(n : Int)) m d * 86400 + secOf hh mi ss = 86400 * unixDay (-(n : Int)) m d + ((3600 * hh + 60 * mi + ss : Nat) : Int) := by
      unfold secOf; omega
    rw [this]
  rw [e, et] at key
  refine ⟨_, key, rfl, ?_, ?_⟩
  · simp [instantResult, EDTFDate.lower, dated]
  · simp [instantResult, EDTFDate.upper, dated]

example : Valid (-((44 : Nat) : Int)) 3 15 ∧ clockText true 44 3 15 12 30 9 .utc = c! "-0044-03-15T12:30:09Z" ∧ ∃ r, parseString (c! "-0044-03-15T12:30:09Z") = .ok r := by
  refine ⟨?_, rfl, _, rfl⟩
  unfold Valid
  decide

/-- C07 with any offset: the string is accepted and denotes one second, and that
second is the right one exactly when the offset does not carry the reading, taken
in the positive year of the same number, out of that year. -/
theorem C07_offset_partial (hf : DayCount f) {n m d hh mi ss : Nat} {z : Zone} (hn : n < 10000) (V : Valid (-(n : Int)) m d)
    (k1 : hh < 24) (k2 : mi < 60) (k3 : ss < 60) (hz : z.ok) :
    ∃ (y' : Int) (m' d' hh' mi' ss' : Nat) (r : EDTFDate) (t : Int),
      parseString (clockText true n m d hh mi ss z) = .ok r ∧
      r = instantResult (clockText true n m d hh mi ss z) { dated f y' m' d' hh' mi' ss' 0 0 0 with ymd := none } ∧
      Valid y' m' d' ∧ hh' < 24 ∧ mi' < 60 ∧ ss' < 60 ∧
      86400 * f y' m' d' + (3600 * hh' + 60 * mi' + ss') = t ∧ r.lower = .ok t ∧ r.upper = .ok t ∧
      (t = 86400 * f (-(n : Int)) m d + (3600 * hh + 60 * mi + ss) - z.offset ↔
        86400 * f n 1 1 ≤ 86400 * f n m d + (3600 * hh + 60 * mi + ss) - z.offset ∧
        86400 * f n m d + (3600 * hh + 60 * mi + ss) - z.offset < 86400 * f (n + 1) 1 1) := by
  have Vp : Valid n m d := valid_neg.1 V
  have key := parse_clock (neg := true) hn V.1 V.2.1 V.2.2.1 (Nat.le_trans V.2.2.2 (monthLen_pos _ _).2)
    (show hh < 100 by omega) (show mi < 100 by omega) (show ss < 100 by omega) (zone_shape hz)
  rw [if_pos ⟨Vp, ⟨k1, k2, k3⟩, hz⟩] at key
  simp only [if_true] at key
  have hyear : ∃ y : Int, -10000 ≤ y ∧ y ≤ 10000 ∧ timeYear (timeToBCE (localTime n m d hh mi ss z)) = y := by
    have h1 := localTime_year Vp k1 k2 k3 hz
    generalize hk : timeYear (localTime n m d hh mi ss z) = k at h1
    refine ⟨-k, by omega, by omega, ?_⟩
    obtain ⟨y, m0, d0, V0, e⟩ := exists_date (localTime n m d hh mi ss z / 86400)
    have ht : localTime n m d hh mi ss z = unixDay y m0 d0 * 86400 + localTime n m d hh mi ss z % 86400 := by omega
    have e1 : k = y := by
      rw [← hk, ht]; exact timeYear_eq V0 (by omega) (by omega)
    rw [ht, timeToBCE_eq V0 (by omega) (by omega), e1]
    exact timeYear_eq (valid_neg.2 V0) (by omega) (by omega)
  obtain ⟨y', m', d', hh', mi', ss', V', a1, a2, a3, e1, e2⟩ := setTime_instant hf hyear
  refine ⟨y', m', d', hh', mi', ss', _, timeToBCE (localTime n m d hh mi ss z), key, by rw [e2], V', a1, a2, a3, e1, rfl, rfl, ?_⟩
  have J : ∀ y : Int, Valid y 1 1 := fun y => ⟨by omega, by omega, by omega, by have := monthLen_pos y 1; omega⟩
  have c := timeToBCE_correct (n := n) (m := m) (d := d) (secOf hh mi ss - z.offset)
  rw [timeYear_iff] at c
  rw [dayCount_eq hf V, dayCount_eq hf Vp, dayCount_eq hf (J n), dayCount_eq hf (J (n + 1))]
  have el : localTime n m d hh mi ss z = unixDay n m d * 86400 + (secOf hh mi ss - z.offset) := by unfold localTime; omega
  rw [el]
  have es : secOf hh mi ss = 3600 * hh + 60 * mi + ss := by unfold secOf; omega
  rw [es] at c ⊢
  constructor
  · intro h
    have := c.1 (by omega)
    omega
  · intro h
    have := c.2 (by omega)
    omega

/-- "-0044-03-15T12:00:00+05:30" stays within its year. -/
example : Valid (-(44 : Nat) : Int) 3 15 ∧ (Zone.full false 5 30).ok ∧
    86400 * U (44 : Nat) 1 1 ≤ 86400 * U (44 : Nat) 3 15 + (3600 * 12 + 60 * 0 + 0) - (Zone.full false 5 30).offset ∧
    86400 * U (44 : Nat) 3 15 + (3600 * 12 + 60 * 0 + 0) - (Zone.full false 5 30).offset < 86400 * U ((44 : Nat) + 1) 1 1 := by
  decide +kernel

/-- C07 fails when the offset crosses a year boundary: the first second of year
-1 at UTC+1, which is the last hour of year -2, is reported as the last hour of
year 0. -/
theorem C07_negation (hf : DayCount f) :
    ∃ r, parseString (c! "-0001-01-01T00:00:00+01") = .ok r ∧ r.lower = .ok (86400 * f 0 12 31 + 82800) ∧
      86400 * f 0 12 31 + 82800 ≠ 86400 * f (-1) 1 1 - 3600 := by
  rw [dayCount_eq hf (show Valid 0 12 31 by decide), dayCount_eq hf (show Valid (-1) 1 1 by decide)]
  exact ⟨_, rfl, by decide +kernel, by decide +kernel⟩

end EDTF
