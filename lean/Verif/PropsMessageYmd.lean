/-
Property C85: what the errors of the helpers for years, months, days and instants say, for all
arguments.
-/
import Verif.LemmasMessageYmd
namespace EDTF
open Spec Told
variable {f : Int → Nat → Nat → Int}

/-! ### General -/

theorem complains_plain {α : Type} {x : Told α} (hx : x.Fair) (hk : ∀ e, x.forget = .err e → e = .plain) (w : Str) : Complains x w ↔ x = .says w := by
  rw [complains_iff hx (fun e h => .inl (hk e h))]
  constructor
  · rintro (⟨e, h, ht⟩ | h)
    · rw [hk e h] at ht; cases ht
    · exact h
  · exact .inr

theorem complains_unique {α : Type} {x : Told α} {v w : Str} (h : Complains x v) (k : Complains x w) : v = w := by
  obtain ⟨e, rfl, rfl⟩ := h
  obtain ⟨e', k, rfl⟩ := k
  injection k with k
  rw [k]

theorem complains_of_says {α : Type} {x : Told α} {w : Str} (h : x = .says w) : Complains x w := ⟨_, h, rfl⟩

theorem complains_forget {α : Type} {x : Told α} {w : Str} (h : Complains x w) : ∃ e, x.forget = .err e := by
  obtain ⟨e, rfl, -⟩ := h
  exact ⟨_, rfl⟩

/-! ### Days of a month -/

/-- C85: what DaysInMonth says. -/
theorem C85_days {y m : Int} (h1 : -2 ^ 63 ≤ y) (h2 : y < 2 ^ 63) (w : Str) : Complains (daysInMonthM y m) w ↔ DaysComplaint y m w := by
  rw [complains_plain (daysInMonthM_fair y m), days_says_iff h1 h2]
  intro e h
  rw [daysInMonthM_forget] at h
  cases (C69_days h1 h2 _).1 h
  rfl

theorem days_texts_say (a b w : Str) : Complains (do let y ← atoiM a; let m ← atoiM b; daysInMonthM y m) w ↔ DaysTextsSay a b w := by
  rcases atoiM_cases a with ⟨y, hy, ey⟩ | ⟨v, hv, ev⟩
  · rw [ey, ok_bindM]
    rcases atoiM_cases b with ⟨m, hm, em⟩ | ⟨v, hv, ev⟩
    · rw [em, ok_bindM, C85_days hy.2.1 hy.2.2]
      constructor
      · exact .days y m hy hm w
      · intro h
        cases h with
        | year w h => rw [noInt_iff, ey] at h; cases h
        | month y hy w h => rw [noInt_iff, em] at h; cases h
        | days y' m' hy' hm' w h => rw [intText_unique hy hy', intText_unique hm hm']; exact h
    · rw [ev]
      show Complains (.says v) w ↔ _
      rw [complains_says]
      constructor
      · rintro rfl; exact .month y hy w hv
      · intro h
        cases h with
        | year w h => rw [noInt_iff, ey] at h; cases h
        | month y hy w h =>
          rw [noInt_iff, ev] at h; injection h with h; injection h with _ h; exact h.symm
        | days y' m' hy' hm' w h => rw [← atoiM_int, ev] at hm'; cases hm'
  · rw [ev]
    show Complains (.says v) w ↔ _
    rw [complains_says]
    constructor
    · rintro rfl; exact .year w hv
    · intro h
      cases h with
      | year w h => rw [noInt_iff, ev] at h; injection h with h; injection h with _ h; exact h.symm
      | month y hy w h => rw [← atoiM_int, ev] at hy; cases hy
      | days y' m' hy' hm' w h => rw [← atoiM_int, ev] at hy'; cases hy'

/-- C85: what DaysInMonthWithString says. -/
theorem C85_days_text (s w : Str) : Complains (daysInMonthWithStringM s) w ↔ DaysTextSays s w := by
  unfold daysInMonthWithStringM
  have hp := (pieces_iff s (splitChar '-' s)).1 rfl
  have uniq : ∀ {ps}, DashPieces s ps → ps = splitChar '-' s := fun h => ((pieces_iff s _).2 h).symm
  have other : splitChar '-' s ≠ [] → (splitChar '-' s).length ≠ 2 → (splitChar '-' s).length ≠ 3 →
      (w = c! "Invalid YYYYMM string" ↔ DaysTextSays s w) := by
    intro h0 h2 h3
    constructor
    · rintro rfl; exact .error _ hp h2 h3
    · intro h
      cases h with
      | two a b h => rw [← uniq h] at h2; exact absurd rfl h2
      | three a b c h => rw [← uniq h] at h3; exact absurd rfl h3
      | error ps h => rfl
  simp only
  match e : splitChar '-' s with
  | [] => exact absurd e (splitChar_ne_nil _ _)
  | [a] => rw [complains_says]; exact other (by rw [e]; simp) (by rw [e]; simp) (by rw [e]; simp)
  | [a, b] =>
    simp only
    rw [days_texts_say]
    constructor
    · exact .two a b (e ▸ hp) w
    · intro h
      cases h with
      | two a' b' h w hw => have := (uniq h).trans e; injection this with e1 this; injection this with e2 _; subst e1 e2; exact hw
      | three a' b' c' h => have := (uniq h).trans e; simp at this
      | error ps h h2 h3 => rw [uniq h, e] at h2; exact absurd rfl h2
  | [a, b, c] =>
    simp only
    rw [days_texts_say]
    constructor
    · exact .three a b c (e ▸ hp) w
    · intro h
      cases h with
      | two a' b' h => have := (uniq h).trans e; simp at this
      | three a' b' c' h w hw =>
        have := (uniq h).trans e; injection this with e1 this; injection this with e2 this; injection this with e3 _; subst e1 e2 e3; exact hw
      | error ps h h2 h3 => rw [uniq h, e] at h3; exact absurd rfl h3
  | a :: b :: c :: d :: l => rw [complains_says]; exact other (by rw [e]; simp) (by rw [e]; simp) (by rw [e]; simp)

example : DaysComplaint (-12345) 11 (c! "parsing time \"12345-12-01\" as \"2006-01-02\": cannot parse \"5-12-01\" as \"-\"") :=
  (C85_days (by decide) (by decide) _).1 ⟨.says _, by decide +kernel, rfl⟩
example : DaysTextSays (c! "1985-x\ty") (c! "strconv.Atoi: parsing \"x\\ty\": invalid syntax") :=
  (C85_days_text _ _).1 ⟨.says _, by decide +kernel, rfl⟩
example : DaysTextSays (c! "99999999999999999999999-4") (c! "strconv.Atoi: parsing \"99999999999999999999999\": value out of range") :=
  (C85_days_text _ _).1 ⟨.says _, by decide +kernel, rfl⟩

/-! ### Year, month and day -/

theorem partM_ok {t : Str} {v : Int} (h : PartText t v) : atoiOrZeroM t = .ok v := by
  unfold atoiOrZeroM
  rcases h with ⟨rfl, rfl⟩ | h
  · rfl
  · rw [if_pos (intText_ne h)]; exact atoiM_int.2 h

theorem ymd_bodyM {a b c : Str} {y m d : Int} (h : YmdTexts a b c y m d) :
    ymdFromStringsM a b c =
      (let z := if y < 0 then flipYear y else y
       if z > MAX_YEARS then .fault (.known (Unsupported (c! "year") (itoa z)))
       else if m = 0 ∧ d ≠ 0 then .says (c! "Missing month")
       else if m > 12 then .says (c! "Invalid month")
       else (daysInMonthM z (if m = 0 then 1 else m)) >>= (fun n =>
         if d ≠ 0 ∧ d > n then .says (c! "Invalid days for month")
         else .ok ⟨if y < 0 then flipYear z else z, if m = 0 then 1 else m, if d = 0 then n else d⟩)) := by
  obtain ⟨ha, hb, hc, h0⟩ := h
  unfold ymdFromStringsM
  rw [if_neg (intText_ne ha), if_neg (fun k => k.2 (h0 k.1))]
  simp only [atoiM_int.2 ha, partM_ok hb, partM_ok hc, ok_bindM, decide_eq_true_eq]

theorem complaint_natAbs {y m : Int} {w : Str} (hl : y ≠ -2 ^ 63) : DaysComplaint y m w ↔ DaysComplaint (y.natAbs : Int) m w := by
  have hn : (y.natAbs : Int) ≠ -2 ^ 63 := by omega
  constructor
  · intro h
    cases h with
    | year hy hm => exact .year hy hn
    | least hy => exact absurd hy hl
    | zero hy h => exact .zero hy h
    | negative hy h => exact .negative hy h
  · intro h
    cases h with
    | year hy hm => exact .year (by omega) hl
    | least hy => exact absurd hy hn
    | zero hy h => exact .zero hy h
    | negative hy h => exact .negative hy h

/-- The year as DaysInMonth gets it. -/
theorem flipped {y : Int} (h1 : -2 ^ 63 ≤ y) (h2 : y < 2 ^ 63) :
    (if y < 0 then flipYear y else y) = if y = -2 ^ 63 then y else (y.natAbs : Int) := by
  by_cases hl : y = -2 ^ 63
  · subst hl; decide
  · rw [if_neg hl]
    split
    · rw [flip_eq h1 h2 hl]; omega
    · omega

theorem ymd_says {a b c w : Str} (h : YmdSays a b c w) : Complains (ymdFromStringsM a b c) w := by
  cases h with
  | noYear h => unfold ymdFromStringsM; rw [if_pos h, complains_says]
  | noMonth h hb hc => unfold ymdFromStringsM; rw [if_neg h, if_pos ⟨hb, hc⟩, complains_says]
  | year h hb w hw =>
    unfold ymdFromStringsM
    rw [if_neg h, if_neg (fun k => k.2 (hb k.1)), (noInt_iff a w).1 hw]
    exact complains_says.2 rfl
  | month y hy h w hw =>
    apply complains_of_says
    exact ymdM_month (intText_ne hy) h (atoiM_int.2 hy) ((noInt_iff b w).1 hw)
  | day y m hy hm h w hw =>
    apply complains_of_says
    exact ymdM_day (intText_ne hy) (intText_ne hm) h (atoiM_int.2 hy) (atoiM_int.2 hm) ((noInt_iff c w).1 hw)
  | large y m d h hy hl =>
    rw [ymd_bodyM h]
    simp only
    rw [flipped h.1.2.1 h.1.2.2, if_neg hl, if_pos (by unfold MAX_YEARS; omega), complains_known, itoa_digits]
    simp [Unsupported, Err.text, quotedWith]
  | zeroMonth y d h hy hd =>
    rw [ymd_bodyM h]
    simp only
    rw [flipped h.1.2.1 h.1.2.2, if_neg (by unfold MAX_YEARS; split <;> omega), if_pos ⟨trivial, hd⟩, complains_says]
  | highMonth y m d h hy hm =>
    rw [ymd_bodyM h]
    simp only
    rw [flipped h.1.2.1 h.1.2.2, if_neg (by unfold MAX_YEARS; split <;> omega), if_neg (by omega), if_pos hm, complains_says]
  | days y m d h hy hm h0 w hw =>
    rw [ymd_bodyM h]
    simp only
    rw [flipped h.1.2.1 h.1.2.2, if_neg (by unfold MAX_YEARS; split <;> omega), if_neg (by omega), if_neg (by omega)]
    have hd : daysInMonthM (if y = -2 ^ 63 then y else (y.natAbs : Int)) (if m = 0 then 1 else m) = .says w := by
      by_cases hl : y = -2 ^ 63
      · rw [if_pos hl]; exact days_says h.1.2.1 h.1.2.2 hw
      · rw [if_neg hl]; exact days_says (by omega) (by omega) ((complaint_natAbs hl).1 hw)
    rw [hd]
    exact complains_says.2 rfl
  | highDay y m d h hy h1 h2 hd =>
    have hl : y ≠ -2 ^ 63 := by omega
    rw [ymd_bodyM h]
    simp only
    rw [flipped h.1.2.1 h.1.2.2, if_neg hl, if_neg (by unfold MAX_YEARS; omega), if_neg (by omega), if_neg (by omega), if_neg (by omega)]
    have hdm : daysInMonthM (y.natAbs : Int) m = .ok (monthLen y m : Int) := by
      apply forget_ok.1
      rw [daysInMonthM_forget, daysInMonth_nonneg (by omega) h1 h2, monthLen_natAbs]
    rw [hdm, ok_bindM, if_pos ⟨by omega, hd⟩, complains_says]

/-- Three texts give a date or a complaint. -/
theorem ymd_says_total (a b c : Str) : (∃ v, YmdReads a b c v) ∨ ∃ w, YmdSays a b c w := by
  by_cases ha : a = []
  · exact .inr ⟨_, .noYear ha⟩
  by_cases hbc : b = [] ∧ c ≠ []
  · exact .inr ⟨_, .noMonth ha hbc.1 hbc.2⟩
  have hbc' : b = [] → c = [] := fun hb => Classical.byContradiction fun hc => hbc ⟨hb, hc⟩
  rcases atoiM_cases a with ⟨y, hy, -⟩ | ⟨w, hw, -⟩
  rotate_left
  · exact .inr ⟨_, .year ha hbc' w hw⟩
  have pb : (∃ m, PartText b m) ∨ ∃ w, YmdSays a b c w := by
    by_cases hb : b = []
    · exact .inl ⟨0, .inl ⟨hb, rfl⟩⟩
    · rcases atoiM_cases b with ⟨m, hm, -⟩ | ⟨w, hw, -⟩
      · exact .inl ⟨m, .inr hm⟩
      · exact .inr ⟨_, .month y hy hb w hw⟩
  rcases pb with ⟨m, hm⟩ | h
  rotate_left
  · exact .inr h
  have pc : (∃ d, PartText c d) ∨ ∃ w, YmdSays a b c w := by
    by_cases hc : c = []
    · exact .inl ⟨0, .inl ⟨hc, rfl⟩⟩
    · rcases atoiM_cases c with ⟨d, hd, -⟩ | ⟨w, hw, -⟩
      · exact .inl ⟨d, .inr hd⟩
      · rcases hm with ⟨hb, -⟩ | hm
        · exact absurd (hbc' hb) hc
        · exact .inr ⟨_, .day y m hy hm hc w hw⟩
  rcases pc with ⟨d, hd⟩ | h
  rotate_left
  · exact .inr h
  have h : YmdTexts a b c y m d := ⟨hy, hm, hd, hbc'⟩
  by_cases hL : 9999 < y.natAbs ∧ y ≠ -2 ^ 63
  · exact .inr ⟨_, .large y m d h hL.1 hL.2⟩
  have hy' : y.natAbs ≤ 9999 ∨ y = -2 ^ 63 := by omega
  by_cases h0 : m = 0 ∧ d ≠ 0
  · obtain ⟨rfl, h0⟩ := h0
    exact .inr ⟨_, .zeroMonth y d h hy' h0⟩
  by_cases h12 : 12 < m
  · exact .inr ⟨_, .highMonth y m d h hy' h12⟩
  by_cases hc : 9999 < y.natAbs ∨ (if m = 0 then 1 else m) < 0
  · obtain ⟨w, hw⟩ := days_complaint_exists hc
    exact .inr ⟨_, .days y m d h hy' (by omega) (by omega) w hw⟩
  have hy9 : y.natAbs ≤ 9999 := by omega
  by_cases m0 : m = 0
  · obtain rfl : d = 0 := by omega
    subst m0
    exact .inl ⟨_, .noMonth y h hy9⟩
  · rw [if_neg m0] at hc
    obtain ⟨k, rfl⟩ : ∃ k : Nat, m = k := ⟨m.toNat, by omega⟩
    by_cases d0 : d = 0
    · subst d0
      exact .inl ⟨_, .noDay y k h hy9 (by omega) (by omega)⟩
    · by_cases hd : (monthLen y k : Int) < d
      · exact .inr ⟨_, .highDay y k d h hy9 (by omega) (by omega) hd⟩
      · exact .inl ⟨_, .day y k d h hy9 (by omega) (by omega) d0 (by omega)⟩

/-- C85: what YMDFromStrings says. -/
theorem C85_ymd (a b c w : Str) : Complains (ymdFromStringsM a b c) w ↔ YmdSays a b c w := by
  refine ⟨fun h => ?_, ymd_says⟩
  rcases ymd_says_total a b c with ⟨v, hv⟩ | ⟨u, hu⟩
  · obtain ⟨e, he⟩ := complains_forget h
    rw [ymdFromStringsM_forget, (C69_ymd a b c _).2 (.read v hv)] at he
    cases he
  · rw [complains_unique h (ymd_says hu)]; exact hu

/-- C85: the same for a record. -/
theorem C85_ymd_record (d : StringDate) (w : Str) : Complains (ymdFromStringDateM d) w ↔ YmdSays d.year d.month d.day w := C85_ymd _ _ _ w

/-- C85: what YMDFromString says. -/
theorem C85_ymd_text (s w : Str) : Complains (ymdFromStringM s) w ↔ YmdTextSays s w := by
  unfold ymdFromStringM
  have hp := (pieces_iff s (splitChar '-' s)).1 rfl
  have uniq : ∀ {ps}, DashPieces s ps → ps = splitChar '-' s := fun h => ((pieces_iff s _).2 h).symm
  match e : splitChar '-' s with
  | [] => exact absurd e (splitChar_ne_nil _ _)
  | [a] =>
    simp only
    rw [C85_ymd]
    refine ⟨.one a (e ▸ hp) w, fun h => ?_⟩
    cases h with
    | one a' h w hw => have := (uniq h).trans e; injection this with e1 _; subst e1; exact hw
    | two _ _ h => have := (uniq h).trans e; simp at this
    | three _ _ _ h => have := (uniq h).trans e; simp at this
    | four _ _ _ _ h => have := (uniq h).trans e; simp at this
    | error ps h hl => rw [uniq h, e] at hl; simp at hl
  | [a, b] =>
    simp only
    rw [C85_ymd]
    refine ⟨.two a b (e ▸ hp) w, fun h => ?_⟩
    cases h with
    | one _ h => have := (uniq h).trans e; simp at this
    | two a' b' h w hw => have := (uniq h).trans e; injection this with e1 this; injection this with e2 _; subst e1 e2; exact hw
    | three _ _ _ h => have := (uniq h).trans e; simp at this
    | four _ _ _ _ h => have := (uniq h).trans e; simp at this
    | error ps h hl => rw [uniq h, e] at hl; simp at hl
  | [a, b, c] =>
    simp only
    rw [C85_ymd]
    refine ⟨.three a b c (e ▸ hp) w, fun h => ?_⟩
    cases h with
    | one _ h => have := (uniq h).trans e; simp at this
    | two _ _ h => have := (uniq h).trans e; simp at this
    | three a' b' c' h w hw =>
      have := (uniq h).trans e; injection this with e1 this; injection this with e2 this; injection this with e3 _; subst e1 e2 e3; exact hw
    | four _ _ _ _ h => have := (uniq h).trans e; simp at this
    | error ps h hl => rw [uniq h, e] at hl; simp at hl
  | [a, b, c, d] =>
    simp only
    rw [C85_ymd]
    refine ⟨.four a b c d (e ▸ hp) w, fun h => ?_⟩
    cases h with
    | one _ h => have := (uniq h).trans e; simp at this
    | two _ _ h => have := (uniq h).trans e; simp at this
    | three _ _ _ h => have := (uniq h).trans e; simp at this
    | four a' b' c' d' h w hw =>
      have := (uniq h).trans e
      injection this with e1 this; injection this with e2 this; injection this with e3 this; injection this with e4 _
      subst e1 e2 e3 e4; exact hw
    | error ps h hl => rw [uniq h, e] at hl; simp at hl
  | a :: b :: c :: d :: g :: l =>
    simp only
    rw [complains_says]
    constructor
    · rintro rfl; exact .error _ (e ▸ hp) (by simp)
    · intro h
      cases h with
      | one _ h => have := (uniq h).trans e; simp at this
      | two _ _ h => have := (uniq h).trans e; simp at this
      | three _ _ _ h => have := (uniq h).trans e; simp at this
      | four _ _ _ _ h => have := (uniq h).trans e; simp at this
      | error => rfl

example : YmdTextSays (c! "2021-00-05") (c! "Missing month") := (C85_ymd_text _ _).1 ⟨.says _, by decide +kernel, rfl⟩
example : YmdSays (c! "-9223372036854775808") (c! "2") [] (c! "parsing time \"-9223372036854775808-03-01\" as \"2006-01-02\": cannot parse \"-9223372036854775808-03-01\" as \"2006\"") :=
  (C85_ymd _ _ _ _).1 ⟨.says _, by decide +kernel, rfl⟩
example : YmdSays (c! "2021") (c! "-5") (c! "1") (c! "parsing time \"2021--4-01\" as \"2006-01-02\": cannot parse \"-4-01\" as \"01\"") :=
  (C85_ymd _ _ _ _).1 ⟨.says _, by decide +kernel, rfl⟩

/-! ### Ranges -/

/-- C85: what StringRangeFromYMD says: a plain error says the same as that of the date. -/
theorem C85_range (s w : Str) : Complains (stringRangeFromYMDM s) w ↔
    (∃ e, RangeFails s e ∧ KnownText e w) ∨ (RangeFails s .plain ∧ DateText s w) := by
  have hd : ∀ {t}, stringRangeFromYMDM s = .says t → DateText s t := by
    intro t h
    apply date_says_iff.1
    unfold dateSpanFromYMDM
    rw [h]
    rfl
  rw [complains_iff (stringRangeFromYMDM_fair s) (fun e h => by
    rw [stringRangeFromYMDM_forget, C70_error] at h
    cases h with
    | form => exact .inr ⟨_, .invalid _ _⟩
    | millennium => exact .inr ⟨_, .notImplemented _ _⟩
    | negative => exact .inl rfl
    | zeroX => exact .inr ⟨_, .invalid _ _⟩
    | last => exact .inl rfl)]
  simp only [stringRangeFromYMDM_forget, C70_error]
  constructor
  · rintro (h | h)
    · exact .inl h
    · refine .inr ⟨?_, hd h⟩
      rw [← C70_error, ← stringRangeFromYMDM_forget]
      exact forget_says h
  · rintro (h | ⟨h, ht⟩)
    · exact .inl h
    · rw [← C70_error, ← stringRangeFromYMDM_forget] at h
      obtain ⟨t, e⟩ := plain_says h
      rw [dateText_unique ht (hd e)]
      exact .inr e

example : Complains (stringRangeFromYMDM (c! "1X85-XX")) (c! "strconv.Atoi: parsing \"1X85\": invalid syntax") := ⟨.says _, by decide +kernel, rfl⟩


/-! ### Instants -/

/-- The element of a layout for a part. -/
def tokOf : TimePart → Tok
  | .sep c => .lit c
  | .year => .year4
  | .month => .mon2
  | .day => .day2
  | .hour => .hour2
  | .minute => .min2
  | .second => .sec2

/-- The number of a part among the fields. -/
def setPart : TimePart → Nat → Fields → Fields
  | .sep _, _, f => f
  | .year, n, f => { f with year := n }
  | .month, n, f => { f with month := n }
  | .day, n, f => { f with day := n }
  | .hour, n, f => { f with hour := n }
  | .minute, n, f => { f with min := n }
  | .second, n, f => { f with sec := n }

theorem sign_text (p : TimePart) : (tokOf p).text = p.sign := by cases p <;> rfl

theorem noDigitNext_iff {s : Str} : NoDigitNext s ↔ ∀ c rest, s = c :: rest → isDig c = false := by
  constructor
  · intro h c rest e
    cases hc : isDig c with
    | false => rfl
    | true =>
      obtain ⟨k, hk, rfl⟩ := (isDig_iff c).1 hc
      exact absurd e (h k rest hk)
  · intro h d rest hd e
    have := h _ _ e
    rw [isDig_dig_lt d hd] at this; cases this

theorem dropWhile_noDigit (s : Str) : NoDigitNext (s.dropWhile isDig) := by
  rw [noDigitNext_iff]
  induction s with
  | nil => intro c rest h; cases h
  | cons a s ih =>
    intro c rest h
    rw [List.dropWhile_cons] at h
    split at h
    · exact ih c rest h
    · rename_i ha
      injection h with h _
      rw [← h]; simpa using ha

theorem dropWhile_digits {z rest : Str} (hz : z.all isDig = true) (hr : NoDigitNext rest) : (z ++ rest).dropWhile isDig = rest := by
  induction z with
  | nil =>
    rcases rest with _ | ⟨c, r⟩
    · rfl
    · rw [List.nil_append, List.dropWhile_cons, noDigitNext_iff.1 hr c r rfl]; rfl
  | cons a z ih =>
    rw [List.all_cons, Bool.and_eq_true] at hz
    rw [List.cons_append, List.dropWhile_cons, hz.1]
    exact ih hz.2

theorem fraction_iff (t rest : Str) : FractionThen t rest ↔ dropFraction t = rest := by
  constructor
  · intro h
    cases h with
    | none rest h =>
      unfold dropFraction
      split
      · rename_i c d r
        split
        · rename_i k
          obtain ⟨n, hn, rfl⟩ := (isDig_iff d).1 k.2
          exact absurd rfl (h c n r k.1 hn)
        · rfl
      · rfl
    | some c hc ds hd rest hr =>
      rcases ds with _ | ⟨d, ds⟩
      · exact absurd rfl hd.1
      · rw [List.map_cons, List.cons_append, dropFraction, if_pos ⟨hc, isDig_dig_lt d (hd.2 d (by simp))⟩]
        exact dropWhile_digits (all_dig fun x hx => hd.2 x (by simp [hx])) hr
  · rintro rfl
    unfold dropFraction
    split
    · rename_i c d r
      split
      · rename_i k
        have h1 : (d :: r.takeWhile isDig).all isDig = true := by rw [List.all_cons, k.2, List.all_takeWhile]; rfl
        obtain ⟨ds, hd, e⟩ := digits_map h1
        have := FractionThen.some c k.1 ds ⟨(by intro k; rw [k] at e; cases e), hd⟩ (r.dropWhile isDig) (dropWhile_noDigit r)
        rw [← e, List.cons_append, List.takeWhile_append_dropWhile] at this
        exact this
      · rename_i k
        refine .none _ ?_
        intro c' d' t hc hd e
        injection e with e1 e; injection e with e2 _
        exact k ⟨e1 ▸ hc, by rw [e2]; exact isDig_dig_lt d' hd⟩
    · rename_i k
      refine .none _ ?_
      intro c d t hc hd e
      exact k c (dig d) t e

theorem getnum_one {n : Nat} (h : n < 10) {rest : Str} (hr : NoDigitNext rest) : getnum false (dig n :: rest) = some ((n : Int), rest) := by
  have hv : digVal (dig n) = n := by have := digVal_dig n; rwa [Nat.mod_eq_of_lt h] at this
  rcases rest with _ | ⟨b, r⟩
  · simp [getnum, isDig_dig_lt n h, hv]
  · simp [getnum, isDig_dig_lt n h, hv, noDigitNext_iff.1 hr b r rfl]

theorem getnum_free {s rest : Str} {n : Int} (h : getnum false s = some (n, rest)) :
    ∃ k : Nat, n = k ∧ ((k < 100 ∧ s = pad2 k ++ rest) ∨ (k < 10 ∧ s = dig k :: rest ∧ NoDigitNext rest)) := by
  rcases s with _ | ⟨a, _ | ⟨b, s⟩⟩
  · simp [getnum] at h
  · obtain ⟨k, h1, h2⟩ := getnum_inv' h
    refine ⟨k, h1, ?_⟩
    rcases h2 with h2 | h2
    · exact .inl h2
    · refine .inr ⟨h2.1, h2.2, ?_⟩
      injection h2.2 with _ e
      rw [← e]
      intro d r _ k; cases k
  · by_cases ha : isDig a = true
    · by_cases hb : isDig b = true
      · have : getnum true (a :: b :: s) = some (n, rest) := by
          rw [← h]; simp [getnum, ha, hb]
        obtain ⟨k, h1, h2, h3⟩ := getnum_inv this
        exact ⟨k, h3, .inl ⟨h1, h2⟩⟩
      · simp only [getnum, ha, hb, Bool.not_true, Bool.false_eq_true, if_false, Bool.not_false, if_true, Option.some.injEq,
          Prod.mk.injEq] at h
        refine ⟨digVal a, h.1.symm, .inr ⟨digVal_lt ha, by rw [dig_digVal ha, ← h.2], ?_⟩⟩
        rw [← h.2, noDigitNext_iff]
        intro c r e
        injection e with e _
        rw [← e]; simpa using hb
    · simp [getnum, ha] at h

/-- One element is read as the specification has it. -/
theorem tok_takes (p : TimePart) (F G : Fields) (s rest : Str) :
    parseTok (tokOf p) F s = some (G, rest) ↔ ∃ n, Takes p s n rest ∧ G = setPart p n F := by
  constructor
  · intro h
    cases p with
    | sep c => obtain ⟨e, rfl⟩ := lit_inv h; exact ⟨0, .sep c rest, e⟩
    | year => obtain ⟨n, hn, e, rfl⟩ := year4_inv h; exact ⟨n, .year n hn rest, e⟩
    | month => obtain ⟨n, h1, h2, e, rfl⟩ := mon2_inv h; exact ⟨n, .month n h1 h2 rest, e⟩
    | day => obtain ⟨n, hn, e, rfl⟩ := day2_inv h; exact ⟨n, .day n hn rest, e⟩
    | hour =>
      unfold tokOf parseTok at h
      simp only at h
      cases e : getnum false s with
      | none => rw [e] at h; cases h
      | some q =>
        rw [e] at h
        simp only at h
        obtain ⟨k, k3, k2⟩ := getnum_free e
        split at h
        · cases h
        · injection h with h; injection h with h1 h2
          rw [h2] at k2
          rcases k2 with ⟨-, rfl⟩ | ⟨hk, rfl, hr⟩
          · exact ⟨k, .hour k (by omega) rest, by rw [← h1, k3]; rfl⟩
          · exact ⟨k, .hour1 k hk rest hr, by rw [← h1, k3]; rfl⟩
    | minute => obtain ⟨n, hn, e, rfl⟩ := min2_inv h; exact ⟨n, .minute n hn rest, e⟩
    | second =>
      unfold tokOf parseTok at h
      simp only at h
      cases e : getnum true s with
      | none => rw [e] at h; cases h
      | some q =>
        rw [e] at h
        simp only at h
        obtain ⟨k, k1, k2, k3⟩ := getnum_inv e
        split at h
        · cases h
        · injection h with h; injection h with h1 h2
          subst k2
          exact ⟨k, .second k (by omega) q.2 rest ((fraction_iff _ _).2 h2), by rw [← h1, k3]; rfl⟩
  · rintro ⟨n, h, rfl⟩
    cases h with
    | sep c => exact parseTok_lit F c rest
    | year n h rest => exact parseTok_year4 F h rest
    | month n h1 h2 rest => exact parseTok_mon2 F h1 h2 rest
    | day n h rest => exact parseTok_day2 F h rest
    | hour n h rest => exact parseTok_hour2 F h rest
    | hour1 n h rest hr =>
      unfold tokOf
      simp only [parseTok, getnum_one h hr]
      rw [if_neg (by omega)]
      rfl
    | minute n h rest => exact parseTok_min2 F h rest
    | second n h t rest ht =>
      show parseTok .sec2 F _ = _
      rw [parseTok_sec2 F h t, (fraction_iff _ _).1 ht]
      rfl

theorem over_fault {p : TimePart} {s w : Str} (h : Over p s w) (F : Fields) :
    parseTok (tokOf p) F s = none ∧ tokFault (tokOf p) s = outOfRange w := by
  cases h with
  | month n h h2 rest => exact ⟨parseTok_mon2_bad F h h2 rest, by simp [tokOf, tokFault, getnum_pad2 true h2]⟩
  | hour n h h2 rest => exact ⟨parseTok_hour2_bad h2 (by omega) F rest, by simp [tokOf, tokFault, getnum_pad2 false h2]⟩
  | minute n h h2 rest => exact ⟨parseTok_min2_bad h2 (by omega) F rest, by simp [tokOf, tokFault, getnum_pad2 true h2]⟩
  | second n h h2 rest => exact ⟨parseTok_sec2_bad h2 (by omega) F rest, by simp [tokOf, tokFault, getnum_pad2 true h2]⟩

theorem bad_fault {p : TimePart} {s : Str} (h1 : ∀ n rest, ¬ Takes p s n rest) (h2 : ∀ w, ¬ Over p s w) :
    tokFault (tokOf p) s = .bad p.sign s := by
  cases p with
  | sep c => rfl
  | year => rfl
  | day => rfl
  | month =>
    simp only [tokOf, tokFault]
    cases e : getnum true s with
    | none => rfl
    | some q =>
      obtain ⟨k, k1, rfl, k3⟩ := getnum_inv e
      by_cases h : k = 0 ∨ 12 < k
      · exact absurd (.month k h k1 _) (h2 _)
      · exact absurd (.month k (by omega) (by omega) _) (h1 _ _)
  | hour =>
    simp only [tokOf, tokFault]
    cases e : getnum false s with
    | none => rfl
    | some q =>
      obtain ⟨k, k3, ⟨k1, rfl⟩ | ⟨k1, rfl, kr⟩⟩ := getnum_free e
      · by_cases h : 24 ≤ k
        · exact absurd (.hour k h k1 _) (h2 _)
        · exact absurd (.hour k (by omega) _) (h1 _ _)
      · exact absurd (.hour1 k k1 _ kr) (h1 _ _)
  | minute =>
    simp only [tokOf, tokFault]
    cases e : getnum true s with
    | none => rfl
    | some q =>
      obtain ⟨k, k1, rfl, k3⟩ := getnum_inv e
      by_cases h : 60 ≤ k
      · exact absurd (.minute k h k1 _) (h2 _)
      · exact absurd (.minute k (by omega) _) (h1 _ _)
  | second =>
    simp only [tokOf, tokFault]
    cases e : getnum true s with
    | none => rfl
    | some q =>
      obtain ⟨k, k1, rfl, k3⟩ := getnum_inv e
      by_cases h : 60 ≤ k
      · exact absurd (.second k h k1 _) (h2 _)
      · exact absurd (.second k (by omega) _ _ ((fraction_iff _ _).2 rfl)) (h1 _ _)

theorem quote_time (s : Str) : quoteText s = timeQuoted s := by
  unfold quoteText timeQuoted
  congr 3
  funext c
  by_cases h : c = '"' ∨ c = '\\'
  · rw [if_pos h, if_pos h]
  · rw [if_neg h, if_neg h]
    by_cases k : 32 ≤ c.toNat ∧ c.toNat < 128
    · rw [if_pos k, if_neg (by omega)]
    · rw [if_neg k, if_pos (by omega)]
      congr 1
      funext b
      unfold byteText
      rw [← hexByte_eq b.toNat b.toNat_lt]
      congr 2
      simp

/-- The end of an error of package time. -/
def faultTail (layout : Str) : TimeFault → Str
  | .bad elem rest => c! " as " ++ timeQuoted layout ++ c! ": cannot parse " ++ timeQuoted rest ++ c! " as " ++ timeQuoted elem
  | .message m => m

theorem stops_iff (layout : Str) (ps : List TimePart) (F : Fields) (s w : Str) :
    Stops layout ps s w ↔ ∃ e, parseToksM (ps.map tokOf) F s = .inr e ∧ w = faultTail layout e := by
  constructor
  · intro h
    induction h generalizing F with
    | here p ps s h1 h2 =>
      refine ⟨.bad p.sign s, ?_, rfl⟩
      rw [List.map_cons, parseToksM]
      cases e : parseTok (tokOf p) F s with
      | none => simp only; rw [bad_fault h1 h2]
      | some q =>
        obtain ⟨n, hn, -⟩ := (tok_takes p F q.1 s q.2).1 e
        exact absurd hn (h1 _ _)
    | over p ps s w h =>
      refine ⟨outOfRange w, ?_, rfl⟩
      rw [List.map_cons, parseToksM, (over_fault h F).1]
      simp only
      rw [(over_fault h F).2]
    | extra s h =>
      refine ⟨.message (c! ": extra text: " ++ quoteText s), ?_, by rw [quote_time]; rfl⟩
      rw [List.map_nil, parseToksM, if_neg (by simpa using h)]
    | later p ps s rest n h w k ih =>
      obtain ⟨e, he, hw⟩ := ih (setPart p n F)
      refine ⟨e, ?_, hw⟩
      rw [List.map_cons, parseToksM, (tok_takes p F _ s rest).2 ⟨n, h, rfl⟩]
      exact he
  · rintro ⟨e, he, rfl⟩
    induction ps generalizing F s with
    | nil =>
      rw [List.map_nil, parseToksM] at he
      by_cases hs : s = []
      · subst hs; cases he
      · rw [if_neg (by simpa using hs)] at he
        injection he with he
        rw [← he, quote_time]
        exact .extra s hs
    | cons p ps ih =>
      rw [List.map_cons, parseToksM] at he
      cases e' : parseTok (tokOf p) F s with
      | some q =>
        rw [e'] at he
        obtain ⟨n, hn, -⟩ := (tok_takes p F q.1 s q.2).1 e'
        exact .later p ps s q.2 n hn _ (ih _ _ he)
      | none =>
        rw [e'] at he
        simp only at he
        injection he with he
        have h1 : ∀ n rest, ¬ Takes p s n rest := by
          intro n rest h
          rw [(tok_takes p F _ s rest).2 ⟨n, h, rfl⟩] at e'
          cases e'
        by_cases ho : ∃ w, Over p s w
        · obtain ⟨w, ho⟩ := ho
          rw [← he, (over_fault ho F).2]
          exact .over p ps s w ho
        · have h2 : ∀ w, ¬ Over p s w := fun w h => ho ⟨w, h⟩
          rw [← he, bad_fault h1 h2]
          exact .here p ps s h1 h2

/-- The numbers of all parts among the fields. -/
def setParts : List TimePart → List Nat → Fields → Fields
  | p :: ps, n :: ns, f => setParts ps ns (setPart p n f)
  | _, _, f => f

theorem takes_iff (ps : List TimePart) (F G : Fields) (s : Str) :
    parseToksM (ps.map tokOf) F s = .inl G ↔ ∃ ns, TakesAll ps s ns ∧ G = setParts ps ns F := by
  constructor
  · intro h
    induction ps generalizing F s with
    | nil =>
      rw [List.map_nil, parseToksM] at h
      by_cases hs : s = []
      · subst hs
        injection h with h
        exact ⟨[], .nil, h.symm⟩
      · rw [if_neg (by simpa using hs)] at h; cases h
    | cons p ps ih =>
      rw [List.map_cons, parseToksM] at h
      cases e : parseTok (tokOf p) F s with
      | none => rw [e] at h; cases h
      | some q =>
        rw [e] at h
        obtain ⟨n, hn, hq⟩ := (tok_takes p F q.1 s q.2).1 e
        obtain ⟨ns, k, hG⟩ := ih _ _ h
        exact ⟨n :: ns, .cons p ps s q.2 n ns hn k, by rw [hG, hq]; rfl⟩
  · rintro ⟨ns, h, rfl⟩
    induction h generalizing F with
    | nil => rfl
    | cons p ps s rest n ns h k ih =>
      rw [List.map_cons, parseToksM, (tok_takes p F _ s rest).2 ⟨n, h, rfl⟩]
      exact ih _

theorem layout_parts : layoutDateTime = dateTimeParts.map tokOf := rfl

/-- The fields of a date and a time. -/
theorem takes_fields {s : Str} {ns : List Nat} (h : TakesAll dateTimeParts s ns) :
    ∃ y m d : Nat, ∃ ms, ns = y :: 0 :: m :: 0 :: d :: ms ∧ 1 ≤ m ∧ m ≤ 12 ∧
      (setParts dateTimeParts ns {}).year = y ∧ (setParts dateTimeParts ns {}).month = m ∧ (setParts dateTimeParts ns {}).day = d := by
  unfold dateTimeParts at h
  obtain _ | ⟨_, _, _, _, y, _, h1, h⟩ := h
  obtain _ | ⟨_, _, _, _, _, _, h2, h⟩ := h
  obtain _ | ⟨_, _, _, _, m, _, h3, h⟩ := h
  obtain _ | ⟨_, _, _, _, _, _, h4, h⟩ := h
  obtain _ | ⟨_, _, _, _, d, _, h5, h⟩ := h
  obtain _ | ⟨_, _, _, _, _, _, h6, h⟩ := h
  obtain _ | ⟨_, _, _, _, hh, _, h7, h⟩ := h
  obtain _ | ⟨_, _, _, _, _, _, h8, h⟩ := h
  obtain _ | ⟨_, _, _, _, mi, _, h9, h⟩ := h
  obtain _ | ⟨_, _, _, _, _, _, h10, h⟩ := h
  obtain _ | ⟨_, _, _, _, ss, _, h11, h⟩ := h
  cases h
  cases h2
  cases h4
  have hm : 1 ≤ m ∧ m ≤ 12 := by
    cases h3
    rename_i k1 k2
    exact ⟨k1, k2⟩
  exact ⟨y, m, d, _, rfl, hm.1, hm.2, rfl, rfl, rfl⟩

theorem instant_says_iff (s w : Str) : timeParseM layoutDateTime s = .says w ↔ TimeSays s w := by
  have hl : layoutDateTime.flatMap Tok.text = c! "2006-01-02T15:04:05" := by decide
  have ht : ∀ e, timeError layoutDateTime s e = c! "parsing time " ++ timeQuoted s ++ faultTail (c! "2006-01-02T15:04:05") e := by
    intro e
    cases e with
    | bad p r => simp only [timeError, faultTail, quote_time, hl, List.append_assoc]
    | message m => simp only [timeError, faultTail, quote_time, List.append_assoc]
  unfold timeParseM
  cases e : parseToksM layoutDateTime {} s with
  | inr x =>
    simp only
    rw [ht, layout_parts] at *
    constructor
    · intro h
      injection h with h; injection h with _ h
      rw [← h]
      exact .stops _ ((stops_iff _ _ {} _ _).2 ⟨x, e, rfl⟩)
    · intro h
      cases h with
      | stops w h =>
        obtain ⟨x', e', rfl⟩ := (stops_iff _ _ {} _ _).1 h
        rw [e] at e'
        injection e' with e'
        rw [e']
      | day y m d ns h hd =>
        have := (takes_iff dateTimeParts {} _ s).2 ⟨_, h, rfl⟩
        rw [e] at this; cases this
  | inl G =>
    simp only
    rw [layout_parts] at e
    obtain ⟨ns, h, rfl⟩ := (takes_iff _ _ _ _).1 e
    obtain ⟨y, m, d, ms, rfl, hm1, hm2, e1, e2, e3⟩ := takes_fields h
    rw [e1, e2, e3, daysIn_eq _ _ hm1 hm2]
    by_cases hd : d = 0 ∨ monthLen y m < d
    · rw [if_pos (by omega), ht]
      constructor
      · intro k
        injection k with k; injection k with _ k
        rw [← k]
        exact .day y m d ms h hd
      · intro k
        cases k with
        | stops w k =>
          obtain ⟨x', e', rfl⟩ := (stops_iff _ _ {} _ _).1 k
          rw [e] at e'; cases e'
        | day => rfl
    · rw [if_neg (by omega)]
      constructor
      · intro k; cases k
      · intro k
        cases k with
        | stops w k =>
          obtain ⟨x', e', rfl⟩ := (stops_iff _ _ {} _ _).1 k
          rw [e] at e'; cases e'
        | day y' m' d' ns' k hd' =>
          have e' := (takes_iff dateTimeParts {} _ s).2 ⟨_, k, rfl⟩
          rw [e] at e'
          injection e' with e'
          obtain ⟨y2, m2, d2, ms2, en, -, -, f1, f2, f3⟩ := takes_fields k
          injection en with n1 en; injection en with _ en; injection en with n2 en; injection en with _ en; injection en with n3 _
          rw [← e', e1] at f1
          rw [← e', e2] at f2
          rw [← e', e3] at f3
          have a1 : y = y' := by omega
          have a2 : m = m' := by omega
          have a3 : d = d' := by omega
          subst a1 a2 a3
          exact absurd hd' hd

/-- C85: what TimeWithYMD says. -/
theorem C85_instant {v : YMD} (h1 : -2 ^ 63 ≤ v.year) (h2 : v.year < 2 ^ 63) (t w : Str) :
    Complains (timeWithYMDM v t) w ↔ TimeSays (instantText v t) w := by
  rw [complains_plain (timeWithYMDM_fair v t) (fun e h => by rw [timeWithYMDM_forget] at h; exact timeWithYMD_errs v t e h),
    ← instant_says_iff]
  have hp : padInt 4 (if v.year < 0 then flipYear v.year else v.year) =
      if v.year = -2 ^ 63 then c! "-9223372036854775808" else fourText v.year.natAbs := by
    rw [flipped h1 h2]
    by_cases hl : v.year = -2 ^ 63
    · rw [if_pos hl, if_pos hl, hl]; decide
    · rw [if_neg hl, if_neg hl, padInt_four]
  have ht : padInt 4 (if v.year < 0 then flipYear v.year else v.year) ++ c! "-" ++ padInt 2 v.month ++ c! "-" ++ padInt 2 v.day ++ c! "T" ++ t = instantText v t := by
    rw [hp, padInt_two, padInt_two]
    unfold instantText
    simp
  unfold timeWithYMDM
  simp only [decide_eq_true_eq]
  rw [ht]
  cases timeParseM layoutDateTime (instantText v t) with
  | ok n => constructor <;> (intro h; cases h)
  | fault e => exact Iff.rfl
  | panic => constructor <;> (intro h; cases h)

example : ∃ w, Complains (timeWithYMDM ⟨1985, 2, 29⟩ (c! "00:00:00")) w ∧ c! "parsing time \"1985-02-29T00:00:00" <+: w := ⟨_, ⟨_, rfl, rfl⟩, by decide +kernel⟩

/-- C85: what TimeWithYMDString says. -/
theorem C85_instant_text (a b c t w : Str) : Complains (timeWithYMDStringM a b c t) w ↔ InstantSays a b c t w := by
  unfold timeWithYMDStringM
  have key := C85_ymd a b c
  rcases ymd_says_total a b c with ⟨v, hv⟩ | ⟨u, hu⟩
  · have hok : ymdFromStringsM a b c = .ok v := forget_ok.1 (by rw [ymdFromStringsM_forget]; exact (C69_ymd a b c _).2 (.read v hv))
    have hy : -2 ^ 63 ≤ v.year ∧ v.year < 2 ^ 63 := by
      cases hv with
      | noMonth y h => exact ⟨h.1.2.1, h.1.2.2⟩
      | noDay y m h => exact ⟨h.1.2.1, h.1.2.2⟩
      | day y m d h => exact ⟨h.1.2.1, h.1.2.2⟩
    rw [hok, ok_bindM, C85_instant hy.1 hy.2]
    constructor
    · exact .time v hv w
    · intro h
      cases h with
      | date w h =>
        have := (key w).2 h
        rw [hok] at this
        obtain ⟨e, he, -⟩ := this; cases he
      | time v' hv' w hw =>
        have : ymdFromStringsM a b c = .ok v' := forget_ok.1 (by rw [ymdFromStringsM_forget]; exact (C69_ymd a b c _).2 (.read v' hv'))
        rw [hok] at this
        injection this with this
        rw [this]; exact hw
  · have hc := (key u).2 hu
    obtain ⟨e, he, hw⟩ := id hc
    have hb : Complains (do let v ← ymdFromStringsM a b c; timeWithYMDM v t) w ↔ Complains (ymdFromStringsM a b c) w := by
      rw [he]
      constructor <;> exact fun ⟨e', h, k⟩ => ⟨e, rfl, by injection h with h; rw [h]; exact k⟩
    rw [hb, key]
    constructor
    · exact .date w
    · intro h
      cases h with
      | date w h => exact h
      | time v' hv' =>
        have : ymdFromStringsM a b c = .ok v' := forget_ok.1 (by rw [ymdFromStringsM_forget]; exact (C69_ymd a b c _).2 (.read v' hv'))
        rw [he] at this; cases this

example : TimeSays (c! "2021-02-30T5:06:07,89") (c! "parsing time \"2021-02-30T5:06:07,89\": day out of range") :=
  (instant_says_iff _ _).1 (by decide +kernel)
example : InstantSays (c! "2021") (c! "02") (c! "03") (c! "25:00:00") (c! "parsing time \"2021-02-03T25:00:00\": hour out of range") :=
  (C85_instant_text _ _ _ _ _).1 ⟨.says _, by decide +kernel, rfl⟩
example : InstantSays (c! "2021") (c! "02") [] (c! "12:3é") (c! "parsing time \"2021-02-28T12:3\\xc3\\xa9\" as \"2006-01-02T15:04:05\": cannot parse \"3\\xc3\\xa9\" as \"04\"") :=
  (C85_instant_text _ _ _ _ _).1 ⟨.says _, by decide +kernel, rfl⟩

/-- C85: without their texts the results are those of C69. -/
theorem C85_forget (d : StringDate) (a b c t : Str) :
    (ymdFromStringDateM d).forget = ymdFromStringDate d ∧ (timeWithYMDStringM a b c t).forget = timeWithYMDString a b c t := by
  refine ⟨ymdFromStringsM_forget _ _ _, ?_⟩
  unfold timeWithYMDStringM timeWithYMDString
  rw [forget_bind, ymdFromStringsM_forget]
  simp only [timeWithYMDM_forget]

end EDTF
