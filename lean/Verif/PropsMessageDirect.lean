/-
Property C84: what the errors of the exported parsers and of DateSpanFromEDTF say, on every
string.
-/
import Verif.MessageDirect
import Verif.SpecMessageDirect
import Verif.PropsMessage
import Verif.PropsDirect
namespace EDTF
open Spec Told
variable {f : Int → Nat → Nat → Int}

/-! ### General -/

theorem complains_bind {α β : Type} {x : Told α} {g : α → β} {w : Str} : Complains (x >>= fun a => .ok (g a)) w ↔ Complains x w := by
  cases x with
  | ok a => constructor <;> (rintro ⟨e, h, -⟩; cases h)
  | fault e =>
    constructor
    · rintro ⟨e', h, rfl⟩; injection h with h; subst h; exact ⟨_, rfl, rfl⟩
    · rintro ⟨e', h, rfl⟩; injection h with h; subst h; exact ⟨_, rfl, rfl⟩
  | panic => constructor <;> (rintro ⟨e, h, -⟩; cases h)

theorem complains_known {α : Type} {e : Err} {w : Str} : Complains (.fault (.known e) : Told α) w ↔ w = e.text.getD [] := by
  constructor
  · rintro ⟨e', h, rfl⟩; injection h with h; subst h; rfl
  · rintro rfl; exact ⟨_, rfl, rfl⟩

theorem complains_says {α : Type} {t w : Str} : Complains (.says t : Told α) w ↔ w = t := by
  constructor
  · rintro ⟨e', h, rfl⟩; injection h with h; subst h; rfl
  · rintro rfl; exact ⟨_, rfl, rfl⟩

theorem complains_invalid {α : Type} {l s w : Str} : Complains (.fault (.known (Invalid l s)) : Told α) w ↔ w = invalidText l s := by
  rw [complains_known, show (Invalid l s).text.getD [] = invalidText l s by simp [Invalid, Err.text, quotedWith, invalidText]]

/-- The text of an error is that of its type, or the error is plain. -/
theorem complains_iff {α : Type} {x : Told α} (hx : x.Fair) (hk : ∀ e, x.forget = .err e → e = .plain ∨ ∃ t, KnownText e t) (w : Str) :
    Complains x w ↔ (∃ e, x.forget = .err e ∧ KnownText e w) ∨ x = .says w := by
  constructor
  · rintro ⟨⟨e, u⟩, rfl, rfl⟩
    rcases hk e rfl with rfl | ⟨t, ht⟩
    · exact .inr rfl
    · refine .inl ⟨e, rfl, ?_⟩
      rcases hx _ rfl with k | k
      · simp only at k
        subst k
        cases ht
      · simp only at k
        rw [k, (known_text.1 ht).1]
        exact ht
  · rintro (⟨e, h, ht⟩ | rfl)
    · cases x with
      | ok a => cases h
      | panic => cases h
      | fault g =>
        injection h with h
        refine ⟨g, rfl, ?_⟩
        rcases hx _ rfl with k | k
        · rw [h] at k
          subst k
          cases ht
        · rw [k, h, (known_text.1 ht).1]
          rfl
    · exact ⟨_, rfl, rfl⟩

theorem complains_of_invalid {α : Type} {x : Told α} {l s : Str} (hx : x.Fair) (k : x.forget = .err (.invalid l s)) (w : Str) :
    Complains x w ↔ w = invalidText l s := by
  rw [complains_iff hx (fun e h => by
    rw [k] at h
    injection h with h
    subst h
    exact .inr ⟨_, .invalid _ _⟩)]
  constructor
  · rintro (⟨e, h, ht⟩ | h)
    · rw [k] at h
      injection h with h
      subst h
      cases ht
      rfl
    · have := forget_says h
      rw [k] at this
      cases this
  · rintro rfl
    exact .inl ⟨_, k, .invalid _ _⟩

/-! ### Spans -/

theorem dateFails_known {s : Str} {e : Err} (h : DateFails s e) : e = .plain ∨ ∃ t, KnownText e t := by
  cases h with
  | form => exact .inr ⟨_, .invalid _ _⟩
  | millennium => exact .inr ⟨_, .notImplemented _ _⟩
  | negative => exact .inl rfl
  | zeroX => exact .inr ⟨_, .invalid _ _⟩
  | other => exact .inl rfl

theorem spanFails_known {s : Str} {e : Err} (h : SpanFails s e) : e = .plain ∨ ∃ t, KnownText e t := by
  cases h with
  | one _ _ _ h => exact dateFails_known h
  | left _ _ _ _ _ _ h => exact dateFails_known h
  | right _ _ _ _ _ _ _ h => exact dateFails_known h
  | many => exact .inr ⟨_, .invalid _ _⟩

theorem dateText_noSlash {s t : Str} (h : DateText s t) : '/' ∉ s := dateText_not_mem h (by decide) (by decide) (by decide)

theorem half_text {w t : Str} (h : DateText w t) : halfSpanM w = .says t := by
  unfold halfSpanM
  have h1 : w ≠ UNKNOWN := by rintro rfl; exact dateText_ne h (.inl rfl)
  have h2 : w ≠ OPEN := by rintro rfl; exact dateText_ne h (.inr (.inl rfl))
  rw [if_neg h1, if_neg h2]
  exact date_says_iff.2 h

theorem span_says_iff {s t : Str} : dateSpanFromEDTFM s = .says t ↔ SpanSays s t := by
  constructor
  · intro h
    rcases slash_cases s with k | ⟨a, b, ha, hb, rfl⟩ | ⟨a, b, c, rfl⟩
    · rw [spanM_noSlash k] at h
      exact .one _ _ (date_says_iff.1 h)
    · rcases twoM_says ha hb h with h | ⟨h1, h⟩
      · exact .left _ _ _ hb h
      · exact .right _ _ _ h1 h
    · have k := forget_says h
      rw [dateSpanFromEDTFM_forget, many_err] at k
      cases k
  · intro h
    cases h with
    | one _ _ h => rw [spanM_noSlash (dateText_noSlash h)]; exact date_says_iff.2 h
    | left a b _ hb h => rw [spanM_slash (dateText_noSlash h) hb, half_text h]; rfl
    | right a b _ h1 h =>
      have ha : '/' ∉ a := by
        rcases h1 with rfl | rfl | h1
        · simp
        · decide
        · obtain ⟨S, E, k⟩ := reads_span U h1
          exact spanOf_noSlash k
      rw [spanM_slash ha (dateText_noSlash h)]
      obtain ⟨l, hl⟩ := half_ok.2 h1
      rw [← halfSpanM_forget, forget_ok] at hl
      rw [hl, half_text h]
      rfl

/-- C84: what the error of DateSpanFromEDTF says, for every text. -/
theorem C84_span (s w : Str) : Complains (dateSpanFromEDTFM s) w ↔ SpanErrorText s w := by
  rw [complains_iff (dateSpanFromEDTFM_fair s) (fun e h => by
    rw [dateSpanFromEDTFM_forget, C64_error] at h
    exact spanFails_known h), dateSpanFromEDTFM_forget, span_says_iff]
  simp only [C64_error]
  rfl

example : SpanErrorText (c! "1985-04-31/x") (c! "Invalid days for month") := (C84_span _ _).1 ⟨.says _, by decide +kernel, rfl⟩
example : SpanErrorText (c! "a/b/c") (c! "Invalid EDTF string 'a/b/c' (date span)") :=
  (C84_span _ _).1 ⟨.known (.invalid (c! "date span") (c! "a/b/c")), by decide +kernel, by decide⟩

/-! ### Parsers of the text itself -/

theorem whole_text {P : Str → Told EDTFDate} {test : Str → Bool} {form : Str → Prop} {level : Int} {label : Str}
    (ht : ∀ s, test s = true ↔ form s) (hP : ∀ s, P s = parseWholeM (test s) s level label) : SpanParserText P form label := by
  intro s w
  rw [hP]
  unfold parseWholeM
  by_cases h : form s
  · rw [(ht s).2 h, if_neg (by decide), complains_bind, C84_span]
    simp [h]
  · have : test s = false := by rw [← Bool.not_eq_true, ht]; exact h
    rw [this, if_pos (by decide), complains_invalid]
    simp [h]

/-- C84: the parsers of Level 0 that pass on the string. -/
theorem C84_level0 : SpanParserText L0.parseDateM DateShape (c! "Date") ∧ SpanParserText L0.parseTimeIntervalM PairForm (c! "Time Interval") :=
  ⟨whole_text C58_date fun _ => rfl, whole_text C58_interval fun _ => rfl⟩

/-- C84: those of Level 1. -/
theorem C84_level1 :
    SpanParserText L1.parseQualifiedDateM QualifiedForm (c! "Qualification of a date (complete)") ∧
    SpanParserText L1.parseUnspecifiedDigitsM (UnspecifiedForm (c! "X")) (c! "Unspecified digit(s) from the right") ∧
    SpanParserText L1.parseNegativeCalendarYearM NegativeForm (c! "Negative calendar year") ∧
    SpanParserText L1.parseExtendedIntervalStartM StartForm (c! "Extended Interval (Start)") ∧
    SpanParserText L1.parseExtendedIntervalEndM EndForm (c! "Extended Interval (End)") :=
  ⟨whole_text C59_qualified fun _ => rfl, whole_text C59_unspecified fun _ => rfl, whole_text C59_negative fun _ => rfl,
    whole_text (fun _ => start_form) fun _ => rfl, whole_text (fun _ => end_form) fun _ => rfl⟩

/-- C84: those of Level 2. -/
theorem C84_level2 :
    SpanParserText L2.parseGroupQualificationM GroupForm (c! "Qualification (Group)") ∧
    SpanParserText L2.parseIndividualQualificationM (EndpointForm false []) (c! "Qualification (Individual)") ∧
    SpanParserText L2.parseUnspecifiedDigitM (DigitForm (c! "X")) (c! "Unspecified Digit") ∧
    SpanParserText L2.parseIntervalM (IntervalForm (c! "X")) (c! "Interval") :=
  ⟨whole_text C60_group fun _ => rfl, whole_text C60_individual fun _ => rfl, whole_text C60_digit fun _ => rfl, whole_text C60_interval fun _ => rfl⟩

/-- C84: the function for both kinds of open interval. -/
theorem C84_extended : SpanParserText L1.parseExtendedIntervalM (fun s => StartForm s ∨ EndForm s) (c! "Extended Interval") := by
  intro s w
  obtain ⟨-, -, -, hs, he⟩ := C84_level1
  have hs := hs s w
  have he := he s w
  unfold L1.parseExtendedIntervalStartM at hs
  unfold L1.parseExtendedIntervalEndM at he
  unfold L1.parseExtendedIntervalM
  by_cases h1 : StartForm s
  · rw [if_pos (start_form.2 h1), hs]; simp [h1]
  · rw [if_neg (by rw [start_form]; exact h1)]
    by_cases h2 : EndForm s
    · rw [if_pos (end_form.2 h2), he]; simp [h2]
    · rw [if_neg (by rw [end_form]; exact h2), complains_invalid]
      constructor
      · intro e; exact .inr ⟨by rintro (h | h); exact h1 h; exact h2 h, e⟩
      · rintro (⟨h | h, -⟩ | ⟨-, e⟩)
        · exact absurd h h1
        · exact absurd h h2
        · exact e

example : Complains (L1.parseQualifiedDateM (c! "1985-04-31?")) (c! "Invalid days for month") := ⟨.says _, by decide +kernel, rfl⟩
example : Complains (L2.parseIntervalM (c! "1985")) (c! "Invalid EDTF string '1985' (Interval)") :=
  ⟨.known (.invalid (c! "Interval") (c! "1985")), by decide +kernel, by decide⟩
example : Complains (L1.parseExtendedIntervalM (c! "../1985-02-30")) (c! "Invalid days for month") := ⟨.says _, by decide +kernel, rfl⟩

/-! ### Parsers that agree with `ParseString` -/

theorem same_text {P : Str → Told EDTFDate} {form : Str → Prop} {label : Str} (h1 : ∀ s, form s → P s = parseStringM s)
    (h2 : ∀ s, ¬ form s → P s = .fault (.known (Invalid label s))) : SameText P form label := by
  intro s w
  by_cases h : form s
  · rw [h1 s h, show Complains (parseStringM s) w ↔ _ from C79_text s w]
    simp [h]
  · rw [h2 s h, complains_invalid]
    simp [h]

theorem letterM_same {s : Str} (h : LetterForm (c! "Y") s) : L1.parseLetterPrefixedCalendarYearM s = parseStringM s := by
  have h0 : L0.isLevel0 s = false := by
    obtain ⟨y, hy, neg, ds, -, rfl⟩ := h
    simp only [List.mem_cons, List.not_mem_nil, or_false] at hy
    subst hy
    exact not_level0_char (c := 'Y') (by simp) (by decide)
  unfold parseStringM L1.parseStringM
  rw [if_neg (by rw [h0]; decide), if_pos (level1_form.2 (.inl h)), if_pos ((C59_letter s).2 h)]

theorem exponentialM_same {s : Str} (h : ExponentialForm s) : L2.parseExponentialYearM s = parseStringM s := by
  have h01 : L0.isLevel0 s = false ∧ L1.isLevel1 s = false := by
    obtain ⟨y, hy, e, he, neg, ms, es, -, -, rfl⟩ := h
    have := exp_level01 (neg := neg) (ms := ms.map dig) (es := es.map dig) (yY hy) (eE he) []
    rw [List.append_nil] at this
    exact this
  have hx := (C60_exponential s).2 h
  rw [parseM_level2 h01.1 h01.2 (isLevel2_of (.inl hx))]
  unfold L2.parseStringM
  rw [if_pos hx]

theorem significantM_same {s : Str} (h : SignificantForm (c! "Y") (c! "S") s) : L2.parseSignificantDigitsM s = parseStringM s := by
  have key : L0.isLevel0 s = false ∧ L1.isLevel1 s = false ∧ L2.isExponentialYear s = false := by
    obtain ⟨u, hu, c, hc, ds, hd, rfl⟩ := h
    simp only [List.mem_cons, List.not_mem_nil, or_false] at hc
    subst hc
    obtain ⟨d1, d2⟩ := dig_all' hd
    rcases hu with ⟨neg, n, hn, rfl⟩ | ⟨y, hy, neg, us, hu, rfl⟩ | ⟨y, hy, e, he, neg, ms, es, hm, hes, rfl⟩
    · show L0.isLevel0 (yearStr neg n ++ 'S' :: ds.map dig) = false ∧ L1.isLevel1 (yearStr neg n ++ 'S' :: ds.map dig) = false ∧
        L2.isExponentialYear (yearStr neg n ++ 'S' :: ds.map dig) = false
      have hS : 'S' ∈ yearStr neg n ++ 'S' :: ds.map dig := by simp
      refine ⟨not_level0_char hS (by decide), ?_, not_exponential (sig_plain d1) (Or.inl (sig_chars d1 (by decide) (by decide) (by decide)))⟩
      refine not_level1_of (sig_chars d1 (by decide) (by decide) (by decide)) (sig_chars d1 (by decide) (by decide) (by decide)) ?_ ?_ ?_ ?_ ?_ ?_
      all_goals exact not_lang_of_char (c := 'S') (by decide) hS
    · simp only [List.mem_cons, List.not_mem_nil, or_false] at hy
      subst hy
      obtain ⟨p0, p1⟩ := prefixed_level01 (yc := 'Y') (Or.inl rfl) (t := sgn neg (us.map dig) ++ 'S' :: ds.map dig) (by simp)
      exact ⟨p0, p1, s_not_exponential (by simp)⟩
    · obtain ⟨p0, p1⟩ := prefixed_level01 (yY hy) (t := sgn neg (ms.map dig ++ e :: es.map dig) ++ 'S' :: ds.map dig) (by simp)
      exact ⟨p0, p1, s_not_exponential (by simp)⟩
  have hs := (C60_significant s).2 h
  rw [parseM_level2 key.1 key.2.1 (isLevel2_of (.inr (.inl hs)))]
  unfold L2.parseStringM
  rw [if_neg (by rw [key.2.2]; decide), if_pos hs]

/-- C84: the parsers that do what `ParseString` does for their own form. -/
theorem C84_same :
    SameText L0.parseDateAndTimeM TimeForm (c! "Date and Time") ∧
    SameText L1.parseLetterPrefixedCalendarYearM (LetterForm (c! "Y")) (c! "Letter-prefixed calendar year") ∧
    SameText L2.parseExponentialYearM ExponentialForm (c! "Exponential year") ∧
    SameText L2.parseSignificantDigitsM (SignificantForm (c! "Y") (c! "S")) (c! "Significant digits") ∧
    SameText L2.parseSetRepresentationsM SetForm (c! "Set representation") ∧
    SameText L0.parseStringM Level0Form (c! "Invalid Level 0 string") := by
  refine ⟨same_text (fun s h => (time_dispatch h).symm) fun s h => ?_, same_text (fun s h => letterM_same h) fun s h => ?_,
    same_text (fun s h => exponentialM_same h) fun s h => ?_, same_text (fun s h => significantM_same h) fun s h => ?_,
    same_text (fun s h => (set_dispatchM h).symm) fun s h => ?_, same_text (fun s h => ?_) fun s h => ?_⟩
  · unfold L0.parseDateAndTimeM
    rw [submatch_none (by rw [show Rx.DateAndTime.matchString s = L0.isDateAndTime s from rfl, C58_time]; exact h)]
    rfl
  · unfold L1.parseLetterPrefixedCalendarYearM
    rw [submatch_none (by rw [show Rx.LetterPrefixedCalendarYear.matchString s = L1.isLetterPrefixedCalendarYear s from rfl, C59_letter]; exact h)]
    rfl
  · unfold L2.parseExponentialYearM
    rw [submatch_none (by rw [show Rx.ExponentialYear.matchString s = L2.isExponentialYear s from rfl, C60_exponential]; exact h)]
    rfl
  · unfold L2.parseSignificantDigitsM
    rw [submatch_none (by rw [show Rx.SignificantDigits.matchString s = L2.isSignificantDigits s from rfl, C60_significant]; exact h)]
    rfl
  · unfold L2.parseSetRepresentationsM
    rw [submatch_none (by rw [show Rx.SetRepresentations.matchString s = L2.isSetRepresentation s from rfl, C50_exact_partial]; exact h)]
    rfl
  · unfold parseStringM
    rw [if_pos (level0_form.2 h)]
  · unfold Level0Form at h
    simp only [not_or] at h
    unfold L0.parseStringM
    rw [if_neg (by rw [C58_date]; exact h.1), if_neg (by rw [C58_time]; exact h.2.1), if_neg (by rw [C58_interval]; exact h.2.2)]

example : Complains (L0.parseDateAndTimeM (c! "1985-04-12T25:20:30")) (c! "parsing time \"1985-04-12T25:20:30\": hour out of range") :=
  ⟨.says _, by decide +kernel, rfl⟩
example : Complains (L2.parseSetRepresentationsM (c! "1985")) (c! "Invalid EDTF string '1985' (Set representation)") :=
  ⟨.known (.invalid (c! "Set representation") (c! "1985")), by decide +kernel, by decide⟩

/-! ### Seasons -/

theorem season_not_plain {s : Str} {y1 y2 : Int} {m1 m2 : Nat} (h : SeasonAt s y1 m1 y2 m2) (hy : y2 < 10000) : L1.parseSeason s ≠ .err .plain := by
  obtain ⟨h1, -, a1, b1, a2, b2, e⟩ := seasonAt_eval h
  intro k
  rw [e] at k
  have hM : (do let dm ← daysInMonthM y2 m2
                let sp ← dateSpanFromEDTFM (L1.seasonString ⟨y1, m1, y2, m2⟩ dm)
                Told.ok (mkEDTF sp s 1 L1.SEASON)).forget = .err .plain := by
    simp only [forget_bind, daysInMonthM_forget, dateSpanFromEDTFM_forget]
    exact k
  obtain ⟨t, ht⟩ := plain_says hM
  have hn : y2 = y1 ∨ (y2 = y1 + 1 ∧ m2 = 2) := by
    have ly : ∀ (z : Season) (y : Int), z.lastYear y = y ∨ (z.lastYear y = y + 1 ∧ z.lastMonth = 2) := by
      intro z y; cases z <;> simp [Season.lastYear, Season.lastMonth]
    cases h with
    | month => exact .inl rfl
    | season _ _ _ z => exact ly z _
    | name _ _ _ _ z => exact ly z _
  obtain ⟨-, -, e2⟩ := seasonBody_says h1 a1 b1 a2 b2 hn ht
  omega

/-- C84: what the parser of seasons says.  (A plain error comes only from a winter that ends in
the year 10000.) -/
theorem C84_season {s : Str} {y1 y2 : Int} {m1 m2 : Nat} (hs : SeasonAt s y1 m1 y2 m2) (w : Str) : Complains (L1.parseSeasonM s) w ↔
    (y2 < 10000 ∧ ∃ e, SpanFails (monthsText y1 m1 y2 m2) e ∧ KnownText e w) ∨ (10000 ≤ y2 ∧ w = winterText) := by
  obtain ⟨k1, k2⟩ := C65_season dayCount_unixDay hs
  by_cases hy : y2 < 10000
  · have k := (k1 hy).rejects
    rw [complains_iff (L1.parseSeasonM_fair s) (fun e h => by
      rw [L1.parseSeasonM_forget, k] at h
      exact spanFails_known h), L1.parseSeasonM_forget]
    simp only [k]
    constructor
    · rintro (h | h)
      · exact .inl ⟨hy, h⟩
      · have hp := forget_says h
        rw [L1.parseSeasonM_forget, k] at hp
        rw [← k, ← L1.parseSeasonM_forget] at hp
        rw [L1.parseSeasonM_forget] at hp
        exact absurd hp (season_not_plain hs hy)
    · rintro (⟨-, h⟩ | ⟨h, -⟩)
      · exact .inl h
      · omega
  · have k := k2 (by omega)
    rw [← L1.parseSeasonM_forget] at k
    obtain ⟨t, ht⟩ := plain_says k
    obtain ⟨rfl, -⟩ := season_winter ht
    rw [ht, complains_says]
    constructor
    · rintro rfl; exact .inr ⟨by omega, rfl⟩
    · rintro (⟨h, -⟩ | ⟨-, h⟩)
      · omega
      · exact h

example : SeasonAt (c! "9999-24") 9999 12 10000 2 ∧ Complains (L1.parseSeasonM (c! "9999-24")) winterText :=
  ⟨SeasonAt.season false 9999 (by decide) .winter [], ⟨.says _, by decide +kernel, rfl⟩⟩

/-- C84: and of every other string. -/
theorem C84_season_only {s : Str} (h : ¬ ∃ y1 m1 y2 m2, SeasonAt s y1 m1 y2 m2) (w : Str) :
    Complains (L1.parseSeasonM s) w ↔ w = invalidText (c! "Seasons") s := by
  exact complains_of_invalid (L1.parseSeasonM_fair s) ((L1.parseSeasonM_forget s).trans ((C65_season_only s).2 h)) w

example : Complains (L1.parseSeasonM (c! "the WINTER, 9999")) winterText := ⟨⟨.plain, winterText⟩, by decide +kernel, rfl⟩

/-! ### Sub-year groupings -/

theorem grouping_complains {n : Nat} (hn : n < 10000) (g : Grouping) {t : Str} (ht : Numeral (n + 1) t) {m : Nat}
    (hm : (10 ≤ m ∧ m ≤ 12) ∨ (21 ≤ m ∧ m ≤ 41)) (hg : L2.groupingMonths (pad2 m) = L2.groupingMonths (pad2 g.code)) (w : Str) :
    Complains (L2.parseSubYearGroupingsM (pad4 n ++ '-' :: pad2 m)) w ↔ SpanErrorText (groupingText n t g) w := by
  obtain ⟨c, hc, c1, c2⟩ := subYear_found hn hm
  obtain ⟨t1, t2, t3, t4, t5, t6, t7, t8, t9⟩ := grouping_table g
  unfold L2.parseSubYearGroupingsM
  rw [hc]
  simp only [c1, c2, hg, t9]
  unfold L2.groupingEndYearM
  have e := numeral_iff.1 ht
  cases hx : g.crosses with
  | true =>
    have ha : atoiM (pad4 n) = .ok (n : Int) := by
      rw [← forget_ok, atoiM_forget, atoi_pad4 hn]
      rfl
    simp only [if_true, ha, ok_bindM]
    have : L2.groupingString (pad4 n) (pad2 g.firstMonth) (itoa ((n : Int) + 1)) (pad2 g.lastMonth) [] = groupingText n t g := by
      unfold L2.groupingString groupingText
      rw [if_pos hx, t7 hx, e]
      simp
      rfl
    rw [this, complains_bind]
    exact C84_span _ w
  | false =>
    simp only [Bool.false_eq_true, if_false, ok_bindM]
    have : L2.groupingString (pad4 n) (pad2 g.firstMonth) (pad4 n) (pad2 g.lastMonth) (pad2 (monthLen 1 g.lastMonth)) = groupingText n t g := by
      unfold L2.groupingString groupingText
      rw [if_neg (by rw [hx]; decide)]
      simp [pad2]
    rw [this, complains_bind]
    exact C84_span _ w

/-- C84: what the parser of sub-year groupings says. -/
theorem C84_grouping {n : Nat} (hn : n < 10000) {t : Str} (ht : Numeral (n + 1) t) (w : Str) :
    (∀ g : Grouping, Complains (L2.parseSubYearGroupingsM (pad4 n ++ '-' :: pad2 g.code)) w ↔ SpanErrorText (groupingText n t g) w) ∧
    (∀ z : Season, Complains (L2.parseSubYearGroupingsM (pad4 n ++ '-' :: pad2 z.code)) w ↔ SpanErrorText (groupingText n t (.north z)) w) := by
  refine ⟨fun g => ?_, fun z => ?_⟩
  · obtain ⟨t1, t2, -⟩ := grouping_table g
    exact grouping_complains hn g ht (.inr ⟨by omega, t2⟩) rfl w
  · exact grouping_complains hn (.north z) ht (by cases z <;> decide) (by cases z <;> decide) w

example : Numeral ((998 : Nat) + 1) (c! "999") ∧ ∃ w, Complains (L2.parseSubYearGroupingsM (pad4 998 ++ '-' :: pad2 (Grouping.north .winter).code)) w := by
  refine ⟨⟨[9, 9, 9], ?_, by decide, by decide, by decide⟩, _, _, rfl, rfl⟩
  unfold Digits
  decide

/-- C84: and of every other string. -/
theorem C84_grouping_only {s : Str} (h1 : ∀ n, n < 10000 → ∀ g : Grouping, s ≠ pad4 n ++ '-' :: pad2 g.code)
    (h2 : ∀ n, n < 10000 → ∀ z : Season, s ≠ pad4 n ++ '-' :: pad2 z.code) (w : Str) :
    Complains (L2.parseSubYearGroupingsM s) w ↔ w = invalidText (c! "Sub-year groupings") s := by
  exact complains_of_invalid (L2.parseSubYearGroupingsM_fair s) ((L2.parseSubYearGroupingsM_forget s).trans (C65_grouping_only h1 h2)) w

example : Complains (L2.parseSubYearGroupingsM (c! "1985-11")) (c! "Invalid EDTF string '1985-11' (Sub-year groupings)") :=
  ⟨.known (.invalid (c! "Sub-year groupings") (c! "1985-11")), by decide +kernel, by decide⟩

/-! ### Levels -/

/-- C84: the parser of Level 1 takes the first form that fits, also for what it says. -/
theorem C84_all1 (s : Str) : First (.fault (.known (.invalid (c! "Extended Interval") s)))
    [(LetterForm (c! "Y") s, L1.parseLetterPrefixedCalendarYearM s), (SeasonStart s ∨ SeasonEnd s, L1.parseSeasonM s), (QualifiedForm s, L1.parseQualifiedDateM s),
     (UnspecifiedForm (c! "X") s, L1.parseUnspecifiedDigitsM s), (NegativeForm s, L1.parseNegativeCalendarYearM s),
     (StartForm s, L1.parseExtendedIntervalStartM s), (EndForm s, L1.parseExtendedIntervalEndM s)] (L1.parseStringM s) := by
  unfold L1.parseStringM
  refine first_ite (C59_letter s) (first_ite season_form (first_ite (C59_qualified s) (first_ite (C59_unspecified s) (first_ite (C59_negative s) ?_))))
  rw [if_pos (isExtendedInterval_true s)]
  unfold L1.parseExtendedIntervalM
  exact first_ite start_form (first_ite end_form .none)

/-- C84: and so does the parser of Level 2. -/
theorem C84_all2 (s : Str) : First (.fault (.known (.invalid (c! "Invalid or unsupported Level 2 string") s)))
    [(ExponentialForm s, L2.parseExponentialYearM s), (SignificantForm (c! "Y") (c! "S") s, L2.parseSignificantDigitsM s),
     (SubYearForm s, L2.parseSubYearGroupingsM s), (SetForm s, L2.parseSetRepresentationsM s), (GroupForm s, L2.parseGroupQualificationM s),
     (EndpointForm false [] s, L2.parseIndividualQualificationM s), (DigitForm (c! "X") s, L2.parseUnspecifiedDigitM s),
     (IntervalForm (c! "X") s, L2.parseIntervalM s)] (L2.parseStringM s) := by
  unfold L2.parseStringM
  exact first_ite (C60_exponential s) (first_ite (C60_significant s) (first_ite (C60_subyear s) (first_ite (C50_exact_partial s) (first_ite (C60_group s)
    (first_ite (C60_individual s) (first_ite (C60_digit s) (first_ite (C60_interval s) .none)))))))

/-! ### The outcomes are those of the functions -/

/-- C84: without the texts the outcomes are those of the functions as modelled before. -/
theorem C84_forget (s : Str) :
    (dateSpanFromEDTFM s).forget = dateSpanFromEDTF s ∧
    (L0.parseStringM s).forget = L0.parseString s ∧ (L0.parseDateM s).forget = L0.parseDate s ∧
    (L0.parseDateAndTimeM s).forget = L0.parseDateAndTime s ∧ (L0.parseTimeIntervalM s).forget = L0.parseTimeInterval s ∧
    (L1.parseStringM s).forget = L1.parseString s ∧ (L1.parseLetterPrefixedCalendarYearM s).forget = L1.parseLetterPrefixedCalendarYear s ∧
    (L1.parseSeasonM s).forget = L1.parseSeason s ∧ (L1.parseQualifiedDateM s).forget = L1.parseQualifiedDate s ∧
    (L1.parseUnspecifiedDigitsM s).forget = L1.parseUnspecifiedDigits s ∧ (L1.parseNegativeCalendarYearM s).forget = L1.parseNegativeCalendarYear s ∧
    (L1.parseExtendedIntervalM s).forget = L1.parseExtendedInterval s ∧ (L1.parseExtendedIntervalStartM s).forget = L1.parseExtendedIntervalStart s ∧
    (L1.parseExtendedIntervalEndM s).forget = L1.parseExtendedIntervalEnd s ∧
    (L2.parseStringM s).forget = L2.parseString s ∧ (L2.parseExponentialYearM s).forget = L2.parseExponentialYear s ∧
    (L2.parseSignificantDigitsM s).forget = L2.parseSignificantDigits s ∧ (L2.parseSubYearGroupingsM s).forget = L2.parseSubYearGroupings s ∧
    (L2.parseSetRepresentationsM s).forget = L2.parseSetRepresentations s ∧ (L2.parseGroupQualificationM s).forget = L2.parseGroupQualification s ∧
    (L2.parseIndividualQualificationM s).forget = L2.parseIndividualQualification s ∧ (L2.parseUnspecifiedDigitM s).forget = L2.parseUnspecifiedDigit s ∧
    (L2.parseIntervalM s).forget = L2.parseInterval s := by
  refine ⟨dateSpanFromEDTFM_forget s, L0.parseStringM_forget s, parseWholeM_forget _ _ _ _, L0.parseDateAndTimeM_forget s, parseWholeM_forget _ _ _ _,
    L1.parseStringM_forget s, L1.parseLetterPrefixedCalendarYearM_forget s, L1.parseSeasonM_forget s, parseWholeM_forget _ _ _ _, parseWholeM_forget _ _ _ _,
    parseWholeM_forget _ _ _ _, ?_, parseWholeM_forget _ _ _ _, parseWholeM_forget _ _ _ _,
    L2.parseStringM_forget s, L2.parseExponentialYearM_forget s, L2.parseSignificantDigitsM_forget s, L2.parseSubYearGroupingsM_forget s,
    L2.parseSetRepresentationsM_forget s, parseWholeM_forget _ _ _ _, parseWholeM_forget _ _ _ _, parseWholeM_forget _ _ _ _, parseWholeM_forget _ _ _ _⟩
  unfold L1.parseExtendedIntervalM L1.parseExtendedInterval
  simp only [forget_ite, parseWholeM_forget]
  rfl

example : Complains (L1.parseStringM (c! "abc")) (c! "Invalid EDTF string 'abc' (Extended Interval)") :=
  ⟨.known (.invalid (c! "Extended Interval") (c! "abc")), by decide +kernel, by decide⟩
example : Complains (L2.parseStringM (c! "abc")) (c! "Invalid EDTF string 'abc' (Invalid or unsupported Level 2 string)") :=
  ⟨.known (.invalid (c! "Invalid or unsupported Level 2 string") (c! "abc")), by decide +kernel, by decide⟩

end EDTF
