/-
C65: the exported parsers of the single features, on every string.
-/
import Verif.PropsSpan
namespace EDTF
open Spec
variable {f : Int → Nat → Nat → Int}

theorem first_ite {α : Type} {d a b : α} {p : Prop} {l : List (Prop × α)} {c : Prop} [Decidable c] (h : c ↔ p) (k : First d l b) :
    First d ((p, a) :: l) (if c then a else b) := by
  by_cases hc : c
  · rw [if_pos hc]; exact .here (h.1 hc)
  · rw [if_neg hc]; exact .next (fun hp => hc (h.2 hp)) k

/-! ### Parsers of the text itself -/

theorem span_outcome (hf : DayCount f) (text s : Str) (level : Int) (label : Str) :
    SpanOutcome f text s level label (do let sp ← dateSpanFromEDTF text; .ok (mkEDTF sp s level label)) where
  accepts d := by
    rw [Res.bind_eq_ok]
    constructor
    · rintro ⟨sp, h, e⟩
      obtain ⟨S, E, k, rfl⟩ := (C64_span hf text sp).1 h
      injection e with e
      exact ⟨S, E, k, e.symm⟩
    · rintro ⟨S, E, k, rfl⟩
      exact ⟨_, spanText_ok hf k, rfl⟩
  rejects e := by
    rw [Res.bind_eq_err, C64_error]
    constructor
    · rintro (h | ⟨sp, -, h⟩)
      · exact h
      · cases h
    · exact .inl
  returns := by
    have := C64_total text
    cases h : dateSpanFromEDTF text with
    | ok sp => intro h; cases h
    | err e => intro h; cases h
    | panic => exact absurd h this

theorem span_parser (hf : DayCount f) {P : Str → Res EDTFDate} {test : Str → Bool} {form : Str → Prop} {level : Int} {label : Str}
    (ht : ∀ s, test s = true ↔ form s)
    (hP : ∀ s, P s = if !test s then .err (Invalid label s) else do let sp ← dateSpanFromEDTF s; .ok (mkEDTF sp s level label)) :
    SpanParser f P form level label := by
  intro s
  refine ⟨fun h => ?_, fun h => ?_⟩
  · rw [hP, if_neg (by rw [(ht s).2 h]; decide)]
    exact span_outcome hf s s level label
  · have : test s = false := by rw [← Bool.not_eq_true, ht]; exact h
    rw [hP, if_pos (by rw [this]; rfl)]
    rfl

theorem start_form {s : Str} : Rx.IntervalStart.matchString s = true ↔ StartForm s := isIntervalStart_iff.trans lang_startForm
theorem end_form {s : Str} : Rx.IntervalEnd.matchString s = true ↔ EndForm s := isIntervalEnd_iff.trans lang_endForm

/-- C65: the parsers of Level 0. -/
theorem C65_level0 (hf : DayCount f) :
    SpanParser f L0.parseDate DateShape 0 (c! "Date") ∧ SpanParser f L0.parseTimeInterval PairForm 0 (c! "Time Interval") :=
  ⟨span_parser hf C58_date fun _ => rfl, span_parser hf C58_interval fun _ => rfl⟩

example : ∃ d e, L0.parseDate (c! "1985-04-12") = .ok d ∧ L0.parseTimeInterval (c! "1964/2008") = .ok e ∧
    L0.parseDate (c! "1985-04-12?") = .err (.invalid (c! "Date") (c! "1985-04-12?")) := ⟨_, _, rfl, rfl, rfl⟩

/-- C65: the parsers of Level 1 that pass on the string. -/
theorem C65_level1 (hf : DayCount f) :
    SpanParser f L1.parseQualifiedDate QualifiedForm 1 (c! "Qualification of a date (complete)") ∧
    SpanParser f L1.parseUnspecifiedDigits (UnspecifiedForm (c! "X")) 1 (c! "Unspecified digit(s) from the right") ∧
    SpanParser f L1.parseNegativeCalendarYear NegativeForm 1 (c! "Negative calendar year") ∧
    SpanParser f L1.parseExtendedIntervalStart StartForm 1 (c! "Extended Interval (Start)") ∧
    SpanParser f L1.parseExtendedIntervalEnd EndForm 1 (c! "Extended Interval (End)") :=
  ⟨span_parser hf C59_qualified fun _ => rfl, span_parser hf C59_unspecified fun _ => rfl, span_parser hf C59_negative fun _ => rfl,
    span_parser hf (fun _ => start_form) fun _ => rfl, span_parser hf (fun _ => end_form) fun _ => rfl⟩

example : ∃ d e g, L1.parseQualifiedDate (c! "1984?") = .ok d ∧ L1.parseNegativeCalendarYear (c! "-1985") = .ok e ∧ L1.parseExtendedIntervalEnd (c! "1985-04/..") = .ok g :=
  ⟨_, _, _, rfl, rfl, rfl⟩

/-- C65: the parsers of Level 2 that pass on the string. -/
theorem C65_level2 (hf : DayCount f) :
    SpanParser f L2.parseGroupQualification GroupForm 2 (c! "Qualification (Group)") ∧
    SpanParser f L2.parseIndividualQualification (EndpointForm false []) 2 (c! "Qualification (Individual)") ∧
    SpanParser f L2.parseUnspecifiedDigit (DigitForm (c! "X")) 2 (c! "Unspecified Digit") ∧
    SpanParser f L2.parseInterval (IntervalForm (c! "X")) 2 (c! "Interval") :=
  ⟨span_parser hf C60_group fun _ => rfl, span_parser hf C60_individual fun _ => rfl, span_parser hf C60_digit fun _ => rfl,
    span_parser hf C60_interval fun _ => rfl⟩

example : ∃ d e g, L2.parseGroupQualification (c! "2004-06~-11") = .ok d ∧ L2.parseIndividualQualification (c! "?2004-06-~11") = .ok e ∧
    L2.parseInterval (c! "2004-06-~01/2004-06-~20") = .ok g := ⟨_, _, _, rfl, rfl, rfl⟩

/-- C65: the function for both kinds of open interval. -/
theorem C65_extended (hf : DayCount f) (s : Str) :
    (StartForm s → SpanOutcome f s s 1 (c! "Extended Interval (Start)") (L1.parseExtendedInterval s)) ∧
    (EndForm s → SpanOutcome f s s 1 (c! "Extended Interval (End)") (L1.parseExtendedInterval s)) ∧
    (¬ StartForm s → ¬ EndForm s → L1.parseExtendedInterval s = .err (.invalid (c! "Extended Interval") s)) := by
  obtain ⟨-, -, -, hs, he⟩ := C65_level1 hf
  unfold L1.parseExtendedInterval
  refine ⟨fun h => ?_, fun h => ?_, fun h1 h2 => ?_⟩
  · rw [if_pos (start_form.2 h)]; exact (hs s).1 h
  · have : ¬ StartForm s := by
      rintro ⟨l, d, hl, ⟨x, hx, rfl⟩, e⟩
      obtain ⟨d', r, ⟨x', hx', rfl⟩, hr, rfl⟩ := h
      have n1 : '/' ∉ l := by rcases hl with rfl | rfl <;> decide
      obtain ⟨e1, -⟩ := char_split (side_slash (.date x')) n1 (show (Side.date x').text ++ '/' :: r = l ++ '/' :: x.text from e)
      rw [show (Side.date x').text = x'.text from rfl] at e1
      rw [date0_text] at e1
      rcases hl with rfl | rfl
      · cases hn : x'.neg <;> rw [hn] at e1 <;> cases e1
      · cases hn : x'.neg <;> rw [hn] at e1
        · injection e1 with e1 _; exact dig_mod_ne _ (by decide) e1
        · injection e1 with e1 _; exact absurd e1 (by decide)
    rw [if_neg (by rw [start_form]; exact this), if_pos (end_form.2 h)]
    exact (he s).1 h
  · rw [if_neg (by rw [start_form]; exact h1), if_neg (by rw [end_form]; exact h2)]
    rfl

example : ∃ d e, L1.parseExtendedInterval (c! "../1985") = .ok d ∧ d.feature = c! "Extended Interval (Start)" ∧
    L1.parseExtendedInterval (c! "1985/") = .ok e ∧ e.feature = c! "Extended Interval (End)" := ⟨_, _, rfl, rfl, rfl, rfl⟩

/-! ### Parsers that agree with `ParseString` -/

theorem submatch_none {r : Re} {s : Str} (h : ¬ r.matchString s = true) : r.submatch s = none := by
  rw [← isSome_submatch] at h
  cases hr : r.submatch s with
  | none => rfl
  | some m => rw [hr] at h; exact absurd rfl h

theorem time_same : SameOn L0.parseDateAndTime parseString TimeForm (c! "Date and Time") := by
  intro s
  refine ⟨fun h => ?_, fun h => ?_⟩
  · have hd : ¬ L0.isDate s = true := by
      obtain ⟨d, a, b, c, z, -, -, -, -, -, rfl⟩ := h
      intro hd
      obtain ⟨x, -, -, e⟩ := isDate_iff.1 hd
      exact date0_not_mem x (c := 'T') (by decide) (by decide) (by rw [← e]; simp)
    unfold parseString L0.parseString
    rw [if_pos (level0_form.2 (.inr (.inl h))), if_neg hd, if_pos ((C58_time s).2 h)]
  · unfold L0.parseDateAndTime
    rw [submatch_none (by rw [show Rx.DateAndTime.matchString s = L0.isDateAndTime s from rfl, C58_time]; exact h)]
    rfl

theorem letter_same : SameOn L1.parseLetterPrefixedCalendarYear parseString (LetterForm (c! "Y")) (c! "Letter-prefixed calendar year") := by
  intro s
  refine ⟨fun h => ?_, fun h => ?_⟩
  · have h0 : L0.isLevel0 s = false := by
      obtain ⟨y, hy, neg, ds, -, rfl⟩ := h
      simp only [List.mem_cons, List.not_mem_nil, or_false] at hy
      subst hy
      exact not_level0_char (c := 'Y') (by simp) (by decide)
    rw [parse_level1 h0 (level1_form.2 (.inl h))]
    unfold L1.parseString
    rw [if_pos ((C59_letter s).2 h)]
  · unfold L1.parseLetterPrefixedCalendarYear
    rw [submatch_none (by rw [show Rx.LetterPrefixedCalendarYear.matchString s = L1.isLetterPrefixedCalendarYear s from rfl, C59_letter]; exact h)]
    rfl

theorem yY {y : Char} (h : y ∈ c! "Yy") : y = 'Y' ∨ y = 'y' := by simpa using h
theorem eE {y : Char} (h : y ∈ c! "Ee") : y = 'E' ∨ y = 'e' := by simpa using h

theorem exponential_same : SameOn L2.parseExponentialYear parseString ExponentialForm (c! "Exponential year") := by
  intro s
  refine ⟨fun h => ?_, fun h => ?_⟩
  · have h01 : L0.isLevel0 s = false ∧ L1.isLevel1 s = false := by
      obtain ⟨y, hy, e, he, neg, ms, es, -, -, rfl⟩ := h
      have := exp_level01 (neg := neg) (ms := ms.map dig) (es := es.map dig) (yY hy) (eE he) []
      rw [List.append_nil] at this
      exact this
    have hx := (C60_exponential s).2 h
    rw [parse_level2 h01.1 h01.2 (isLevel2_of (.inl hx))]
    unfold L2.parseString
    rw [if_pos hx]
  · unfold L2.parseExponentialYear
    rw [submatch_none (by rw [show Rx.ExponentialYear.matchString s = L2.isExponentialYear s from rfl, C60_exponential]; exact h)]
    rfl

theorem significant_same : SameOn L2.parseSignificantDigits parseString (SignificantForm (c! "Y") (c! "S")) (c! "Significant digits") := by
  intro s
  refine ⟨fun h => ?_, fun h => ?_⟩
  · obtain ⟨u, hu, c, hc, ds, hd, rfl⟩ := h
    simp only [List.mem_cons, List.not_mem_nil, or_false] at hc
    subst hc
    obtain ⟨d1, d2⟩ := dig_all' hd
    rcases hu with ⟨neg, n, hn, rfl⟩ | ⟨y, hy, neg, us, hu, rfl⟩ | ⟨y, hy, e, he, neg, ms, es, hm, hes, rfl⟩
    · exact (parse_sig hn d1 d2).symm
    · simp only [List.mem_cons, List.not_mem_nil, or_false] at hy
      subst hy
      obtain ⟨m, -, -, -, -, -, h⟩ := letter_sig (neg := neg) (dig_all' hu).1 (dig_all' hu).2 d1 d2
      exact h.symm
    · obtain ⟨m, -, -, -, -, -, h⟩ := exp_sig (yY hy) (eE he) (neg := neg) (dig_all' hm).1 (dig_all' hm).2 (dig_all' hes).1 (dig_all' hes).2 d1 d2
      exact h.symm
  · unfold L2.parseSignificantDigits
    rw [submatch_none (by rw [show Rx.SignificantDigits.matchString s = L2.isSignificantDigits s from rfl, C60_significant]; exact h)]
    rfl

theorem set_same : SameOn L2.parseSetRepresentations parseString SetForm (c! "Set representation") := by
  intro s
  refine ⟨fun h => (set_dispatch h).symm, fun h => ?_⟩
  unfold L2.parseSetRepresentations
  rw [submatch_none (by rw [show Rx.SetRepresentations.matchString s = L2.isSetRepresentation s from rfl, C50_exact_partial]; exact h)]
  rfl

/-- C65: five parsers do what `ParseString` does, for their own form. -/
theorem C65_same :
    SameOn L0.parseDateAndTime parseString TimeForm (c! "Date and Time") ∧
    SameOn L1.parseLetterPrefixedCalendarYear parseString (LetterForm (c! "Y")) (c! "Letter-prefixed calendar year") ∧
    SameOn L2.parseExponentialYear parseString ExponentialForm (c! "Exponential year") ∧
    SameOn L2.parseSignificantDigits parseString (SignificantForm (c! "Y") (c! "S")) (c! "Significant digits") ∧
    SameOn L2.parseSetRepresentations parseString SetForm (c! "Set representation") :=
  ⟨time_same, letter_same, exponential_same, significant_same, set_same⟩

/-! ### Seasons -/

theorem startPrefix {s : Str} : SeasonPrefix s ↔ SeasonStart s := by
  constructor
  · rintro ⟨y, c, rest, hy, hc, rfl⟩
    obtain ⟨neg, n, hn, rfl⟩ := lang_year4'.1 hy
    obtain ⟨m, -, hm, rfl⟩ := lang_seasonCode.1 hc
    exact ⟨neg, n, m, rest, hn, hm, rfl⟩
  · rintro ⟨neg, n, m, rest, hn, hm, rfl⟩
    exact ⟨_, _, rest, lang_year4'.2 ⟨neg, n, hn, rfl⟩, lang_seasonCode.2 ⟨m, by omega, hm, rfl⟩, rfl⟩

theorem endSuffix {s : Str} : SeasonSuffix s ↔ SeasonEnd s := by
  constructor
  · rintro ⟨pre, w, s1, c, s2, y, hw, h1, hc, h2, hy, rfl⟩
    obtain ⟨z, hz⟩ := lang_seasonWord_iff.1 hw
    have := fold_comma hc
    subst this
    obtain ⟨n, hn, rfl⟩ := lang_four.1 hy
    exact ⟨pre, _, ⟨w, s1, s2, z, n, hz, blank_iff.2 (lang_blanks.1 h1), blank_iff.2 (lang_blanks.1 h2), hn, rfl⟩, rfl⟩
  · rintro ⟨pre, _, ⟨w, s1, s2, z, n, hz, h1, h2, hn, rfl⟩, rfl⟩
    exact ⟨pre, w, s1, ',', s2, _, lang_seasonWord_iff.2 ⟨z, hz⟩, lang_blanks.2 (blank_iff.1 h1), by decide, lang_blanks.2 (blank_iff.1 h2),
      lang_four.2 ⟨n, hn, rfl⟩, rfl⟩

theorem season_form {s : Str} : L1.isSeason s = true ↔ SeasonStart s ∨ SeasonEnd s := by
  rw [season_iff, startPrefix, endSuffix]

theorem dropBlank {u w s : Str} (hw : ∀ c ∈ w, isBl c = false) (h0 : w ≠ []) (hs : s.all isBl = true) :
    (u ++ w ++ s).reverse.dropWhile isBl = (u ++ w).reverse := by
  rw [List.reverse_append, List.dropWhile_append_of_pos (by intro c hc; exact List.all_eq_true.1 hs c (List.mem_reverse.1 hc))]
  rw [List.reverse_append]
  cases hr : w.reverse with
  | nil => exact absurd (List.reverse_eq_nil_iff.1 hr) h0
  | cons c cs =>
    rw [List.cons_append, List.dropWhile_cons_of_neg]
    have : c ∈ w := by rw [← List.mem_reverse, hr]; simp
    rw [hw c this]; decide

theorem two_words {pre pre' w w' s s' : Str} {z z' : Season} (hw : toUpper w = z.word.map capital) (hw' : toUpper w' = z'.word.map capital)
    (hs : s.all isBl = true) (hs' : s'.all isBl = true) (e : pre ++ w ++ s = pre' ++ w' ++ s') : z = z' := by
  have ne : ∀ {w : Str} {z : Season}, toUpper w = z.word.map capital → w ≠ [] := by
    intro w z h k; rw [k] at h; cases z <;> cases h
  have e1 := dropBlank (u := pre) (fun a ha => ((upper_not_blank hw) a ha).1) (ne hw) hs
  have e2 := dropBlank (u := pre') (fun a ha => ((upper_not_blank hw') a ha).1) (ne hw') hs'
  rw [e, e2] at e1
  have e3 := List.reverse_inj.1 e1
  have e4 : toUpper pre' ++ z'.word.map capital = toUpper pre ++ z.word.map capital := by
    rw [← hw, ← hw']
    simpa [toUpper] using congrArg toUpper e3
  rcases List.append_eq_append_iff.1 e4 with ⟨u, -, k⟩ | ⟨u, -, k⟩
  · exact word_suffix z z' (by rw [k, List.isSuffixOf_iff_suffix]; exact List.suffix_append _ _)
  · exact (word_suffix z' z (by rw [k, List.isSuffixOf_iff_suffix]; exact List.suffix_append _ _)).symm

/-- A name at the end of a string, with anything in front of it. -/
theorem season_name (pre : Str) (z : Season) {w t1 t2 : Str} {n : Nat} (hw : Folded z.word w) (h1 : Blank t1) (h2 : Blank t2) (hn : n < 10000)
    (hp : ¬ SeasonStart (pre ++ (w ++ (t1 ++ ',' :: (t2 ++ pad4 n))))) :
    L1.parseSeason (pre ++ (w ++ (t1 ++ ',' :: (t2 ++ pad4 n)))) = (do
      let dm ← daysInMonth (z.lastYear n) z.lastMonth
      let sp ← dateSpanFromEDTF (L1.seasonString (textSpan n z) dm)
      .ok (mkEDTF sp (pre ++ (w ++ (t1 ++ ',' :: (t2 ++ pad4 n)))) 1 L1.SEASON)) := by
  have hE : SeasonEnd (pre ++ (w ++ (t1 ++ ',' :: (t2 ++ pad4 n)))) := ⟨pre, _, ⟨w, t1, t2, z, n, hw, h1, h2, hn, rfl⟩, rfl⟩
  have hm : L1.isSeason (pre ++ (w ++ (t1 ++ ',' :: (t2 ++ pad4 n)))) = true := season_iff.2 (.inr (endSuffix.2 hE))
  unfold L1.isSeason at hm
  rw [← isSome_submatch] at hm
  obtain ⟨c, hc⟩ := Option.isSome_iff_exists.1 hm
  rw [blank_iff] at h1 h2
  have hwU := word_upper (season_low z).1 (season_low z).2 ((lang_word_iff (season_low z).1 (season_low z).2).2 hw)
  rcases season_caps hc with ⟨k1, k2, r, e⟩ | ⟨-, k1, k3, k4, pre', s1, cc, s2, l1, hcc, l2, e⟩
  · exact absurd (startPrefix.1 ⟨_, _, r, k1, k2, e⟩) hp
  · have := fold_comma hcc
    subst this
    rw [lang_blanks] at l1 l2
    obtain ⟨n', hn', e4⟩ := lang_four.1 k4
    have noc : ∀ {s : Str} {n : Nat}, s.all isBl = true → ',' ∉ s ++ pad4 n := by
      intro s n hs hm
      rcases List.mem_append.1 hm with hm | hm
      · have := List.all_eq_true.1 hs _ hm; exact absurd this (by decide)
      · have := List.all_eq_true.1 (pad4_all n) _ hm; exact absurd this (by decide)
    rw [e4] at e
    have e' : (pre ++ w ++ t1) ++ ',' :: (t2 ++ pad4 n) = (pre' ++ c 3 ++ s1) ++ ',' :: (s2 ++ pad4 n') := by
      simpa [List.append_assoc] using e
    obtain ⟨e5, e6⟩ := last_sep (noc h2) (noc l2) e'
    obtain ⟨-, e7⟩ := List.append_inj' e6 rfl
    obtain ⟨z', hz'⟩ := seasonWord_upper k3
    have ez := two_words hwU hz' h1 l1 e5
    subst ez
    have key : L1.seasonSpan (pre ++ (w ++ (t1 ++ ',' :: (t2 ++ pad4 n)))) c = .ok (textSpan n z) := by
      unfold L1.seasonSpan
      rw [if_pos k1, e4, ← e7]
      unfold L1.seasonOfText
      rw [atoi_pad4 hn, hz']
      cases z <;> rfl
    unfold L1.parseSeason
    rw [hc]
    simp only [key, Res.ok_bind, textSpan]

theorem padded_eq {y : Int} (h : y.natAbs < 10000) : padInt 4 y = paddedYear y := by
  unfold paddedYear
  by_cases h0 : 0 ≤ y
  · rw [if_pos h0, padInt4_year ⟨by omega, by omega⟩, show decide (y < 0) = false by simpa using h0]
    rfl
  · rw [if_neg h0]
    by_cases h1 : -1000 < y
    · rw [if_pos h1]
      have := pad3_eq (n := y.natAbs) (by omega) (by omega)
      rw [← this]
      congr 1
      omega
    · rw [if_neg h1, padInt4_year ⟨by omega, by omega⟩, show decide (y < 0) = true by simpa using h0]
      rfl

theorem daysInMonth_late : daysInMonth 10000 2 = .err .plain := by rfl

theorem seasonAt_eval {s : Str} {y1 y2 : Int} {m1 m2 : Nat} (h : SeasonAt s y1 m1 y2 m2) :
    y1.natAbs < 10000 ∧ (y2 = 10000 ∧ m2 = 2 ∨ y2.natAbs < 10000) ∧ 1 ≤ m1 ∧ m1 ≤ 12 ∧ 1 ≤ m2 ∧ m2 ≤ 12 ∧
    L1.parseSeason s = (do
      let dm ← daysInMonth y2 m2
      let sp ← dateSpanFromEDTF (L1.seasonString ⟨y1, m1, y2, m2⟩ dm)
      .ok (mkEDTF sp s 1 L1.SEASON)) := by
  have ly : ∀ (z : Season) (y : Int), z.lastYear y = y ∨ (z.lastYear y = y + 1 ∧ z.lastMonth = 2) := by
    intro z y; cases z <;> simp [Season.lastYear, Season.lastMonth]
  cases h with
  | month neg n m hn h1 h2 rest =>
    refine ⟨by split <;> omega, .inr (by split <;> omega), h1, h2, h1, h2, ?_⟩
    have := (season_num (neg := neg) hn (.inl ⟨h1, h2⟩) rest).2
    rw [numSpan_month h1 h2] at this
    exact this
  | season neg n hn z rest =>
    obtain ⟨a1, b1, a2, b2⟩ := season_months z
    refine ⟨by split <;> omega, ?_, a1, b1, a2, b2, ?_⟩
    · rcases ly z (if neg then -(n : Int) else n) with k | ⟨k, k'⟩ <;> rw [k] <;> split <;> omega
    · have := (season_num (neg := neg) hn (season_code z).1 rest).2
      rw [numSpan_season] at this
      exact this
  | name pre w t1 t2 z n hw h1 h2 hn hp =>
    obtain ⟨a1, b1, a2, b2⟩ := season_months z
    refine ⟨by omega, ?_, a1, b1, a2, b2, season_name pre z hw h1 h2 hn hp⟩
    rcases ly z n with k | ⟨k, k'⟩ <;> rw [k] <;> omega

/-- C65: the parser of seasons.  It reads a month or season at the beginning of
the string, whatever follows, or else a name at its end, whatever precedes. -/
theorem C65_season (hf : DayCount f) {s : Str} {y1 y2 : Int} {m1 m2 : Nat} (h : SeasonAt s y1 m1 y2 m2) :
    (y2 < 10000 → SpanOutcome f (monthsText y1 m1 y2 m2) s 1 (c! "Seasons") (L1.parseSeason s)) ∧
    (10000 ≤ y2 → L1.parseSeason s = .err .plain) := by
  obtain ⟨h1, h2, a1, b1, a2, b2, e⟩ := seasonAt_eval h
  rw [e]
  constructor
  · intro k
    have k2 : y2.natAbs < 10000 := by omega
    have := monthLen_pos y2 m2
    rw [daysInMonth_ok k2 a2 b2, Res.ok_bind, seasonString_two (by omega) (by omega) (by omega), padded_eq h1, padded_eq k2]
    exact span_outcome hf _ s 1 _
  · intro k
    obtain ⟨rfl, rfl⟩ : y2 = 10000 ∧ m2 = 2 := by omega
    rw [show daysInMonth 10000 ((2 : Nat) : Int) = .err .plain from daysInMonth_late]
    rfl

example : SeasonAt (c! "2001-24 or so") 2001 12 2002 2 := by
  have h := SeasonAt.season false 2001 (by decide) .winter (c! " or so")
  exact h

/-- C65: every other string is an error for it. -/
theorem C65_season_only (s : Str) :
    ((∃ y1 m1 y2 m2, SeasonAt s y1 m1 y2 m2) ↔ SeasonStart s ∨ SeasonEnd s) ∧
    ((¬ ∃ y1 m1 y2 m2, SeasonAt s y1 m1 y2 m2) → L1.parseSeason s = .err (.invalid (c! "Seasons") s)) := by
  have key : (∃ y1 m1 y2 m2, SeasonAt s y1 m1 y2 m2) ↔ SeasonStart s ∨ SeasonEnd s := by
    constructor
    · rintro ⟨y1, m1, y2, m2, h⟩
      cases h with
      | month neg n m hn h1 h2 rest => exact .inl ⟨neg, n, _, rest, hn, .inl ⟨h1, h2⟩, rfl⟩
      | season neg n hn z rest => exact .inl ⟨neg, n, z.code, rest, hn, (season_code z).1, rfl⟩
      | name pre w t1 t2 z n hw h1 h2 hn hp => exact .inr ⟨pre, _, ⟨w, t1, t2, z, n, hw, h1, h2, hn, rfl⟩, rfl⟩
    · intro h
      by_cases hs : SeasonStart s
      · obtain ⟨neg, n, m, rest, hn, hm, rfl⟩ := hs
        rcases hm with ⟨a, b⟩ | ⟨a, b⟩
        · exact ⟨_, _, _, _, .month neg n m hn a b rest⟩
        · obtain ⟨z, rfl⟩ := season_of_code a b
          exact ⟨_, _, _, _, .season neg n hn z rest⟩
      · rcases h with h | ⟨pre, _, ⟨w, t1, t2, z, n, hw, h1, h2, hn, rfl⟩, rfl⟩
        · exact absurd h hs
        · exact ⟨_, _, _, _, .name pre w t1 t2 z n hw h1 h2 hn hs⟩
  refine ⟨key, fun h => ?_⟩
  rw [key] at h
  unfold L1.parseSeason
  rw [submatch_none (by rw [show Rx.Season.matchString s = L1.isSeason s from rfl, season_iff, startPrefix, endSuffix]; exact h)]
  rfl

example : SeasonStart (c! "2001-24 or so") ∧ L1.parseSeason (c! "Spring 2001") = .err (.invalid (c! "Seasons") (c! "Spring 2001")) :=
  ⟨⟨false, 2001, 24, c! " or so", by decide, by decide, by decide⟩, rfl⟩

/-! ### Sub-year groupings -/

theorem subYear_found {n m : Nat} (hn : n < 10000) (hm : (10 ≤ m ∧ m ≤ 12) ∨ (21 ≤ m ∧ m ≤ 41)) :
    ∃ c, Rx.SubYearGrouping.submatch (pad4 n ++ '-' :: pad2 m) = some c ∧ c 1 = pad4 n ∧ c 2 = pad2 m := by
  have hsub : L2.isSubYearGrouping (pad4 n ++ '-' :: pad2 m) = true := (C60_subyear _).2 ⟨n, m, hn, hm, rfl⟩
  unfold L2.isSubYearGrouping at hsub
  rw [← isSome_submatch, Option.isSome_iff_exists] at hsub
  obtain ⟨c, hc⟩ := hsub
  obtain ⟨e, h⟩ := subYear_caps hc
  obtain ⟨n', -, e'⟩ := lang_digits4.1 h
  rw [e'] at e
  obtain ⟨a, b⟩ := List.append_inj e rfl
  injection b with _ b
  exact ⟨c, hc, by rw [e', a], b.symm⟩

theorem grouping_outcome (hf : DayCount f) {n : Nat} (hn : n < 10000) (g : Grouping) {t : Str} (ht : Numeral (n + 1) t) {m : Nat}
    (hm : (10 ≤ m ∧ m ≤ 12) ∨ (21 ≤ m ∧ m ≤ 41)) (hg : L2.groupingMonths (pad2 m) = L2.groupingMonths (pad2 g.code)) :
    SpanOutcome f (groupingText n t g) (pad4 n ++ '-' :: pad2 m) 2 (c! "Sub-year groupings") (L2.parseSubYearGroupings (pad4 n ++ '-' :: pad2 m)) := by
  obtain ⟨c, hc, c1, c2⟩ := subYear_found hn hm
  obtain ⟨t1, t2, t3, t4, t5, t6, t7, t8, t9⟩ := grouping_table g
  unfold L2.parseSubYearGroupings
  rw [hc]
  simp only [c1, c2, hg, t9]
  unfold L2.groupingEndYear
  have e := numeral_iff.1 ht
  cases hx : g.crosses with
  | true =>
    simp only [if_true, atoi_pad4 hn, Res.ofOption, Res.ok_bind]
    have : L2.groupingString (pad4 n) (pad2 g.firstMonth) (itoa ((n : Int) + 1)) (pad2 g.lastMonth) [] = groupingText n t g := by
      unfold L2.groupingString groupingText
      rw [if_pos hx, t7 hx, e]
      simp
      rfl
    rw [this]
    exact span_outcome hf _ _ 2 _
  | false =>
    simp only [Bool.false_eq_true, if_false, Res.ok_bind]
    have : L2.groupingString (pad4 n) (pad2 g.firstMonth) (pad4 n) (pad2 g.lastMonth) (pad2 (monthLen 1 g.lastMonth)) = groupingText n t g := by
      unfold L2.groupingString groupingText
      rw [if_neg (by rw [hx]; decide)]
      simp [pad2]
    rw [this]
    exact span_outcome hf _ _ 2 _

/-- C65: the parser of sub-year groupings.  It takes the numbers 21 to 24 as the
seasons 25 to 28; `ParseString` does not give it these. -/
theorem C65_grouping (hf : DayCount f) {n : Nat} (hn : n < 10000) {t : Str} (ht : Numeral (n + 1) t) :
    (∀ g : Grouping, SpanOutcome f (groupingText n t g) (pad4 n ++ '-' :: pad2 g.code) 2 (c! "Sub-year groupings")
      (L2.parseSubYearGroupings (pad4 n ++ '-' :: pad2 g.code))) ∧
    (∀ z : Season, SpanOutcome f (groupingText n t (.north z)) (pad4 n ++ '-' :: pad2 z.code) 2 (c! "Sub-year groupings")
      (L2.parseSubYearGroupings (pad4 n ++ '-' :: pad2 z.code))) := by
  refine ⟨fun g => ?_, fun z => ?_⟩
  · obtain ⟨t1, t2, -⟩ := grouping_table g
    exact grouping_outcome hf hn g ht (.inr ⟨by omega, t2⟩) rfl
  · exact grouping_outcome hf hn (.north z) ht (by cases z <;> decide) (by cases z <;> decide)

example : Numeral ((1999 : Nat) + 1) (c! "2000") ∧ groupingText 1999 (c! "2000") (.north .winter) = c! "1999-12-01/2000-02" := by
  refine ⟨⟨[2, 0, 0, 0], ?_, by decide, by decide, by decide⟩, by decide⟩
  unfold Digits
  decide

/-- C65: every other string is an error for it, also the months 10 to 12. -/
theorem C65_grouping_only {s : Str} (h1 : ∀ n, n < 10000 → ∀ g : Grouping, s ≠ pad4 n ++ '-' :: pad2 g.code)
    (h2 : ∀ n, n < 10000 → ∀ z : Season, s ≠ pad4 n ++ '-' :: pad2 z.code) :
    L2.parseSubYearGroupings s = .err (.invalid (c! "Sub-year groupings") s) := by
  by_cases h : SubYearForm s
  · obtain ⟨n, m, hn, hm, rfl⟩ := h
    have k : 10 ≤ m ∧ m ≤ 12 := by
      rcases hm with hm | ⟨a, b⟩
      · exact hm
      · exfalso
        by_cases hz : m ≤ 24
        · obtain ⟨z, rfl⟩ := season_of_code a hz
          exact h2 n hn z rfl
        · obtain ⟨g, rfl⟩ := grouping_all (show 25 ≤ m by omega) b
          exact h1 n hn g rfl
    obtain ⟨c, hc, c1, c2⟩ := subYear_found hn (.inl k)
    have : L2.groupingMonths (pad2 m) = none := by
      have tbl : ∀ m : Fin 13, 10 ≤ m.val → L2.groupingMonths (pad2 m.val) = none := by decide
      exact tbl ⟨m, by omega⟩ k.1
    unfold L2.parseSubYearGroupings
    rw [hc]
    simp only [c2, this]
    rfl
  · unfold L2.parseSubYearGroupings
    rw [submatch_none (by rw [show Rx.SubYearGrouping.matchString s = L2.isSubYearGrouping s from rfl, C60_subyear]; exact h)]
    rfl

/-- A season at the beginning and a name at the end: the beginning counts. -/
example : SeasonAt (c! "1985-22 or WINTER , 1990") 1985 6 1985 8 := .season false 1985 (by decide) .summer (c! " or WINTER , 1990")
example : SeasonAt (c! "about WINTER , 1990") 1990 12 1991 2 :=
  .name (c! "about ") (c! "WINTER") (c! " ") (c! " ") .winter 1990 (by decide) (by decide) (by decide) (by decide) (by
    rintro ⟨neg, n, m, rest, -, -, e⟩
    cases neg
    · injection e with e _; exact dig_mod_ne _ (by decide) e.symm
    · injection e with e _; exact absurd e (by decide))
example : monthsText 1990 12 1991 2 = c! "1990-12-01/1991-02-28" ∧ monthsText (-5) 3 (-5) 5 = c! "-005-03-01/-005-05-31" := by decide
/-- The winter of 9999 has no end for this parser. -/
example : ∃ y2, SeasonAt (c! "9999-24?") 9999 12 y2 2 ∧ 10000 ≤ y2 := ⟨_, .season false 9999 (by decide) .winter (c! "?"), by decide⟩
example : groupingText 1998 (c! "1999") (.north .winter) = c! "1998-12-01/1999-02" ∧ groupingText 1998 (c! "1999") (.quarter 1) = c! "1998-04-01/1998-06-30" := by decide
example : StartForm (c! "../1985") ∧ EndForm (c! "1985/") :=
  ⟨⟨c! "..", c! "1985", .inr rfl, ⟨⟨false, 1985, .none⟩, by unfold Date0.shaped; decide, rfl⟩, rfl⟩,
    ⟨c! "1985", [], ⟨⟨false, 1985, .none⟩, by unfold Date0.shaped; decide, rfl⟩, .inl rfl, rfl⟩⟩
/-- A qualified month is read as such by its own parser, but as a season by the others. -/
example : (∃ d, L1.parseQualifiedDate (c! "1985-04?") = .ok d ∧ d.feature = c! "Qualification of a date (complete)") ∧
    (∃ d, L1.parseString (c! "1985-04?") = .ok d ∧ d.feature = c! "Seasons") := ⟨⟨_, rfl, rfl⟩, ⟨_, rfl, rfl⟩⟩

/-! ### The parsers of the levels -/

/-- C65: the parser of Level 0 does what `ParseString` does, for its own forms. -/
theorem C65_all0 : SameOn L0.parseString parseString Level0Form (c! "Invalid Level 0 string") := by
  intro s
  refine ⟨fun h => ?_, fun h => ?_⟩
  · unfold parseString
    rw [if_pos (level0_form.2 h)]
  · unfold Level0Form at h
    simp only [not_or] at h
    unfold L0.parseString
    rw [if_neg (by rw [C58_date]; exact h.1), if_neg (by rw [C58_time]; exact h.2.1), if_neg (by rw [C58_interval]; exact h.2.2)]
    rfl

/-- C65: the parser of Level 1 takes the first form that fits. -/
theorem C65_all1 (s : Str) : First (.err (.invalid (c! "Extended Interval") s))
    [(LetterForm (c! "Y") s, L1.parseLetterPrefixedCalendarYear s), (SeasonStart s ∨ SeasonEnd s, L1.parseSeason s), (QualifiedForm s, L1.parseQualifiedDate s),
     (UnspecifiedForm (c! "X") s, L1.parseUnspecifiedDigits s), (NegativeForm s, L1.parseNegativeCalendarYear s),
     (StartForm s, L1.parseExtendedIntervalStart s), (EndForm s, L1.parseExtendedIntervalEnd s)] (L1.parseString s) := by
  unfold L1.parseString
  refine first_ite (C59_letter s) (first_ite season_form (first_ite (C59_qualified s) (first_ite (C59_unspecified s) (first_ite (C59_negative s) ?_))))
  rw [if_pos (isExtendedInterval_true s)]
  unfold L1.parseExtendedInterval
  exact first_ite start_form (first_ite end_form .none)

/-- C65: and so does the parser of Level 2. -/
theorem C65_all2 (s : Str) : First (.err (.invalid (c! "Invalid or unsupported Level 2 string") s))
    [(ExponentialForm s, L2.parseExponentialYear s), (SignificantForm (c! "Y") (c! "S") s, L2.parseSignificantDigits s),
     (SubYearForm s, L2.parseSubYearGroupings s), (SetForm s, L2.parseSetRepresentations s), (GroupForm s, L2.parseGroupQualification s),
     (EndpointForm false [] s, L2.parseIndividualQualification s), (DigitForm (c! "X") s, L2.parseUnspecifiedDigit s),
     (IntervalForm (c! "X") s, L2.parseInterval s)] (L2.parseString s) := by
  unfold L2.parseString
  exact first_ite (C60_exponential s) (first_ite (C60_significant s) (first_ite (C60_subyear s) (first_ite (C50_exact_partial s) (first_ite (C60_group s)
    (first_ite (C60_individual s) (first_ite (C60_digit s) (first_ite (C60_interval s) .none)))))))

end EDTF
