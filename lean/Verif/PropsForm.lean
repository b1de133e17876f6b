/- C58 to C61: the tests recognise written forms; and C50 again. -/
import Verif.LemmasForm
import Verif.PropsMisc
namespace EDTF
open Spec

theorem lang_seasonNameForm {w : Str} : Lang (Rx.seasonText 3) w ↔ SeasonNameForm w := by
  constructor
  · intro h
    obtain ⟨u, _, rfl, hu, h⟩ := lang_cat.1 h
    obtain ⟨t1, _, rfl, h1, h⟩ := lang_cat.1 h
    obtain ⟨c, _, rfl, hc, h⟩ := lang_cat.1 h
    obtain ⟨t2, y, rfl, h2, hy⟩ := lang_cat.1 h
    obtain ⟨z, hz⟩ := lang_seasonWord_iff.1 (lang_grp.1 hu)
    obtain ⟨n, hn, rfl⟩ := lang_four.1 (lang_grp.1 hy)
    obtain ⟨c, rfl, hc⟩ := hc
    exact ⟨u, t1, t2, z, n, hz, blank_iff.2 (lang_blanks.1 h1), blank_iff.2 (lang_blanks.1 h2), hn, by rw [fold_comma hc]; simp⟩
  · rintro ⟨u, t1, t2, z, n, hz, h1, h2, hn, rfl⟩
    exact lang_seasonText z ((lang_word_iff (season_low z).1 (season_low z).2).2 hz) h1 h2 hn

/-! ### C58 -/

/-- C58: the tests of Level 0. -/
theorem C58_date (s : Str) : L0.isDate s = true ↔ DateShape s :=
  (matchString_anch _ (by decide) s).trans lang_dateForm
theorem C58_time (s : Str) : L0.isDateAndTime s = true ↔ TimeForm s :=
  (matchString_anch _ (by decide) s).trans lang_timeForm
theorem C58_interval (s : Str) : L0.isTimeInterval s = true ↔ PairForm s :=
  (matchString_anch _ (by decide) s).trans lang_pair

/- Beside C58: a day that does not exist and an hour that does not exist are still of
the form; a month that does not exist is not. -/
example : L0.isDate (c! "-2021-02-31") = true := (C58_date _).2 ⟨⟨true, 2021, .day 2 31⟩, by unfold Date0.shaped; decide, rfl⟩
example : L0.isDateAndTime (c! "2021-02-03T99:00:61+14:30") = true :=
  (C58_time _).2 ⟨c! "2021-02-03", 99, 0, 61, c! "+14:30", ⟨⟨false, 2021, .day 2 3⟩, by unfold Date0.shaped; decide, rfl⟩, by decide, by decide, by decide,
    .minutes '+' (by decide) 14 30 (by decide) (by decide), rfl⟩
example : L0.isDate (c! "2021-13") = false := by decide +kernel

/-! ### C59 -/

/-- C59: the tests of Level 1, but for those of C48 and C49. -/
theorem C59_letter (s : Str) : L1.isLetterPrefixedCalendarYear s = true ↔ LetterForm (c! "Y") s := isLetter_iff.trans lang_letterForm
theorem C59_qualified (s : Str) : L1.isQualifiedDate s = true ↔ QualifiedForm s := isQualifiedDate_iff.trans lang_qualifiedForm
theorem C59_unspecified (s : Str) : L1.isUnspecifiedDigits s = true ↔ UnspecifiedForm (c! "X") s := isUnspecifiedDigits_iff.trans lang_unspecifiedForm
theorem C59_negative (s : Str) : L1.isNegativeCalendarYear s = true ↔ NegativeForm s := isNegativeYear_iff.trans lang_negativeForm

/- Beside C59: a date without any unspecified digit; a year with two minus signs. -/
example : L1.isUnspecifiedDigits (c! "2004-X1-3X") = true ∧ L1.isUnspecifiedDigits (c! "2004-06-10") = false :=
  ⟨(C59_unspecified _).2 ⟨c! "2004", c! "-X1-3X", by unfold Places; decide, rfl, Or.inr ⟨c! "X1", c! "-3X", ⟨'X', '1', rfl, by decide⟩, rfl,
    Or.inr ⟨c! "3X", ⟨'3', 'X', rfl, by decide⟩, rfl⟩⟩⟩, by decide +kernel⟩
example : L1.isNegativeCalendarYear (c! "--0044") = true := (C59_negative _).2 ⟨true, 44, by decide, rfl⟩
example : L1.isLetterPrefixedCalendarYear (c! "Y-170000002") = true :=
  (C59_letter _).2 ⟨'Y', by decide, true, [1, 7, 0, 0, 0, 0, 0, 0, 2], by unfold Digits; decide, rfl⟩
example : L1.isQualifiedDate (c! "2004-06%") = true := (C59_qualified _).2 ⟨c! "2004-06", ⟨⟨false, 2004, .month 6⟩, by unfold Date0.shaped; decide, rfl⟩, '%', by decide, rfl⟩

/-! ### C60 -/

/-- C60: the tests of Level 2, but for that of C50. -/
theorem C60_exponential (s : Str) : L2.isExponentialYear s = true ↔ ExponentialForm s := isExponential_iff.trans lang_exponentialForm
theorem C60_significant (s : Str) : L2.isSignificantDigits s = true ↔ SignificantForm (c! "Y") (c! "S") s := isSig_iff.trans lang_significantForm
theorem C60_subyear (s : Str) : L2.isSubYearGrouping s = true ↔ SubYearForm s := isSubYear_iff.trans lang_subYearForm
theorem C60_group (s : Str) : L2.isGroupQualification s = true ↔ GroupForm s := isGroup_iff.trans lang_groupForm
theorem C60_individual (s : Str) : L2.isIndividualQualification s = true ↔ EndpointForm false [] s := isIndividual_iff.trans lang_individualForm
theorem C60_digit (s : Str) : L2.isUnspecifiedDigit s = true ↔ DigitForm (c! "X") s := isUnspecifiedDigit_iff.trans lang_digitForm
theorem C60_interval (s : Str) : L2.isInterval s = true ↔ IntervalForm (c! "X") s := isInterval_iff.trans lang_intervalForm

/- Beside C60. -/
example : L2.isExponentialYear (c! "y-17e7") = true :=
  (C60_exponential _).2 ⟨'y', by decide, 'e', by decide, true, [1, 7], [7], by unfold Digits; decide, by unfold Digits; decide, rfl⟩
example : L2.isSignificantDigits (c! "Y171010000S3") = true :=
  (C60_significant _).2 ⟨c! "Y171010000", Or.inr (Or.inl ⟨'Y', by decide, false, [1, 7, 1, 0, 1, 0, 0, 0, 0], by unfold Digits; decide, rfl⟩),
    'S', by decide, [3], by unfold Digits; decide, rfl⟩
example : L2.isGroupQualification (c! "2004-99~-00?") = true :=
  (C60_group _).2 ⟨c! "2004", [], c! "-99~-00?", by unfold Places; decide, Or.inl rfl, rfl, Or.inr ⟨c! "99", c! "~", c! "-00?", by unfold Places; decide,
    Or.inr ⟨'~', by decide, rfl⟩, rfl, Or.inr ⟨c! "00", c! "?", by unfold Places; decide, Or.inr ⟨'?', by decide, rfl⟩, rfl⟩⟩⟩
example : L2.isInterval (c! "?-20XX/~2004-%XX") = true :=
  (C60_interval _).2 ⟨c! "?-20XX", c! "~2004-%XX",
    ⟨c! "?", true, c! "20XX", [], Or.inr ⟨'?', by decide, rfl⟩, fun _ => rfl, by unfold Places; decide, rfl, Or.inl rfl⟩,
    ⟨c! "~", false, c! "2004", c! "-%XX", Or.inr ⟨'~', by decide, rfl⟩, by simp, by unfold Places; decide, rfl,
      Or.inr ⟨c! "%", c! "XX", [], Or.inr ⟨'%', by decide, rfl⟩, by unfold Places; decide, rfl, Or.inl rfl⟩⟩, rfl⟩

/-- C50, what the test accepts.  Missing: that the brackets match, and that only commas
and pairs of dots between two dates are allowed. -/
theorem C50_exact_partial (s : Str) : L2.isSetRepresentation s = true ↔ SetForm s := isSet_iff.trans lang_setForm

/- Beside C50: dates with nothing between them. -/
example : L2.isSetRepresentation (c! "{..16671668-12..,]") = false ∧ L2.isSetRepresentation (c! "{..16671668-12..]") = true :=
  ⟨by decide +kernel, (C50_exact_partial _).2 ⟨'{', by decide, ']', by decide, c! "..", c! "16671668-12..", [], Or.inr rfl,
    .more (p := []) ⟨⟨false, 1667, .none⟩, by unfold Date0.shaped; decide, rfl⟩ (by simp) (.one ⟨⟨false, 1668, .month 12⟩, by unfold Date0.shaped; decide, rfl⟩ (Or.inr (Or.inr rfl))), Or.inl rfl, rfl⟩⟩

/-! ### C61 -/

/-- C61, Level 0: the test of the level holds of the forms of the level. -/
theorem C61_level0 (s : Str) : L0.isLevel0 s = true ↔ DateShape s ∨ TimeForm s ∨ PairForm s := by
  rw [isLevel0_iff, Bool.or_eq_true, Bool.or_eq_true, C58_date, C58_time, C58_interval, or_assoc]

/-- C61, Level 1: the forms of the level, where a small `x` may stand for `X`. -/
theorem C61_level1_partial (s : Str) : L1.isLevel1 s = true ↔
    LetterForm (c! "Y") s ∨ SeasonForm s ∨ SeasonNameForm s ∨ QualifiedForm s ∨ UnspecifiedForm (c! "Xx") s ∨ StartForm s ∨ EndForm s ∨ NegativeForm s := by
  rw [isLevel1_iff, lang_letterForm, lang_seasonForm, lang_seasonNameForm, lang_qualifiedForm, lang_unspecifiedForm', lang_startForm, lang_endForm,
    lang_negativeForm]

/-- C61, Level 2: anything that begins with one of the forms of the level, in capital or
small letters. -/
theorem C61_level2_partial (s : Str) : L2.isLevel2 s = true ↔ ∃ u v, s = u ++ v ∧
    (ExponentialForm u ∨ SignificantForm (c! "Yy") (c! "Ssſ") u ∨ SubYearForm u ∨ SetForm u ∨ GroupForm u ∨ EndpointForm false [] u ∨
      DigitForm (c! "Xx") u ∨ IntervalForm (c! "Xx") u) := by
  rw [isLevel2_iff]
  simp only [lang_exponentialForm, lang_significantForm', lang_subYearForm, lang_setForm, lang_groupForm, lang_individualForm, lang_digitForm', lang_intervalForm']

/-- C61, a consequence: whatever begins with four digits is taken for Level 2 (or for a
lower level), and so is "valid". -/
theorem C61_four_digits {n : Nat} (h : n < 10000) (rest : Str) : L2.isLevel2 (pad4 n ++ rest) = true ∧ isValid (pad4 n ++ rest) = true := by
  have k : L2.isLevel2 (pad4 n ++ rest) = true :=
    (C61_level2_partial _).2 ⟨pad4 n, rest, rfl, Or.inr (Or.inr (Or.inr (Or.inr (Or.inl ⟨pad4 n, [], [],
      (lang_places4 lang_place).1 (lang_digits4.2 ⟨n, h, rfl⟩), Or.inl rfl, by simp, Or.inl rfl⟩))))⟩
  refine ⟨k, ?_⟩
  unfold isValid
  rw [k]
  split
  · rfl
  · split <;> rfl

example : pad4 1985 ++ c! " was a year" = c! "1985 was a year" ∧ isValid (c! "1985 was a year") = true ∧ L2.isLevel2 (c! "1985 was a year") = true := by decide +kernel

/-- C61, what `IsValid` accepts: the forms of the three levels, the open and the unknown
date. -/
theorem C61_valid_partial (s : Str) : isValid s = true ↔
    L0.isLevel0 s = true ∨ L1.isLevel1 s = true ∨ L2.isLevel2 s = true ∨ s = c! ".." ∨ s = [] := by
  unfold isValid
  cases L0.isLevel0 s <;> cases L1.isLevel1 s <;> cases L2.isLevel2 s <;> simp [OPEN, UNKNOWN, UNSPECIFIED]

/-- C61 fails as stated. -/
theorem C61_negation : L1.isLevel1 (c! "200x") = true ∧ ¬ UnspecifiedForm (c! "X") (c! "200x") ∧ L2.isLevel2 (c! "2004 or so") = true ∧
    (∃ e, parseString (c! "2004 or so") = .err e ∧ isUnrecognized e = false) := by
  refine ⟨by decide +kernel, ?_, (C61_four_digits (n := 2004) (by decide) (c! " or so")).1, ?_⟩
  · rw [← C59_unspecified]
    decide +kernel
  · exact ⟨_, rfl, rfl⟩

/- Beside C61. -/
example : L1.isLevel1 (c! "SpRing ,  2004") = true :=
  (C61_level1_partial _).2 (Or.inr (Or.inr (Or.inl ⟨c! "SpRing", c! " ", c! "  ", .spring, 2004, by decide +kernel, by decide, by decide, by decide, rfl⟩)))
example : L2.isLevel2 (c! "y12ſ3!") = true :=
  (C61_level2_partial _).2 ⟨c! "y12ſ3", c! "!", rfl, Or.inr (Or.inl ⟨c! "y12", Or.inr (Or.inl ⟨'y', by decide, false, [1, 2], by unfold Digits; decide, rfl⟩),
    'ſ', by decide, [3], by unfold Digits; decide, rfl⟩)⟩

end EDTF
