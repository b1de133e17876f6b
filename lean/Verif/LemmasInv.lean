/- Inversion of the feature parsers: what a successful call looks like. -/
import Verif.LemmasLang
namespace EDTF
open Spec

theorem mk_of_span {x : Res DateSpan} {s : Str} {l : Int} {ft : Str} {d : EDTFDate}
    (h : (x >>= fun sp => Res.ok (mkEDTF sp s l ft)) = .ok d) : ∃ sp, x = .ok sp ∧ d = mkEDTF sp s l ft := by
  obtain ⟨sp, h1, h2⟩ := Res.bind_eq_ok.1 h
  cases h2
  exact ⟨sp, h1, rfl⟩

/-- The shape shared by the parsers that only test a pattern. -/
theorem guard_inv {b : Bool} {e : Err} {x : Res DateSpan} {s : Str} {l : Int} {ft : Str} {d : EDTFDate}
    (h : (if !b then Res.err e else (x >>= fun sp => Res.ok (mkEDTF sp s l ft))) = .ok d) :
    b = true ∧ ∃ sp, x = .ok sp ∧ d = mkEDTF sp s l ft := by
  cases b
  · simp at h
  · exact ⟨rfl, mk_of_span (by simpa using h)⟩

theorem parseDateAndTime_inv {s : Str} {d : EDTFDate} (h : L0.parseDateAndTime s = .ok d) :
    ∃ t : Int, d = ⟨some { lower := some (Date.setTime {} t), upper := some (Date.setTime {} t) },
      some { lower := some (Date.setTime {} t), upper := some (Date.setTime {} t) }, s, 0, L0.DATE_AND_TIME⟩ ∧
      ∃ m t0, Rx.DateAndTime.submatch s = some m ∧ timeParse (L0.layoutFor m s) s = some t0 ∧
        t = (if hasPrefix s (c! "-") then timeToBCE t0 else t0) := by
  unfold L0.parseDateAndTime at h
  cases hm : Rx.DateAndTime.submatch s with
  | none => rw [hm] at h; cases h
  | some m =>
    rw [hm] at h
    simp only at h
    cases ht : timeParse (L0.layoutFor m s) s with
    | none => rw [ht] at h; cases h
    | some t =>
      rw [ht] at h
      simp only [Res.ok.injEq] at h
      exact ⟨_, h.symm, m, t, rfl, ht, rfl⟩

theorem parseLetter_inv {s : Str} {d : EDTFDate} (h : L1.parseLetterPrefixedCalendarYear s = .ok d) :
    ∃ m sp, Rx.LetterPrefixedCalendarYear.submatch s = some m ∧ dateSpanFromEDTF (m 1) = .ok sp ∧
      d = mkEDTF sp s 1 L1.LETTER_PREFIXED_CALENDAR_YEAR := by
  unfold L1.parseLetterPrefixedCalendarYear at h
  cases hm : Rx.LetterPrefixedCalendarYear.submatch s with
  | none => rw [hm] at h; cases h
  | some m =>
    rw [hm] at h
    simp only at h
    generalize (if hasPrefix (m 1) (c! "-") = true then 5 else 4) = k at h
    by_cases hc : (m 1).length > k
    · rw [if_pos hc] at h; cases h
    · rw [if_neg hc] at h
      obtain ⟨sp, h1, h2⟩ := mk_of_span h
      exact ⟨m, sp, rfl, h1, h2⟩

theorem parseSeason_inv {s : Str} {d : EDTFDate} (h : L1.parseSeason s = .ok d) :
    ∃ m w dm sp, Rx.Season.submatch s = some m ∧ L1.seasonSpan s m = .ok w ∧
      daysInMonth w.end_yyyy w.end_mm = .ok dm ∧ dateSpanFromEDTF (L1.seasonString w dm) = .ok sp ∧
      d = mkEDTF sp s 1 L1.SEASON := by
  unfold L1.parseSeason at h
  cases hm : Rx.Season.submatch s with
  | none => rw [hm] at h; cases h
  | some m =>
    rw [hm] at h
    simp only at h
    obtain ⟨w, h1, h⟩ := Res.bind_eq_ok.1 h
    obtain ⟨dm, h2, h⟩ := Res.bind_eq_ok.1 h
    obtain ⟨sp, h3, h4⟩ := mk_of_span h
    exact ⟨m, w, dm, sp, rfl, h1, h2, h3, h4⟩

theorem parseExtended_inv {s : Str} {d : EDTFDate} (h : L1.parseExtendedInterval s = .ok d) :
    (Rx.IntervalStart.matchString s = true ∧ ∃ sp, dateSpanFromEDTF s = .ok sp ∧ d = mkEDTF sp s 1 L1.EXTENDED_INTERVAL_START) ∨
    (Rx.IntervalStart.matchString s = false ∧ Rx.IntervalEnd.matchString s = true ∧
      ∃ sp, dateSpanFromEDTF s = .ok sp ∧ d = mkEDTF sp s 1 L1.EXTENDED_INTERVAL_END) := by
  unfold L1.parseExtendedInterval at h
  by_cases h1 : Rx.IntervalStart.matchString s = true
  · rw [if_pos h1] at h
    exact Or.inl (guard_inv h)
  · rw [if_neg h1] at h
    by_cases h2 : Rx.IntervalEnd.matchString s = true
    · rw [if_pos h2] at h
      exact Or.inr ⟨by simpa using h1, guard_inv h⟩
    · rw [if_neg h2] at h; cases h

theorem parseExponential_inv {s : Str} {d : EDTFDate} (h : L2.parseExponentialYear s = .ok d) :
    ∃ m y sp, Rx.ExponentialYear.submatch s = some m ∧ parseExponentialNotation (m 1) = .ok y ∧
      dateSpanFromEDTF (itoa y) = .ok sp ∧ d = mkEDTF sp s 2 L2.EXPONENTIAL_YEAR := by
  unfold L2.parseExponentialYear at h
  cases hm : Rx.ExponentialYear.submatch s with
  | none => rw [hm] at h; cases h
  | some m =>
    rw [hm] at h
    simp only at h
    obtain ⟨y, h1, h⟩ := Res.bind_eq_ok.1 h
    obtain ⟨sp, h3, h4⟩ := mk_of_span h
    exact ⟨m, y, sp, rfl, h1, h3, h4⟩

theorem parseSigDigits_inv {s : Str} {d : EDTFDate} (h : L2.parseSignificantDigits s = .ok d) :
    ∃ m y n str sp, Rx.SignificantDigits.submatch s = some m ∧ L2.sigYear s (m 1) (m 2) (m 3) = .ok y ∧
      ¬ (y > MAX_YEARS) ∧ atoi (m 4) = some n ∧ L2.sigString y n.toNat = .ok str ∧
      dateSpanFromEDTF str = .ok sp ∧ d = mkEDTF sp s 2 L2.SIGNIFICANT_DIGITS := by
  unfold L2.parseSignificantDigits at h
  cases hm : Rx.SignificantDigits.submatch s with
  | none => rw [hm] at h; cases h
  | some m =>
    rw [hm] at h
    simp only at h
    obtain ⟨y, h1, h⟩ := Res.bind_eq_ok.1 h
    by_cases hy : y > MAX_YEARS
    · rw [if_pos hy] at h; cases h
    rw [if_neg hy] at h
    cases hn : atoi (m 4) with
    | none => rw [hn] at h; cases h
    | some n =>
      rw [hn] at h
      simp only at h
      by_cases hc : (itoa n).length > (itoa y).length
      · rw [if_pos hc] at h; cases h
      rw [if_neg hc] at h
      obtain ⟨str, h2, h⟩ := Res.bind_eq_ok.1 h
      obtain ⟨sp, h3, h4⟩ := mk_of_span h
      exact ⟨m, y, n, str, sp, rfl, h1, hy, hn, h2, h3, h4⟩

theorem parseSubYear_inv {s : Str} {d : EDTFDate} (h : L2.parseSubYearGroupings s = .ok d) :
    ∃ m g ey sp, Rx.SubYearGrouping.submatch s = some m ∧ L2.groupingMonths (m 2) = some g ∧
      L2.groupingEndYear (m 1) g.2.2.2 = .ok ey ∧
      dateSpanFromEDTF (L2.groupingString (m 1) g.1 ey g.2.1 g.2.2.1) = .ok sp ∧
      d = mkEDTF sp s 2 L2.SUB_YEAR_GROUPINGS := by
  unfold L2.parseSubYearGroupings at h
  cases hm : Rx.SubYearGrouping.submatch s with
  | none => rw [hm] at h; cases h
  | some m =>
    rw [hm] at h
    simp only at h
    cases hg : L2.groupingMonths (m 2) with
    | none => rw [hg] at h; cases h
    | some g =>
      obtain ⟨a, b, c, e⟩ := g
      rw [hg] at h
      simp only at h
      obtain ⟨ey, h1, h⟩ := Res.bind_eq_ok.1 h
      obtain ⟨sp, h3, h4⟩ := mk_of_span h
      exact ⟨m, (a, b, c, e), ey, sp, rfl, hg, h1, h3, h4⟩

theorem parseSet_inv {s : Str} {d : EDTFDate} (h : L2.parseSetRepresentations s = .ok d) :
    ∃ m p mem sp, Rx.SetRepresentations.submatch s = some m ∧ L2.setKind s (m 1) = .ok p ∧
      L2.collectMembers s (splitChar ',' (m 2)) ⟨[], false, false⟩ = .ok mem ∧
      (sortStrings mem.possible).length ≠ 0 ∧
      L2.setSpan (sortStrings mem.possible) mem.start_open mem.end_open p = .ok sp ∧
      d = mkEDTF sp s 2 L2.SET_REPRESENTATIONS := by
  unfold L2.parseSetRepresentations at h
  cases hm : Rx.SetRepresentations.submatch s with
  | none => rw [hm] at h; cases h
  | some m =>
    rw [hm] at h
    simp only at h
    obtain ⟨p, h1, h⟩ := Res.bind_eq_ok.1 h
    obtain ⟨mem, h2, h⟩ := Res.bind_eq_ok.1 h
    by_cases hc : (sortStrings mem.possible).length = 0
    · rw [if_pos hc] at h; cases h
    rw [if_neg hc] at h
    obtain ⟨sp, h3, h4⟩ := mk_of_span h
    exact ⟨m, p, mem, sp, rfl, h1, h2, hc, h3, h4⟩

/-! ### The level parsers -/

theorem level0_inv {s : Str} {d : EDTFDate} (h : L0.parseString s = .ok d) :
    d.edtf = s ∧ d.level = 0 ∧ L0.matchesStr s = .ok d.feature := by
  unfold L0.parseString at h
  unfold L0.matchesStr
  by_cases h1 : L0.isDate s = true
  · rw [if_pos h1] at h
    obtain ⟨-, sp, -, rfl⟩ := guard_inv h
    rw [if_pos h1]; exact ⟨rfl, rfl, rfl⟩
  rw [if_neg h1] at h
  by_cases h2 : L0.isDateAndTime s = true
  · rw [if_pos h2] at h
    obtain ⟨t, rfl, -⟩ := parseDateAndTime_inv h
    rw [if_neg h1, if_pos h2]; exact ⟨rfl, rfl, rfl⟩
  rw [if_neg h2] at h
  by_cases h3 : L0.isTimeInterval s = true
  · rw [if_pos h3] at h
    obtain ⟨-, sp, -, rfl⟩ := guard_inv h
    rw [if_neg h1, if_neg h2, if_pos h3]; exact ⟨rfl, rfl, rfl⟩
  rw [if_neg h3] at h; cases h

theorem isExtendedInterval_true (s : Str) : L1.isExtendedInterval s = true := by
  unfold L1.isExtendedInterval; split
  · rfl
  · split <;> rfl

theorem level1_inv {s : Str} {d : EDTFDate} (h : L1.parseString s = .ok d) :
    d.edtf = s ∧ d.level = 1 ∧ L1.matchesStr s = .ok d.feature := by
  unfold L1.parseString at h
  unfold L1.matchesStr
  by_cases h1 : L1.isLetterPrefixedCalendarYear s = true
  · rw [if_pos h1] at h
    obtain ⟨m, sp, -, -, rfl⟩ := parseLetter_inv h
    rw [if_pos h1]; exact ⟨rfl, rfl, rfl⟩
  rw [if_neg h1] at h
  by_cases h2 : L1.isSeason s = true
  · rw [if_pos h2] at h
    obtain ⟨m, w, dm, sp, -, -, -, -, rfl⟩ := parseSeason_inv h
    rw [if_neg h1, if_pos h2]; exact ⟨rfl, rfl, rfl⟩
  rw [if_neg h2] at h
  by_cases h3 : L1.isQualifiedDate s = true
  · rw [if_pos h3] at h
    obtain ⟨-, sp, -, rfl⟩ := guard_inv h
    rw [if_neg h1, if_neg h2, if_pos h3]; exact ⟨rfl, rfl, rfl⟩
  rw [if_neg h3] at h
  by_cases h4 : L1.isUnspecifiedDigits s = true
  · rw [if_pos h4] at h
    obtain ⟨-, sp, -, rfl⟩ := guard_inv h
    rw [if_neg h1, if_neg h2, if_neg h3, if_pos h4]; exact ⟨rfl, rfl, rfl⟩
  rw [if_neg h4] at h
  by_cases h5 : L1.isNegativeCalendarYear s = true
  · rw [if_pos h5] at h
    obtain ⟨-, sp, -, rfl⟩ := guard_inv h
    rw [if_neg h1, if_neg h2, if_neg h3, if_neg h4, if_pos h5]; exact ⟨rfl, rfl, rfl⟩
  rw [if_neg h5] at h
  rw [if_pos (isExtendedInterval_true s)] at h
  rw [if_neg h1, if_neg h2, if_neg h3, if_neg h4, if_neg h5]
  rcases parseExtended_inv h with ⟨a, sp, -, rfl⟩ | ⟨a, b, sp, -, rfl⟩
  · rw [isExtendedInterval_true, a]; exact ⟨rfl, rfl, rfl⟩
  · rw [isExtendedInterval_true, a, b]; exact ⟨rfl, rfl, rfl⟩

theorem level2_inv {s : Str} {d : EDTFDate} (h : L2.parseString s = .ok d) :
    d.edtf = s ∧ d.level = 2 ∧ L2.matchesStr s = .ok d.feature := by
  unfold L2.parseString at h
  unfold L2.matchesStr
  by_cases h1 : L2.isExponentialYear s = true
  · rw [if_pos h1] at h
    obtain ⟨m, y, sp, -, -, -, rfl⟩ := parseExponential_inv h
    rw [if_pos h1]; exact ⟨rfl, rfl, rfl⟩
  rw [if_neg h1] at h
  by_cases h2 : L2.isSignificantDigits s = true
  · rw [if_pos h2] at h
    obtain ⟨m, y, n, str, sp, -, -, -, -, -, -, rfl⟩ := parseSigDigits_inv h
    rw [if_neg h1, if_pos h2]; exact ⟨rfl, rfl, rfl⟩
  rw [if_neg h2] at h
  by_cases h3 : L2.isSubYearGrouping s = true
  · rw [if_pos h3] at h
    obtain ⟨m, g, ey, sp, -, -, -, -, rfl⟩ := parseSubYear_inv h
    rw [if_neg h1, if_neg h2, if_pos h3]; exact ⟨rfl, rfl, rfl⟩
  rw [if_neg h3] at h
  by_cases h4 : L2.isSetRepresentation s = true
  · rw [if_pos h4] at h
    obtain ⟨m, p, mem, sp, -, -, -, -, -, rfl⟩ := parseSet_inv h
    rw [if_neg h1, if_neg h2, if_neg h3, if_pos h4]; exact ⟨rfl, rfl, rfl⟩
  rw [if_neg h4] at h
  rw [if_neg h1, if_neg h2, if_neg h3, if_neg h4]
  by_cases h5 : L2.isGroupQualification s = true
  · rw [if_pos h5] at h
    obtain ⟨-, sp, -, rfl⟩ := guard_inv h
    rw [if_pos h5]; exact ⟨rfl, rfl, rfl⟩
  rw [if_neg h5] at h
  by_cases h6 : L2.isIndividualQualification s = true
  · rw [if_pos h6] at h
    obtain ⟨-, sp, -, rfl⟩ := guard_inv h
    rw [if_neg h5, if_pos h6]; exact ⟨rfl, rfl, rfl⟩
  rw [if_neg h6] at h
  by_cases h7 : L2.isUnspecifiedDigit s = true
  · rw [if_pos h7] at h
    obtain ⟨-, sp, -, rfl⟩ := guard_inv h
    rw [if_neg h5, if_neg h6, if_pos h7]; exact ⟨rfl, rfl, rfl⟩
  rw [if_neg h7] at h
  by_cases h8 : L2.isInterval s = true
  · rw [if_pos h8] at h
    obtain ⟨-, sp, -, rfl⟩ := guard_inv h
    rw [if_neg h5, if_neg h6, if_neg h7, if_pos h8]; exact ⟨rfl, rfl, rfl⟩
  rw [if_neg h8] at h; cases h

/-- Inversion of the parser. -/
theorem parse_inv {s : Str} {d : EDTFDate} (h : parseString s = .ok d) :
    d.edtf = s ∧ isValid s = true ∧
    ((d.level = -1 ∧ (s = OPEN ∨ s = UNKNOWN)) ∨
     (matchesStr s = .ok (d.level, d.feature) ∧ (d.level = 0 ∨ d.level = 1 ∨ d.level = 2))) := by
  unfold parseString at h
  unfold isValid matchesStr
  by_cases h0 : L0.isLevel0 s = true
  · rw [if_pos h0] at h
    obtain ⟨a, b, c⟩ := level0_inv h
    rw [if_pos h0, if_pos h0, c, b]; exact ⟨a, rfl, Or.inr ⟨rfl, Or.inl rfl⟩⟩
  rw [if_neg h0] at h
  rw [if_neg h0, if_neg h0]
  by_cases h1 : L1.isLevel1 s = true
  · rw [if_pos h1] at h
    obtain ⟨a, b, c⟩ := level1_inv h
    rw [if_pos h1, if_pos h1, c, b]; exact ⟨a, rfl, Or.inr ⟨rfl, Or.inr (Or.inl rfl)⟩⟩
  rw [if_neg h1] at h
  rw [if_neg h1, if_neg h1]
  by_cases h2 : L2.isLevel2 s = true
  · rw [if_pos h2] at h
    obtain ⟨a, b, c⟩ := level2_inv h
    rw [if_pos h2, if_pos h2, c, b]; exact ⟨a, rfl, Or.inr ⟨rfl, Or.inr (Or.inr rfl)⟩⟩
  rw [if_neg h2] at h
  rw [if_neg h2, if_neg h2]
  by_cases h3 : s = OPEN
  · rw [if_pos h3] at h; cases h
    exact ⟨rfl, by simp [h3], Or.inl ⟨rfl, Or.inl h3⟩⟩
  rw [if_neg h3] at h
  by_cases h4 : s = UNKNOWN
  · rw [if_pos h4] at h; cases h
    exact ⟨rfl, by simp [h4], Or.inl ⟨rfl, Or.inr h4⟩⟩
  rw [if_neg h4] at h; cases h

end EDTF
