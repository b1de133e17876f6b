/-
Dropping the texts of errors gives back the model without them.
-/
import Verif.Message
namespace EDTF
namespace Told

theorem forget_bind {α β : Type} (x : Told α) (f : α → Told β) : (x >>= f).forget = x.forget >>= fun a => (f a).forget := by
  cases x <;> rfl

theorem forget_lift {α : Type} (r : Res α) : (lift r).forget = r := by
  cases r <;> rfl

theorem forget_ite {α : Type} (c : Prop) [Decidable c] (x y : Told α) : (if c then x else y).forget = if c then x.forget else y.forget := by
  split <;> rfl

theorem bind_fault {α β : Type} {x : Told α} {f : α → Told β} {e : Fault} :
    (x >>= f) = .fault e ↔ x = .fault e ∨ ∃ a, x = .ok a ∧ f a = .fault e := by
  change Told.bind x f = _ ↔ _
  cases x <;> simp [Told.bind]

theorem forget_ok {α : Type} {x : Told α} {a : α} : x.forget = .ok a ↔ x = .ok a := by
  cases x <;> simp [forget]

theorem forget_says {α : Type} {x : Told α} {t : Str} (h : x = .says t) : x.forget = .err .plain := by
  rw [h]; rfl

theorem lift_says {α : Type} {r : Res α} {t : Str} (h : lift r = .says t) : r = .err .plain := by
  have := forget_says h
  rwa [forget_lift] at this

end Told

open Told

theorem parseIntM_forget (b : Nat) (s : Str) : (parseIntM b s).forget = Res.ofOption (parseInt b s) := by
  unfold parseIntM; cases parseInt b s <;> rfl

theorem atoiM_forget (s : Str) : (atoiM s).forget = Res.ofOption (atoi s) := by
  unfold atoiM; cases atoi s <;> rfl

theorem parseToksM_forget (l : List Tok) (f : Fields) (s : Str) :
    parseToks l f s = (match parseToksM l f s with | .inl g => some g | .inr _ => none) := by
  induction l generalizing f s with
  | nil => unfold parseToks parseToksM; split <;> rfl
  | cons t ts ih =>
    unfold parseToks parseToksM
    cases parseTok t f s with
    | none => rfl
    | some p => exact ih _ _

theorem timeParseM_forget (l : List Tok) (s : Str) : (timeParseM l s).forget = Res.ofOption (timeParse l s) := by
  unfold timeParseM timeParse
  rw [parseToksM_forget]
  cases parseToksM l {} s with
  | inl f => simp only; split <;> rfl
  | inr e => rfl

theorem daysInMonthM_forget (y m : Int) : (daysInMonthM y m).forget = daysInMonth y m := by
  unfold daysInMonthM daysInMonth
  simp only [forget_bind, timeParseM_forget]
  generalize timeParse _ _ = o
  cases o <;> rfl

theorem daysInMonthWithStringM_forget (s : Str) : (daysInMonthWithStringM s).forget = daysInMonthWithString s := by
  unfold daysInMonthWithStringM daysInMonthWithString
  simp only
  rcases splitChar '-' s with _ | ⟨a, _ | ⟨b, _ | ⟨c, _ | ⟨d, l⟩⟩⟩⟩ <;>
    first | rfl | simp only [forget_bind, atoiM_forget, daysInMonthM_forget]

theorem atoiOrZeroM_forget (s : Str) : (atoiOrZeroM s).forget = atoiOrZero s := by
  unfold atoiOrZeroM atoiOrZero
  split
  · exact atoiM_forget s
  · rfl

theorem ymdFromStringsM_forget (a b c : Str) : (ymdFromStringsM a b c).forget = ymdFromStrings a b c := by
  unfold ymdFromStringsM ymdFromStrings
  simp only [forget_ite, forget_bind, atoiM_forget, atoiOrZeroM_forget, daysInMonthM_forget]
  rfl

theorem ymdFromStringM_forget (s : Str) : (ymdFromStringM s).forget = ymdFromString s := by
  unfold ymdFromStringM ymdFromString
  rcases splitChar '-' s with _ | ⟨a, _ | ⟨b, _ | ⟨c, _ | ⟨d, _ | ⟨e, l⟩⟩⟩⟩⟩ <;> first | rfl | exact ymdFromStringsM_forget _ _ _

theorem timeWithYMDM_forget (v : YMD) (h : Str) : (timeWithYMDM v h).forget = timeWithYMD v h := by
  unfold timeWithYMDM timeWithYMD
  simp only [forget_bind, timeParseM_forget]
  generalize timeParse _ _ = o
  cases o <;> rfl

theorem yearDigitM_forget (c : Char) (n : Int) (p q : Prec) : (yearDigitM c n p q).forget = yearDigit c n p q := by
  unfold yearDigitM yearDigit
  simp only [forget_ite, forget_bind, parseIntM_forget]
  rfl

theorem yearRangeM_forget (e y : Str) : (yearRangeM e y).forget = yearRange e y := by
  unfold yearRangeM yearRange
  simp only [forget_ite, forget_bind, forget_lift, parseIntM_forget, yearDigitM_forget]
  rfl

theorem endDayM_forget (a b c : Str) : (endDayM a b c).forget = endDay a b c := by
  unfold endDayM endDay
  simp only [forget_ite, forget_bind, daysInMonthWithStringM_forget]
  rfl

theorem stringRangeFromYMDM_forget (s : Str) : (stringRangeFromYMDM s).forget = stringRangeFromYMD s := by
  unfold stringRangeFromYMDM stringRangeFromYMD
  generalize Rx.YMD.submatch s = o
  cases o with
  | none => rfl
  | some m =>
    simp only [forget_bind, forget_lift, yearRangeM_forget, endDayM_forget]
    rfl

theorem spanTimesM_forget (b : Bool) (v w : YMD) : (spanTimesM b v w).forget = spanTimes b v w := by
  unfold spanTimesM spanTimes
  simp only [forget_ite, forget_bind, timeWithYMDM_forget]
  rfl

theorem dateSpanFromYMDM_forget (s : Str) : (dateSpanFromYMDM s).forget = dateSpanFromYMD s := by
  unfold dateSpanFromYMDM dateSpanFromYMD
  simp only [forget_bind, stringRangeFromYMDM_forget, ymdFromStringsM_forget, spanTimesM_forget]
  rfl

theorem halfSpanM_forget (s : Str) : (halfSpanM s).forget = halfSpan s := by
  unfold halfSpanM halfSpan
  simp only [forget_ite, dateSpanFromYMDM_forget]
  rfl

theorem dateSpanFromEDTFM_forget (s : Str) : (dateSpanFromEDTFM s).forget = dateSpanFromEDTF s := by
  unfold dateSpanFromEDTFM dateSpanFromEDTF
  rcases splitChar '/' s with _ | ⟨a, _ | ⟨b, _ | ⟨c, l⟩⟩⟩
  · rfl
  · exact dateSpanFromYMDM_forget _
  · simp only [forget_bind, halfSpanM_forget, forget_lift]
  · rfl

theorem parseExponentialNotationM_forget (s : Str) : (parseExponentialNotationM s).forget = parseExponentialNotation s := by
  unfold parseExponentialNotationM parseExponentialNotation
  simp only
  generalize splitE _ = o
  cases o with
  | none => rfl
  | some q =>
    simp only [forget_ite]
    split
    · rfl
    · rw [forget_bind, parseIntM_forget]
      congr 1
      funext e
      generalize BF.ofExp _ _ = o
      rcases o with _ | _ | ⟨m, x⟩
      · rfl
      all_goals first | rfl | (rw [forget_ite]; rfl)

theorem parseWholeM_forget (b : Bool) (s : Str) (l : Int) (f : Str) : (parseWholeM b s l f).forget =
    if !b then .err (Invalid f s) else dateSpanFromEDTF s >>= fun sp => .ok (mkEDTF sp s l f) := by
  unfold parseWholeM
  simp only [forget_ite, forget_bind, dateSpanFromEDTFM_forget]
  rfl

namespace L0

theorem parseDateAndTimeM_forget (s : Str) : (parseDateAndTimeM s).forget = parseDateAndTime s := by
  unfold parseDateAndTimeM parseDateAndTime
  generalize Rx.DateAndTime.submatch s = o
  cases o with
  | none => rfl
  | some m =>
    simp only [forget_bind, timeParseM_forget]
    generalize timeParse _ _ = o
    cases o <;> rfl

theorem parseStringM_forget (s : Str) : (parseStringM s).forget = parseString s := by
  unfold parseStringM parseString parseDateM parseTimeIntervalM
  simp only [forget_ite, parseWholeM_forget, parseDateAndTimeM_forget]
  rfl

end L0

namespace L1

theorem parseLetterPrefixedCalendarYearM_forget (s : Str) : (parseLetterPrefixedCalendarYearM s).forget = parseLetterPrefixedCalendarYear s := by
  unfold parseLetterPrefixedCalendarYearM parseLetterPrefixedCalendarYear
  generalize Rx.LetterPrefixedCalendarYear.submatch s = o
  cases o with
  | none => rfl
  | some m =>
    simp only [forget_ite, forget_bind, dateSpanFromEDTFM_forget]
    rfl

theorem seasonSpanM_forget (s : Str) (m : Nat → Str) : (seasonSpanM s m).forget = seasonSpan s m := by
  unfold seasonSpanM seasonSpan seasonOfTextM seasonOfText seasonOfNumM seasonOfNum
  simp only [forget_ite, forget_bind, atoiM_forget]
  rfl

theorem parseSeasonM_forget (s : Str) : (parseSeasonM s).forget = parseSeason s := by
  unfold parseSeasonM parseSeason
  generalize Rx.Season.submatch s = o
  cases o with
  | none => rfl
  | some m =>
    simp only [forget_bind, seasonSpanM_forget, daysInMonthM_forget, dateSpanFromEDTFM_forget]
    rfl

theorem parseStringM_forget (s : Str) : (parseStringM s).forget = parseString s := by
  unfold parseStringM parseString parseQualifiedDateM parseUnspecifiedDigitsM parseNegativeCalendarYearM parseExtendedIntervalM
  simp only [forget_ite, parseWholeM_forget, parseLetterPrefixedCalendarYearM_forget, parseSeasonM_forget]
  rfl

end L1

namespace L2

theorem parseExponentialYearM_forget (s : Str) : (parseExponentialYearM s).forget = parseExponentialYear s := by
  unfold parseExponentialYearM parseExponentialYear
  generalize Rx.ExponentialYear.submatch s = o
  cases o with
  | none => rfl
  | some m =>
    simp only [forget_bind, parseExponentialNotationM_forget, dateSpanFromEDTFM_forget]
    rfl

theorem sigYearM_forget (s a b c : Str) : (sigYearM s a b c).forget = sigYear s a b c := by
  unfold sigYearM sigYear
  simp only [forget_ite, parseExponentialNotationM_forget]
  cases atoi a <;> cases atoi b <;> rfl

theorem parseSignificantDigitsM_forget (s : Str) : (parseSignificantDigitsM s).forget = parseSignificantDigits s := by
  unfold parseSignificantDigitsM parseSignificantDigits
  generalize Rx.SignificantDigits.submatch s = o
  cases o with
  | none => rfl
  | some m =>
    rw [forget_bind, sigYearM_forget]
    congr 1
    funext y
    rw [forget_ite]
    split
    · rfl
    · generalize atoi _ = o
      cases o with
      | none => rfl
      | some k =>
        simp only [forget_ite, forget_bind, forget_lift, dateSpanFromEDTFM_forget]
        rfl

theorem parseSubYearGroupingsM_forget (s : Str) : (parseSubYearGroupingsM s).forget = parseSubYearGroupings s := by
  have h : ∀ y n, (groupingEndYearM y n).forget = groupingEndYear y n := by
    intro y n
    unfold groupingEndYearM groupingEndYear
    simp only [forget_ite, forget_bind, atoiM_forget]
    rfl
  unfold parseSubYearGroupingsM parseSubYearGroupings
  generalize Rx.SubYearGrouping.submatch s = o
  cases o with
  | none => rfl
  | some m =>
    simp only
    generalize groupingMonths _ = o
    rcases o with _ | ⟨a, b, c, d⟩
    · rfl
    · simp only [forget_bind, h, dateSpanFromEDTFM_forget]
      rfl

theorem setSpanM_forget (l : List Str) (a b : Bool) (p : Prec) : (setSpanM l a b p).forget = setSpan l a b p := by
  unfold setSpanM setSpan
  simp only [forget_bind, forget_lift, dateSpanFromEDTFM_forget]
  rfl

theorem parseSetRepresentationsM_forget (s : Str) : (parseSetRepresentationsM s).forget = parseSetRepresentations s := by
  unfold parseSetRepresentationsM parseSetRepresentations
  generalize Rx.SetRepresentations.submatch s = o
  cases o with
  | none => rfl
  | some m =>
    simp only [forget_ite, forget_bind, forget_lift, setSpanM_forget]
    rfl

theorem parseStringM_forget (s : Str) : (parseStringM s).forget = parseString s := by
  unfold parseStringM parseString parseGroupQualificationM parseIndividualQualificationM parseUnspecifiedDigitM parseIntervalM
  simp only [forget_ite, parseWholeM_forget, parseExponentialYearM_forget, parseSignificantDigitsM_forget, parseSubYearGroupingsM_forget,
    parseSetRepresentationsM_forget]
  rfl

end L2

theorem parseStringM_forget (s : Str) : (parseStringM s).forget = parseString s := by
  unfold parseStringM parseString
  simp only [forget_ite, L0.parseStringM_forget, L1.parseStringM_forget, L2.parseStringM_forget]
  rfl

/-- The two parsers end in the same way. -/
theorem parseStringM_cases (s : Str) : (∃ d, parseStringM s = .ok d ∧ parseString s = .ok d) ∨
    (∃ f, parseStringM s = .fault f ∧ parseString s = .err f.err) ∨ (parseStringM s = .panic ∧ parseString s = .panic) := by
  have h := parseStringM_forget s
  cases k : parseStringM s with
  | ok d => rw [k] at h; exact .inl ⟨d, rfl, h.symm⟩
  | fault f => rw [k] at h; exact .inr (.inl ⟨f, rfl, h.symm⟩)
  | panic => rw [k] at h; exact .inr (.inr ⟨rfl, h.symm⟩)

end EDTF
