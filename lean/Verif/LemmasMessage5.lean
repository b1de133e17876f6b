/-
An error that is not plain has the text of its type.
-/
import Verif.LemmasMessage4
namespace EDTF

/-- Errors that are not plain have the text of their type. -/
def Told.Fair {α : Type} (x : Told α) : Prop := ∀ f, x = .fault f → f.err = .plain ∨ f.text = f.err.text.getD []

namespace Told

theorem Fair.ok {α : Type} {a : α} : Fair (ok a) := nofun
theorem Fair.panic {α : Type} : Fair (panic : Told α) := nofun
theorem Fair.known {α : Type} {e : Err} : Fair (fault (.known e) : Told α) := by
  intro f h; injection h with h; subst h; exact .inr rfl
theorem Fair.says {α : Type} {t : Str} : Fair (says t : Told α) := by
  intro f h; injection h with h; subst h; exact .inl rfl
theorem Fair.lift {α : Type} {r : Res α} : Fair (Told.lift r) := by
  cases r
  · exact Fair.ok
  · exact Fair.known
  · exact Fair.panic
theorem Fair.bind {α β : Type} {x : Told α} {g : α → Told β} (h : Fair x) (k : ∀ a, Fair (g a)) : Fair (x >>= g) := by
  intro f e
  rcases bind_fault.1 e with e | ⟨a, -, e⟩
  · exact h f e
  · exact k a f e
theorem Fair.ite {α : Type} {p : Prop} [Decidable p] {x y : Told α} (h : Fair x) (k : Fair y) : Fair (if p then x else y) := by
  split
  · exact h
  · exact k

end Told
open Told

/-- Goes through the steps of a function. -/
macro "fair" : tactic => `(tactic| repeat' first
  | assumption
  | exact Fair.ok
  | exact Fair.panic
  | exact Fair.known
  | exact Fair.says
  | exact Fair.lift
  | exact Fair.ite ‹_› ‹_›
  | refine Fair.bind ?_ fun _ => ?_
  | refine Fair.ite ?_ ?_
  | split)

theorem parseIntM_fair (b : Nat) (s : Str) : (parseIntM b s).Fair := by unfold parseIntM; fair
theorem atoiM_fair (s : Str) : (atoiM s).Fair := by unfold atoiM; fair
theorem atoiOrZeroM_fair (s : Str) : (atoiOrZeroM s).Fair := by
  have := atoiM_fair s
  unfold atoiOrZeroM; fair
theorem timeParseM_fair (l : List Tok) (s : Str) : (timeParseM l s).Fair := by unfold timeParseM; fair
theorem daysInMonthM_fair (y m : Int) : (daysInMonthM y m).Fair := by
  have := timeParseM_fair
  unfold daysInMonthM
  exact Fair.bind (this _ _) fun _ => Fair.ok
theorem daysInMonthWithStringM_fair (s : Str) : (daysInMonthWithStringM s).Fair := by
  have h : ∀ a b : Str, Fair (do let y ← atoiM a; let m ← atoiM b; daysInMonthM y m) := fun a b =>
    Fair.bind (atoiM_fair _) fun _ => Fair.bind (atoiM_fair _) fun _ => daysInMonthM_fair _ _
  unfold daysInMonthWithStringM
  simp only
  split
  · exact h _ _
  · exact h _ _
  · fair
theorem ymdFromStringsM_fair (a b c : Str) : (ymdFromStringsM a b c).Fair := by
  have h1 := atoiM_fair
  have h2 := atoiOrZeroM_fair
  have h3 := daysInMonthM_fair
  unfold ymdFromStringsM
  repeat' first
    | exact h1 _
    | exact h2 _
    | exact h3 _ _
    | exact Fair.ok
    | exact Fair.known
    | exact Fair.says
    | refine Fair.bind ?_ fun _ => ?_
    | refine Fair.ite ?_ ?_
theorem timeWithYMDM_fair (v : YMD) (h : Str) : (timeWithYMDM v h).Fair := by
  unfold timeWithYMDM
  exact Fair.bind (timeParseM_fair _ _) fun _ => Fair.ok
theorem yearDigitM_fair (c : Char) (n : Int) (p q : Prec) : (yearDigitM c n p q).Fair := by
  unfold yearDigitM
  exact Fair.ite (Fair.bind (parseIntM_fair _ _) fun _ => Fair.ok) Fair.ok
theorem yearRangeM_fair (e y : Str) : (yearRangeM e y).Fair := by
  have h1 := parseIntM_fair
  have h2 := yearDigitM_fair
  unfold yearRangeM
  repeat' first
    | exact h1 _ _
    | exact h2 _ _ _ _
    | exact Fair.ok
    | exact Fair.known
    | exact Fair.lift
    | refine Fair.bind ?_ fun _ => ?_
    | refine Fair.ite ?_ ?_
theorem endDayM_fair (a b c : Str) : (endDayM a b c).Fair := by
  unfold endDayM
  exact Fair.ite (Fair.bind (daysInMonthWithStringM_fair _) fun _ => Fair.ok) Fair.ok
theorem stringRangeFromYMDM_fair (s : Str) : (stringRangeFromYMDM s).Fair := by
  have h1 := yearRangeM_fair
  have h2 := endDayM_fair
  unfold stringRangeFromYMDM
  split
  · exact Fair.known
  · repeat' first
      | exact h1 _ _
      | exact h2 _ _ _
      | exact Fair.ok
      | exact Fair.lift
      | refine Fair.bind ?_ fun _ => ?_
theorem spanTimesM_fair (b : Bool) (v w : YMD) : (spanTimesM b v w).Fair := by
  unfold spanTimesM
  exact Fair.ite
    (Fair.bind (timeWithYMDM_fair v HMS_LOWER) fun _ => Fair.bind (timeWithYMDM_fair w HMS_UPPER) fun _ => Fair.ok)
    (Fair.bind (timeWithYMDM_fair v HMS_LOWER) fun _ => Fair.bind (timeWithYMDM_fair v HMS_UPPER) fun _ =>
      Fair.bind (timeWithYMDM_fair w HMS_LOWER) fun _ => Fair.bind (timeWithYMDM_fair w HMS_UPPER) fun _ => Fair.ok)
theorem dateSpanFromYMDM_fair (s : Str) : (dateSpanFromYMDM s).Fair := by
  have h1 := stringRangeFromYMDM_fair
  have h2 := ymdFromStringsM_fair
  have h3 := spanTimesM_fair
  unfold dateSpanFromYMDM
  repeat' first
    | exact h1 _
    | exact h2 _ _ _
    | exact h3 _ _ _
    | exact Fair.ok
    | refine Fair.bind ?_ fun _ => ?_
theorem halfSpanM_fair (s : Str) : (halfSpanM s).Fair := by
  unfold halfSpanM
  exact Fair.ite Fair.ok (Fair.ite Fair.ok (dateSpanFromYMDM_fair _))
theorem dateSpanFromEDTFM_fair (s : Str) : (dateSpanFromEDTFM s).Fair := by
  unfold dateSpanFromEDTFM
  split
  · exact Fair.bind (halfSpanM_fair _) fun _ => Fair.bind (halfSpanM_fair _) fun _ => Fair.lift
  · exact dateSpanFromYMDM_fair _
  · exact Fair.known
theorem parseExponentialNotationM_fair (s : Str) : (parseExponentialNotationM s).Fair := by
  unfold parseExponentialNotationM
  simp only
  split
  · exact Fair.says
  · refine Fair.ite Fair.says (Fair.bind (parseIntM_fair _ _) fun _ => ?_)
    split
    · exact Fair.says
    · exact Fair.panic
    · exact Fair.ite Fair.known Fair.ok
theorem parseWholeM_fair (b : Bool) (s : Str) (l : Int) (f : Str) : (parseWholeM b s l f).Fair := by
  unfold parseWholeM
  exact Fair.ite Fair.known (Fair.bind (dateSpanFromEDTFM_fair _) fun _ => Fair.ok)

theorem L0.parseStringM_fair (s : Str) : (L0.parseStringM s).Fair := by
  have h : (L0.parseDateAndTimeM s).Fair := by
    unfold L0.parseDateAndTimeM
    split
    · exact Fair.known
    · exact Fair.bind (timeParseM_fair _ _) fun _ => Fair.ok
  unfold L0.parseStringM
  exact Fair.ite (parseWholeM_fair _ _ _ _) (Fair.ite h (Fair.ite (parseWholeM_fair _ _ _ _) Fair.known))

theorem L1.parseSeasonM_fair (s : Str) : (L1.parseSeasonM s).Fair := by
  unfold L1.parseSeasonM
  split
  · exact Fair.known
  · refine Fair.bind ?_ fun _ => Fair.bind (daysInMonthM_fair _ _) fun _ => Fair.bind (dateSpanFromEDTFM_fair _) fun _ => Fair.ok
    unfold L1.seasonSpanM L1.seasonOfTextM L1.seasonOfNumM
    refine Fair.ite (Fair.bind (atoiM_fair _) fun _ => ?_) (Fair.bind (atoiM_fair _) fun _ => Fair.bind (atoiM_fair _) fun _ => ?_)
    · exact Fair.ite Fair.ok (Fair.ite Fair.ok (Fair.ite Fair.ok (Fair.ite Fair.ok Fair.known)))
    · exact Fair.ite Fair.ok (Fair.ite Fair.ok (Fair.ite Fair.ok (Fair.ite Fair.ok Fair.ok)))

theorem L1.parseStringM_fair (s : Str) : (L1.parseStringM s).Fair := by
  have h1 : (L1.parseLetterPrefixedCalendarYearM s).Fair := by
    unfold L1.parseLetterPrefixedCalendarYearM
    split
    · exact Fair.known
    · exact Fair.ite Fair.known (Fair.bind (dateSpanFromEDTFM_fair _) fun _ => Fair.ok)
  have h2 : (L1.parseSeasonM s).Fair := L1.parseSeasonM_fair s
  have h3 : (L1.parseExtendedIntervalM s).Fair := by
    unfold L1.parseExtendedIntervalM
    exact Fair.ite (parseWholeM_fair _ _ _ _) (Fair.ite (parseWholeM_fair _ _ _ _) Fair.known)
  unfold L1.parseStringM
  exact Fair.ite h1 (Fair.ite h2 (Fair.ite (parseWholeM_fair _ _ _ _) (Fair.ite (parseWholeM_fair _ _ _ _)
    (Fair.ite (parseWholeM_fair _ _ _ _) (Fair.ite h3 Fair.known)))))

theorem L2.parseSubYearGroupingsM_fair (s : Str) : (L2.parseSubYearGroupingsM s).Fair := by
  unfold L2.parseSubYearGroupingsM
  split
  · exact Fair.known
  · simp only
    split
    · exact Fair.known
    · refine Fair.bind ?_ fun _ => Fair.bind (dateSpanFromEDTFM_fair _) fun _ => Fair.ok
      unfold L2.groupingEndYearM
      exact Fair.ite (Fair.bind (atoiM_fair _) fun _ => Fair.ok) Fair.ok

theorem L2.parseStringM_fair (s : Str) : (L2.parseStringM s).Fair := by
  have h1 : (L2.parseExponentialYearM s).Fair := by
    unfold L2.parseExponentialYearM
    split
    · exact Fair.known
    · exact Fair.bind (parseExponentialNotationM_fair _) fun _ => Fair.bind (dateSpanFromEDTFM_fair _) fun _ => Fair.ok
  have h2 : (L2.parseSignificantDigitsM s).Fair := by
    unfold L2.parseSignificantDigitsM
    split
    · exact Fair.known
    · refine Fair.bind ?_ fun _ => Fair.ite Fair.known ?_
      · unfold L2.sigYearM
        refine Fair.ite ?_ (Fair.ite (Fair.ite Fair.known ?_) (Fair.ite (parseExponentialNotationM_fair _) Fair.known))
        · split
          · exact Fair.ok
          · exact Fair.known
        · split
          · exact Fair.ok
          · exact Fair.known
      · split
        · exact Fair.known
        · exact Fair.ite Fair.known (Fair.bind Fair.lift fun _ => Fair.bind (dateSpanFromEDTFM_fair _) fun _ => Fair.ok)
  have h3 : (L2.parseSubYearGroupingsM s).Fair := L2.parseSubYearGroupingsM_fair s
  have h4 : (L2.parseSetRepresentationsM s).Fair := by
    unfold L2.parseSetRepresentationsM
    split
    · exact Fair.known
    · refine Fair.bind Fair.lift fun _ => Fair.bind Fair.lift fun _ => Fair.ite Fair.known (Fair.bind ?_ fun _ => Fair.ok)
      unfold L2.setSpanM
      exact Fair.bind (dateSpanFromEDTFM_fair _) fun _ => Fair.bind Fair.lift fun _ => Fair.bind Fair.lift fun _ => Fair.bind Fair.lift fun _ => Fair.ok
  unfold L2.parseStringM
  exact Fair.ite h1 (Fair.ite h2 (Fair.ite h3 (Fair.ite h4 (Fair.ite (parseWholeM_fair _ _ _ _) (Fair.ite (parseWholeM_fair _ _ _ _)
    (Fair.ite (parseWholeM_fair _ _ _ _) (Fair.ite (parseWholeM_fair _ _ _ _) Fair.known)))))))

theorem parseStringM_fair (s : Str) : (parseStringM s).Fair := by
  unfold parseStringM
  exact Fair.ite (L0.parseStringM_fair s) (Fair.ite (L1.parseStringM_fair s) (Fair.ite (L2.parseStringM_fair s)
    (Fair.ite Fair.ok (Fair.ite Fair.ok Fair.known))))

end EDTF
