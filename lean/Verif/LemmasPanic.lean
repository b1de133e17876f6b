/- Which calls cannot end in a panic. -/
import Verif.LemmasWf
import Verif.LemmasDisp
namespace EDTF
open Spec

/-- `x` is a value or an error. -/
def Res.Safe {α : Type} (x : Res α) : Prop := x ≠ .panic

namespace Res
variable {α β : Type}

theorem Safe.ok {a : α} : (Res.ok a).Safe := fun h => by cases h
theorem Safe.err {e : Err} : (Res.err e : Res α).Safe := fun h => by cases h
theorem Safe.bind {x : Res α} {f : α → Res β} (hx : x.Safe) (hf : ∀ a, x = .ok a → (f a).Safe) : (x >>= f).Safe := by
  intro h
  rcases bind_eq_panic.1 h with h | ⟨a, h1, h2⟩
  · exact hx h
  · exact hf a h1 h2
theorem Safe.ite {c : Prop} [Decidable c] {x y : Res α} (hx : c → x.Safe) (hy : ¬ c → y.Safe) : (if c then x else y).Safe := by
  by_cases h : c
  · rw [if_pos h]; exact hx h
  · rw [if_neg h]; exact hy h
theorem Safe.ofOption {o : Option α} : (Res.ofOption o).Safe := ofOption_ne_panic
theorem Safe.deref {o : Option α} {a : α} (h : o = some a) : (Res.deref o).Safe := by subst h; exact Safe.ok
end Res

open Res

theorem daysInMonth_safe (y m : Int) : (daysInMonth y m).Safe := by
  unfold daysInMonth
  simp only
  split
  · exact Safe.err
  · exact Safe.ok

theorem daysInMonthWithString_safe (s : Str) : (daysInMonthWithString s).Safe := by
  unfold daysInMonthWithString
  simp only
  split
  · exact Safe.bind Safe.ofOption fun _ _ => Safe.bind Safe.ofOption fun _ _ => daysInMonth_safe _ _
  · exact Safe.bind Safe.ofOption fun _ _ => Safe.bind Safe.ofOption fun _ _ => daysInMonth_safe _ _
  · exact Safe.err

theorem ymdFromStrings_safe (a b c : Str) : (ymdFromStrings a b c).Safe := by
  unfold ymdFromStrings
  refine Safe.ite (fun _ => Safe.err) fun _ => Safe.ite (fun _ => Safe.err) fun _ => ?_
  refine Safe.bind Safe.ofOption fun y _ => ?_
  have hz : ∀ s, (atoiOrZero s).Safe := by
    intro s
    unfold atoiOrZero
    exact Safe.ite (fun _ => Safe.ofOption) fun _ => Safe.ok
  refine Safe.bind (hz _) fun m _ => Safe.bind (hz _) fun d _ => ?_
  refine Safe.ite (fun _ => Safe.err) fun _ => Safe.ite (fun _ => Safe.err) fun _ => Safe.ite (fun _ => Safe.err) fun _ => ?_
  refine Safe.bind (daysInMonth_safe _ _) fun days _ => ?_
  exact Safe.ite (fun _ => Safe.err) fun _ => Safe.ok

theorem ymdFromString_safe (s : Str) : (ymdFromString s).Safe := by
  unfold ymdFromString
  split
  · exact ymdFromStrings_safe _ _ _
  · exact ymdFromStrings_safe _ _ _
  · exact ymdFromStrings_safe _ _ _
  · exact ymdFromStrings_safe _ _ _
  · exact Safe.err

theorem timeWithYMD_safe (v : YMD) (h : Str) : (timeWithYMD v h).Safe := by
  unfold timeWithYMD
  simp only
  split
  · exact Safe.err
  · exact Safe.ok

theorem timeWithYMDString_safe (a b c h : Str) : (timeWithYMDString a b c h).Safe := by
  unfold timeWithYMDString
  exact Safe.bind (ymdFromStrings_safe _ _ _) fun _ _ => timeWithYMD_safe _ _

theorem idx_safe {s : Str} {i : Nat} (h : i < s.length) : (idx s i).Safe := by
  unfold idx
  rw [List.getElem?_eq_getElem h]
  exact Safe.ok

theorem yearDigit_safe (c : Char) (k : Int) (p h : Prec) : (yearDigit c k p h).Safe := by
  unfold yearDigit
  exact Safe.ite (fun _ => Safe.bind Safe.ofOption fun _ _ => Safe.ok) fun _ => Safe.ok

/-- The index expressions of common/range.go:283-337 are in range: the pattern
leaves at least four characters. -/
theorem yearRange_safe (s : Str) {y : Str} (h : 4 ≤ y.length) : (yearRange s y).Safe := by
  unfold yearRange
  refine Safe.ite (fun _ => Safe.ok) fun _ => Safe.bind (idx_safe (by omega)) fun _ _ =>
    Safe.ite (fun _ => Safe.err) fun _ => ?_
  exact Safe.bind Safe.ofOption fun _ _ => Safe.bind (idx_safe (by omega)) fun _ _ =>
    Safe.bind (yearDigit_safe _ _ _ _) fun _ _ => Safe.bind (idx_safe (by omega)) fun _ _ =>
    Safe.bind (yearDigit_safe _ _ _ _) fun _ _ => Safe.bind (idx_safe (by omega)) fun _ _ =>
    Safe.bind (yearDigit_safe _ _ _ _) fun _ _ => Safe.ok

theorem dayRange_safe (s : Str) {d : Str} (p : Prec) : (dayRange s d p).Safe := by
  unfold dayRange
  refine Safe.ite (fun _ => Safe.ok) fun hx => Safe.bind ?_ fun _ _ => ?_
  · apply idx_safe
    cases d with
    | nil => simp [hasSuffix] at hx
    | cons => simp
  · exact Safe.ite (fun _ => Safe.ok) fun _ => Safe.ite (fun _ => Safe.ok) fun _ =>
      Safe.ite (fun _ => Safe.ok) fun _ => Safe.ite (fun _ => Safe.ok) fun _ => Safe.err

theorem yx_length {F : YMDForm} (hF : F.ok) : 4 ≤ F.yx.length := by
  have h : Lang Rx.yearX F.yx := by
    cases F with
    | y a => exact hF.2
    | ym a b => exact hF.1.2
    | ymd a b c => exact hF.1.2
  obtain ⟨neg, a, b, c, d, e, -⟩ := lang_yearX.1 h
  rw [e]
  cases neg <;> simp [sgn]

theorem stringRange_safe (s : Str) : (stringRangeFromYMD s).Safe := by
  by_cases h : ∃ F : YMDForm, F.ok ∧ s = F.text
  · obtain ⟨F, hF, rfl⟩ := h
    rw [stringRange_form hF]
    unfold rangeOf
    refine Safe.bind (yearRange_safe _ (yx_length hF)) fun _ _ => Safe.bind (dayRange_safe _ _) fun _ _ => Safe.bind ?_ fun _ _ => Safe.ok
    unfold endDay
    exact Safe.ite (fun _ => Safe.bind (daysInMonthWithString_safe _) fun _ _ => Safe.ok) fun _ => Safe.ok
  · rw [stringRange_none (fun F hF e => h ⟨F, hF, e⟩)]
    exact Safe.err

theorem spanTimes_safe (b : Bool) (v w : YMD) : (spanTimes b v w).Safe := by
  unfold spanTimes
  refine Safe.ite (fun _ => ?_) fun _ => ?_
  · exact Safe.bind (timeWithYMD_safe _ _) fun _ _ => Safe.bind (timeWithYMD_safe _ _) fun _ _ => Safe.ok
  · exact Safe.bind (timeWithYMD_safe _ _) fun _ _ => Safe.bind (timeWithYMD_safe _ _) fun _ _ =>
      Safe.bind (timeWithYMD_safe _ _) fun _ _ => Safe.bind (timeWithYMD_safe _ _) fun _ _ => Safe.ok

theorem dateSpanFromYMD_safe (s : Str) : (dateSpanFromYMD s).Safe := by
  unfold dateSpanFromYMD
  exact Safe.bind (stringRange_safe _) fun _ _ => Safe.bind (ymdFromStrings_safe _ _ _) fun _ _ =>
    Safe.bind (ymdFromStrings_safe _ _ _) fun _ _ => Safe.bind (spanTimes_safe _ _ _) fun _ _ => Safe.ok

theorem halfSpan_safe (s : Str) : (halfSpan s).Safe := by
  unfold halfSpan
  exact Safe.ite (fun _ => Safe.ok) fun _ => Safe.ite (fun _ => Safe.ok) fun _ => dateSpanFromYMD_safe _

theorem dateSpanFromEDTF_safe (s : Str) : (dateSpanFromEDTF s).Safe := by
  unfold dateSpanFromEDTF
  split
  · refine Safe.bind (halfSpan_safe _) fun l hl => Safe.bind (halfSpan_safe _) fun r hr => ?_
    obtain ⟨_, _, _, _, _, _, h1, h2, -⟩ := halfForm_bd (halfSpan_inv hl)
    obtain ⟨_, _, _, _, _, _, h3, h4, -⟩ := halfForm_bd (halfSpan_inv hr)
    unfold joinHalves
    exact Safe.bind (Safe.deref h1) fun _ _ => Safe.bind (Safe.deref h2) fun _ _ => Safe.bind (Safe.deref h4) fun _ _ =>
      Safe.bind (Safe.deref h3) fun _ _ => Safe.ok
  · exact dateSpanFromYMD_safe _
  · exact Safe.err

theorem span_safe (s : Str) (t : Str) (l : Int) (ft : Str) :
    (dateSpanFromEDTF s >>= fun sp => Res.ok (mkEDTF sp t l ft)).Safe :=
  Safe.bind (dateSpanFromEDTF_safe s) fun _ _ => Safe.ok

theorem guard_safe (b : Bool) {e : Err} (s : Str) (t : Str) (l : Int) (ft : Str) :
    (if !b then Res.err e else (dateSpanFromEDTF s >>= fun sp => Res.ok (mkEDTF sp t l ft))).Safe :=
  Safe.ite (fun _ => Safe.err) fun _ => span_safe _ _ _ _

theorem level0_safe (s : Str) : (L0.parseString s).Safe := by
  unfold L0.parseString
  refine Safe.ite (fun _ => guard_safe _ _ _ _ _) fun _ => Safe.ite (fun _ => ?_) fun _ =>
    Safe.ite (fun _ => guard_safe _ _ _ _ _) fun _ => Safe.err
  unfold L0.parseDateAndTime
  split
  · exact Safe.err
  · split
    · exact Safe.err
    · exact Safe.ok

theorem seasonSpan_safe (s : Str) (m : Nat → Str) : (L1.seasonSpan s m).Safe := by
  unfold L1.seasonSpan L1.seasonOfText L1.seasonOfNum
  refine Safe.ite (fun _ => Safe.bind Safe.ofOption fun _ _ => ?_) fun _ =>
    Safe.bind Safe.ofOption fun _ _ => Safe.bind Safe.ofOption fun _ _ => ?_
  · exact Safe.ite (fun _ => Safe.ok) fun _ => Safe.ite (fun _ => Safe.ok) fun _ => Safe.ite (fun _ => Safe.ok)
      fun _ => Safe.ite (fun _ => Safe.ok) fun _ => Safe.err
  · exact Safe.ite (fun _ => Safe.ok) fun _ => Safe.ite (fun _ => Safe.ok) fun _ => Safe.ite (fun _ => Safe.ok)
      fun _ => Safe.ite (fun _ => Safe.ok) fun _ => Safe.ok

theorem level1_safe (s : Str) : (L1.parseString s).Safe := by
  unfold L1.parseString
  refine Safe.ite (fun _ => ?_) fun _ => Safe.ite (fun _ => ?_) fun _ =>
    Safe.ite (fun _ => guard_safe _ _ _ _ _) fun _ => Safe.ite (fun _ => guard_safe _ _ _ _ _) fun _ =>
    Safe.ite (fun _ => guard_safe _ _ _ _ _) fun _ => Safe.ite (fun _ => ?_) fun _ => Safe.err
  · unfold L1.parseLetterPrefixedCalendarYear
    split
    · exact Safe.err
    · exact Safe.ite (fun _ => Safe.err) fun _ => span_safe _ _ _ _
  · unfold L1.parseSeason
    split
    · exact Safe.err
    · exact Safe.bind (seasonSpan_safe _ _) fun _ _ => Safe.bind (daysInMonth_safe _ _) fun _ _ => span_safe _ _ _ _
  · unfold L1.parseExtendedInterval
    exact Safe.ite (fun _ => guard_safe _ _ _ _ _) fun _ => Safe.ite (fun _ => guard_safe _ _ _ _ _) fun _ => Safe.err

theorem collectMembers_safe (s : Str) (l : List Str) (acc : L2.SetMembers) : (L2.collectMembers s l acc).Safe := by
  induction l generalizing acc with
  | nil => exact Safe.ok
  | cons x xs ih =>
    unfold L2.collectMembers
    split
    · exact ih _
    · exact Safe.ite (fun _ => ih _) fun _ => Safe.ite (fun _ => ih _) fun _ => ih _
    · exact Safe.err

theorem setInclusivityIf_safe (b : Bool) {r : Option DateRange} (p : Prec) {e : Str} {l u : Date} (h : r = some ⟨e, some l, some u⟩) :
    (L2.setInclusivityIf b r p).Safe := by
  subst h
  unfold L2.setInclusivityIf L2.setInclusivity
  exact Safe.ite (fun _ => Safe.ok) fun _ => Safe.ok

theorem setSpan_safe (l : List Str) (a b : Bool) (p : Prec) : (L2.setSpan l a b p).Safe := by
  unfold L2.setSpan
  simp only
  refine Safe.bind (dateSpanFromEDTF_safe _) fun sp h0 => ?_
  have b0 := dateSpanFromEDTF_bd h0
  refine Safe.bind ?_ fun sp1 h1 => ?_
  · obtain ⟨_, _, _, _, _, _, e1, e2, -⟩ := b0
    unfold L2.openPostFactoIf L2.openPostFacto
    exact Safe.ite (fun _ => Safe.bind (Safe.deref e1) fun _ _ => Safe.bind (Safe.deref e2) fun _ _ =>
      Safe.ite (fun _ => Safe.ok) fun _ => Safe.ok) fun _ => Safe.ok
  · have b1 : AllB Bd sp1.start sp1.stop := by
      unfold L2.openPostFactoIf at h1
      split at h1
      · exact openPostFacto_bd b0 h1
      · injection h1 with h1; subst h1; exact b0
    obtain ⟨_, _, _, _, _, _, e1, e2, -⟩ := b1
    exact Safe.bind (setInclusivityIf_safe _ _ e1) fun _ _ => Safe.bind (setInclusivityIf_safe _ _ e2) fun _ _ => Safe.ok

/-- At level 2 only the first two parsers can panic. -/
theorem level2_safe {s : Str} (h1 : L2.isExponentialYear s = false) (h2 : L2.isSignificantDigits s = false) :
    (L2.parseString s).Safe := by
  unfold L2.parseString
  rw [if_neg (by simp [h1]), if_neg (by simp [h2])]
  refine Safe.ite (fun _ => ?_) fun _ => Safe.ite (fun _ => ?_) fun _ =>
    Safe.ite (fun _ => guard_safe _ _ _ _ _) fun _ => Safe.ite (fun _ => guard_safe _ _ _ _ _) fun _ =>
    Safe.ite (fun _ => guard_safe _ _ _ _ _) fun _ => Safe.ite (fun _ => guard_safe _ _ _ _ _) fun _ => Safe.err
  · unfold L2.parseSubYearGroupings
    split
    · exact Safe.err
    · simp only
      split
      · exact Safe.err
      · refine Safe.bind ?_ fun _ _ => span_safe _ _ _ _
        unfold L2.groupingEndYear
        exact Safe.ite (fun _ => Safe.bind Safe.ofOption fun _ _ => Safe.ok) fun _ => Safe.ok
  · unfold L2.parseSetRepresentations
    split
    · exact Safe.err
    · refine Safe.bind ?_ fun _ _ => Safe.bind (collectMembers_safe _ _ _) fun _ _ =>
        Safe.ite (fun _ => Safe.err) fun _ => Safe.bind (setSpan_safe _ _ _ _) fun _ _ => Safe.ok
      unfold L2.setKind
      exact Safe.ite (fun _ => Safe.ok) fun _ => Safe.ite (fun _ => Safe.ok) fun _ => Safe.err

theorem parse_panic {s : Str} (h : parseString s = .panic) :
    L0.isLevel0 s = false ∧ L1.isLevel1 s = false ∧ (L2.isExponentialYear s = true ∨ L2.isSignificantDigits s = true) ∧
      L2.parseString s = .panic := by
  unfold parseString at h
  by_cases h0 : L0.isLevel0 s = true
  · rw [if_pos h0] at h; exact absurd h (level0_safe s)
  rw [if_neg h0] at h
  by_cases h1 : L1.isLevel1 s = true
  · rw [if_pos h1] at h; exact absurd h (level1_safe s)
  rw [if_neg h1] at h
  by_cases h2 : L2.isLevel2 s = true
  · rw [if_pos h2] at h
    refine ⟨by simpa using h0, by simpa using h1, ?_, h⟩
    cases h3 : L2.isExponentialYear s with
    | true => exact .inl rfl
    | false =>
      cases h4 : L2.isSignificantDigits s with
      | true => exact .inr rfl
      | false => exact absurd h (level2_safe h3 h4)
  rw [if_neg h2] at h
  split at h
  · cases h
  · split at h <;> cases h

end EDTF
