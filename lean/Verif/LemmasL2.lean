/- Which level 2 parser a string reaches, and texts that are no dates. -/
import Verif.PropsLevel1
namespace EDTF
open Spec

/-! ### Level 1 -/

/-- What is left of level 1 for a string without `Y` and comma. -/
theorem not_level1_of {s : Str} (hY : 'Y' ∉ s) (hc : ',' ∉ s) (h1 : ¬ Lang (Rx.seasonNum 1) s) (h2 : ¬ Lang (Rx.qualifiedDate 1) s)
    (h3 : ¬ Lang (Rx.unspecifiedDigits 1).ci s) (h4 : ¬ Lang (Rx.intervalStart 1) s) (h5 : ¬ Lang (Rx.intervalEnd 1) s)
    (h6 : ¬ Lang (Rx.negativeYear 1) s) : L1.isLevel1 s = false := by
  cases hs : L1.isLevel1 s with
  | false => rfl
  | true =>
    exfalso
    rcases isLevel1_iff.1 hs with h | h | h | h | h | h | h | h
    · exact not_lang_of_must ['Y'] (by decide) (by simpa using hY) h
    · exact h1 h
    · obtain ⟨u, v, rfl, -, h⟩ := lang_cat.1 h
      obtain ⟨u', v', rfl, -, h⟩ := lang_cat.1 h
      obtain ⟨u'', v'', rfl, ⟨c, rfl, h'⟩, -⟩ := lang_cat.1 h
      rw [fold_comma h'] at hc
      exact hc (by simp)
    · exact h2 h
    · exact h3 h
    · exact h4 h
    · exact h5 h
    · exact h6 h

/-! ### Level 2 -/

theorem not_exponential {s : Str} (hp : s.all plainC = true) (h : 'Y' ∉ s ∨ 'E' ∉ s) : L2.isExponentialYear s = false := by
  cases hs : L2.isExponentialYear s with
  | false => rfl
  | true =>
    exfalso
    have := (lang_ci_noLower (by decide) s hp).1 (isExponential_iff.1 hs)
    rcases h with h | h
    · exact not_lang_of_must ['Y'] (by decide) (by simpa using h) this
    · exact not_lang_of_must ['E'] (by decide) (by simpa using h) this

theorem not_sig {s : Str} (h : 'S' ∉ s) : L2.isSignificantDigits s = false := by
  cases hs : L2.isSignificantDigits s with
  | false => rfl
  | true => exact absurd (isSig_iff.1 hs) (not_lang_of_must ['S'] (by decide) (by simpa using h))

theorem not_subYear_char {s : Str} {c : Char} (hc : c ∈ s) (h : (Rx.subYearGrouping 1).mayHave c = false) : L2.isSubYearGrouping s = false := by
  cases hs : L2.isSubYearGrouping s with
  | false => rfl
  | true => exact absurd (isSubYear_iff.1 hs) (not_lang_of_char h hc)

theorem not_set {s : Str} (h : ∀ c ∈ ['[', '{'], c ∉ s) : L2.isSetRepresentation s = false := by
  cases hs : L2.isSetRepresentation s with
  | false => rfl
  | true => exact absurd (isSet_iff.1 hs) (not_lang_of_must ['[', '{'] (by decide) h)

theorem not_group_char {s : Str} {c : Char} (hc : c ∈ s) (h : (Rx.groupQualification 1).mayHave c = false) : L2.isGroupQualification s = false := by
  cases hs : L2.isGroupQualification s with
  | false => rfl
  | true => exact absurd (isGroup_iff.1 hs) (not_lang_of_char h hc)

theorem not_individual_char {s : Str} {c : Char} (hc : c ∈ s) (h : (Rx.individualQualification 1).mayHave c = false) :
    L2.isIndividualQualification s = false := by
  cases hs : L2.isIndividualQualification s with
  | false => rfl
  | true => exact absurd (isIndividual_iff.1 hs) (not_lang_of_char h hc)

theorem not_unspecifiedDigit_char {s : Str} {c : Char} (hc : c ∈ s) (h : (Rx.unspecifiedDigit 1).mayHave c = false) :
    L2.isUnspecifiedDigit s = false := by
  cases hs : L2.isUnspecifiedDigit s with
  | false => rfl
  | true => exact absurd (isUnspecifiedDigit_iff.1 hs) (not_lang_of_char h hc)

/-! ### Characters -/

theorem plain_digits {s : Str} (h : s.all isDig = true) : s.all plainC = true := by
  rw [List.all_eq_true] at h ⊢
  intro c hc
  have := h c hc
  simp only [isDig, Bool.and_eq_true, Nat.ble_eq] at this
  simp only [plainC, Bool.or_eq_true, Nat.ble_eq]
  left
  have := this.2
  have e9 : '9'.toNat = 57 := rfl
  omega

/-! ### Years that are not four digits -/

/-- A number of other than four digits does not start a date. -/
theorem digits_not_form {u t : Str} (neg : Bool) (hu : u.all isDig = true) (hne : u ≠ []) (hl : u.length ≠ 4) (ht : DashTail t)
    {F : YMDForm} (hF : F.ok) : sgn neg u ++ t ≠ F.text := by
  intro e
  rw [YMDForm.text_eq] at e
  obtain ⟨hq, hx⟩ := YMDForm.yc_ok hF
  have htl := YMDForm.tail_dash F
  generalize F.tail = t' at e htl
  generalize F.yc = k at *
  obtain ⟨x, q⟩ := k
  obtain ⟨n, a, b, c, d, ex, ha, hb, hc, hd⟩ := lang_yearX.1 hx
  simp only at ex hq
  subst ex
  rw [Comp.text] at e
  have nd : ∀ {c}, isDig c = true → c ≠ '-' := fun h => isDig_ne h (by decide)
  have hu' : '-' ∉ u := fun h => nd (List.all_eq_true.1 hu _ h) rfl
  have xd : '-' ∉ [a, b, c, d] := by
    simp [(isDX_ne_dash ha).symm, (isDX_ne_dash hb).symm, (isDX_ne_dash hc).symm, (isDX_ne_dash hd).symm]
  -- after the sign
  have key : ∀ w : Str, u ++ t = [a, b, c, d] ++ w ++ t' → (w = [] ∨ ∃ q, w = [q] ∧ isQ q = true) → False := by
    intro w e hw
    have nw : '-' ∉ [a, b, c, d] ++ w := by
      rcases hw with rfl | ⟨q, rfl, hq⟩
      · simpa using xd
      · intro hm
        rcases List.mem_append.1 hm with hm | hm
        · exact xd hm
        · have : '-' = q := by simpa using hm
          exact (isQ_ne hq).1 this.symm
    have := (split_dash hu' nw ht htl e).1
    rcases hw with rfl | ⟨q, rfl, hq⟩
    · rw [this] at hl; simp at hl
    · have hm : q ∈ u := by rw [this]; simp
      have h1 := List.all_eq_true.1 hu _ hm
      have h2 := (isQ_ne hq).2.2
      simp [isDX, h1] at h2
  have first : ∀ (z : Str), u ++ t = '-' :: z → False := by
    intro z e
    cases u with
    | nil => exact hne rfl
    | cons c u => injection e with e _; exact hu' (by simp [e])
  cases q with
  | none =>
    cases neg <;> cases n
    · exact key [] (by simpa [Deco.text, sgn] using e) (Or.inl rfl)
    · exact first ([a, b, c, d] ++ t') (by simpa [Deco.text, sgn] using e)
    · injection e with e _; exact isDX_ne_dash ha e.symm
    · injection e with _ e; exact key [] (by simpa [Deco.text, sgn] using e) (Or.inl rfl)
  | left q =>
    have hq : isQ q = true := hq
    cases neg
    · cases u with
      | nil => exact hne rfl
      | cons c u =>
        injection e with e _
        have h1 := List.all_eq_true.1 hu c (by simp)
        have h2 := (isQ_ne hq).2.2
        rw [← e] at h2
        simp [isDX, h1] at h2
    · injection e with e _; exact (isQ_ne hq).1 e.symm
  | right q =>
    have hq : isQ q = true := hq
    cases neg <;> cases n
    · exact key [q] (by simpa [Deco.text, sgn] using e) (Or.inr ⟨q, rfl, hq⟩)
    · exact first ([a, b, c, d] ++ q :: t') (by simpa [Deco.text, sgn] using e)
    · injection e with e _; exact isDX_ne_dash ha e.symm
    · injection e with _ e; exact key [q] (by simpa [Deco.text, sgn] using e) (Or.inr ⟨q, rfl, hq⟩)

theorem halfSpan_digits {u t : Str} (neg : Bool) (hu : u.all isDig = true) (hne : u ≠ []) (hl : u.length ≠ 4) (ht : DashTail t) :
    halfSpan (sgn neg u ++ t) = .err (Invalid (c! "date") (sgn neg u ++ t)) ∧
    dateSpanFromYMD (sgn neg u ++ t) = .err (Invalid (c! "date") (sgn neg u ++ t)) := by
  have h2 : dateSpanFromYMD (sgn neg u ++ t) = .err (Invalid (c! "date") (sgn neg u ++ t)) := by
    unfold dateSpanFromYMD
    rw [stringRange_none (fun F hF => digits_not_form neg hu hne hl ht hF)]
    rfl
  refine ⟨?_, h2⟩
  obtain ⟨c, u', rfl⟩ := List.exists_cons_of_ne_nil hne
  have hc : c ≠ '.' := isDig_ne (List.all_eq_true.1 hu c (by simp)) (by decide)
  unfold halfSpan
  rw [if_neg (by cases neg <;> simp [UNKNOWN, UNSPECIFIED, sgn]), if_neg (by cases neg <;> simp [OPEN, sgn, hc])]
  exact h2

end EDTF
