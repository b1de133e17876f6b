/- C27 and C28: group and individual qualification. -/
import Verif.LemmasQual
namespace EDTF
open Spec

variable {f : Int → Nat → Nat → Int}

/-! ### Reaching the level 2 parsers -/

/-- A qualifier that is not the last character. -/
def InnerQ (s : Str) : Prop := ∃ a q b, s = a ++ q :: b ∧ b ≠ [] ∧ isQ q = true

theorem deco_inner {q : Deco} (hq : q.ok = true) (h : q ≠ .none) (x : Str) {a t : Str} (ht : t ≠ []) : InnerQ (a ++ (q.text x ++ t)) := by
  cases q with
  | none => exact absurd rfl h
  | left c => exact ⟨a, c, x ++ t, by simp [Deco.text], by simp [ht], hq⟩
  | right c => exact ⟨a ++ x, c, t, by simp [Deco.text], ht, hq⟩

theorem left_inner {q : Deco} (hq : q.ok = true) (h : q.isLeft (fun _ => true) = true) {x : Str} (hx : x ≠ []) {a t : Str} :
    InnerQ (a ++ (q.text x ++ t)) := by
  cases q with
  | none => cases h
  | left c => exact ⟨a, c, x ++ t, by simp [Deco.text], by simp [hx], hq⟩
  | right c => cases h

theorem qtext_eq (x : Date0) (qy qm qd : Deco) : x.qtext qy qm qd = qy.text (yearStr x.neg x.year) ++ Date0.qtail x qm qd := by
  obtain ⟨neg, n, t⟩ := x
  cases t <;> rfl

theorem early_inner {x : Date0} {qy qm qd : Deco} (hq : Date0.qOk x qy qm qd) (h : Date0.early x qy qm) : InnerQ (x.qtext qy qm qd) := by
  rw [qtext_eq]
  obtain ⟨neg, n, t⟩ := x
  obtain ⟨o1, o2, o3, o4⟩ := hq
  cases t with
  | none => cases h
  | month m => exact deco_inner (a := []) o1 h _ (by simp [Date0.qtail])
  | day m d =>
    rcases h with h | h
    · exact deco_inner (a := []) o1 h _ (by simp [Date0.qtail])
    · have := deco_inner (a := qy.text (yearStr neg n) ++ ['-']) (t := '-' :: qd.text (pad2 d)) o2 h (pad2 m) (by simp)
      simpa [Date0.qtail] using this

theorem noLeft_false {qy qm qd : Deco} (h : ¬ noLeft qy qm qd) :
    qy.isLeft (fun _ => true) = true ∨ qm.isLeft (fun _ => true) = true ∨ qd.isLeft (fun _ => true) = true := by
  simp only [noLeft, List.mem_cons, List.not_mem_nil, or_false, forall_eq_or_imp, forall_eq] at h
  cases h1 : qy.isLeft (fun _ => true) <;> cases h2 : qm.isLeft (fun _ => true) <;> cases h3 : qd.isLeft (fun _ => true) <;> simp_all

theorem anyLeft_inner {x : Date0} {qy qm qd : Deco} (hq : Date0.qOk x qy qm qd) (h : ¬ noLeft qy qm qd) : InnerQ (x.qtext qy qm qd) := by
  have h := noLeft_false h
  rw [qtext_eq]
  obtain ⟨neg, n, t⟩ := x
  obtain ⟨o1, o2, o3, o4⟩ := hq
  rcases h with h | h | h
  · exact left_inner (a := []) o1 h (yearStr_ne_nil _ _)
  · cases t with
    | none => simp only at o4; rw [o4.1] at h; cases h
    | month m =>
      have := left_inner (a := qy.text (yearStr neg n) ++ ['-']) (t := []) o2 h (pad2_ne_nil m)
      simpa [Date0.qtail] using this
    | day m d =>
      have := left_inner (a := qy.text (yearStr neg n) ++ ['-']) (t := '-' :: qd.text (pad2 d)) o2 h (pad2_ne_nil m)
      simpa [Date0.qtail] using this
  · cases t with
    | none => simp only at o4; rw [o4.2] at h; cases h
    | month m => simp only at o4; rw [o4] at h; cases h
    | day m d =>
      have := left_inner (a := qy.text (yearStr neg n) ++ '-' :: (qm.text (pad2 m) ++ ['-'])) (t := []) o3 h (pad2_ne_nil d)
      simpa [Date0.qtail] using this

theorem inner_not_qualified {s : Str} (h : InnerQ s) : ¬ Lang (Rx.qualifiedDate 1) s := by
  obtain ⟨a, q, b, rfl, hb, hq⟩ := h
  intro h
  obtain ⟨u, v, e, hu, hv⟩ := lang_cat.1 h
  have hv : ∃ c, v = [c] := by rcases hv with h | h | h <;> exact ⟨_, lang_lit.1 h⟩
  obtain ⟨c, rfl⟩ := hv
  obtain ⟨x, -, -, rfl⟩ := lang_date.1 hu
  have : x.text = (a ++ q :: b).dropLast := by rw [e, List.dropLast_concat]
  have hm : q ∈ x.text := by
    rw [this, List.dropLast_append_of_ne_nil (by simp)]
    obtain ⟨b1, b2, rfl⟩ := List.exists_cons_of_ne_nil hb
    simp [List.dropLast]
  have hq' := (isQ_ne hq)
  exact date0_not_mem x (by have := hq'.2.2; simp only [isDX, Bool.or_eq_false_iff] at this; exact this.1) hq'.1 hm

/-- Not in any of the level 0 and level 1 languages. -/
theorem inner_levels {s : Str} (h : InnerQ s) (hn : ∀ c ∈ s, isDig c = true ∨ isQ c = true ∨ c = '-') :
    L0.isLevel0 s = false ∧ L1.isLevel1 s = false := by
  have nm : ∀ {c : Char}, isDig c = false → isQ c = false → c ≠ '-' → c ∉ s := by
    intro c h1 h2 h3 hc
    rcases hn c hc with h | h | h
    · rw [h1] at h; cases h
    · rw [h2] at h; cases h
    · exact h3 h
  have hq : ∃ q ∈ s, q = '?' ∨ q = '~' ∨ q = '%' := by
    obtain ⟨a, q, b, rfl, -, hq⟩ := h
    refine ⟨q, by simp, ?_⟩
    simp only [isQ, Bool.or_eq_true, beq_iff_eq] at hq
    rcases hq with (h | h) | h <;> simp [h]
  obtain ⟨q, hqs, hqq⟩ := hq
  constructor
  · exact not_level0_char hqs (by rcases hqq with rfl | rfl | rfl <;> decide)
  · refine not_level1_of (nm (by decide) (by decide) (by decide)) (nm (by decide) (by decide) (by decide)) ?_ (inner_not_qualified h) ?_ ?_ ?_ ?_
    · exact not_lang_of_char (c := q) (by rcases hqq with rfl | rfl | rfl <;> decide) hqs
    · exact not_lang_of_char (c := q) (by rcases hqq with rfl | rfl | rfl <;> decide) hqs
    · exact not_lang_of_must ['/'] (by decide) (by simpa using nm (c := '/') (by decide) (by decide) (by decide))
    · exact not_lang_of_must ['/'] (by decide) (by simpa using nm (c := '/') (by decide) (by decide) (by decide))
    · exact not_lang_of_char (c := q) (by rcases hqq with rfl | rfl | rfl <;> decide) hqs

theorem chars_plain {s : Str} (hn : ∀ c ∈ s, isDig c = true ∨ isQ c = true ∨ c = '-') : s.all plainC = true := by
  rw [List.all_eq_true]
  intro c hc
  rcases hn c hc with h | h | h
  · exact List.all_eq_true.1 (plain_digits (s := [c]) (by simp [h])) c (by simp)
  · simp only [isQ, Bool.or_eq_true, beq_iff_eq] at h
    rcases h with (rfl | rfl) | rfl <;> decide
  · subst h; decide

/-- The level 2 parsers that such a string can reach. -/
theorem inner_dispatch {s : Str} (h : InnerQ s) (hn : ∀ c ∈ s, isDig c = true ∨ isQ c = true ∨ c = '-') :
    L2.isExponentialYear s = false ∧ L2.isSignificantDigits s = false ∧ L2.isSubYearGrouping s = false ∧ L2.isSetRepresentation s = false ∧
    L2.isUnspecifiedDigit s = false ∧ L2.isInterval s = false := by
  have nm : ∀ {c : Char}, isDig c = false → isQ c = false → c ≠ '-' → c ∉ s := by
    intro c h1 h2 h3 hc
    rcases hn c hc with h | h | h
    · rw [h1] at h; cases h
    · rw [h2] at h; cases h
    · exact h3 h
  obtain ⟨a, q, b, e, -, hq⟩ := h
  have hqs : q ∈ s := by rw [e]; simp
  have hqq : q = '?' ∨ q = '~' ∨ q = '%' := by
    simp only [isQ, Bool.or_eq_true, beq_iff_eq] at hq
    rcases hq with (h | h) | h <;> simp [h]
  refine ⟨not_exponential (chars_plain hn) (Or.inl (nm (by decide) (by decide) (by decide))), not_sig (nm (by decide) (by decide) (by decide)),
    not_subYear_char hqs (by rcases hqq with rfl | rfl | rfl <;> decide), not_set ?_,
    not_unspecifiedDigit_char hqs (by rcases hqq with rfl | rfl | rfl <;> decide), ?_⟩
  · intro c hc
    simp only [List.mem_cons, List.not_mem_nil, or_false] at hc
    rcases hc with rfl | rfl <;> exact nm (by decide) (by decide) (by decide)
  · cases hs : L2.isInterval s with
    | false => rfl
    | true =>
      exact absurd (isInterval_iff.1 hs) (not_lang_of_must ['/'] (by decide) (by simpa using nm (c := '/') (by decide) (by decide) (by decide)))

theorem ok_wide {x : Date0} (h : x.ok) (hn : x.neg = false) : Date0.wide x := by
  obtain ⟨neg, n, t⟩ := x
  refine ⟨hn, h.1, ?_⟩
  cases t with
  | none => trivial
  | month m => have := h.2; simp only at *; omega
  | day m d => exact valid_lt h.2

/-- Parsing such a string. -/
theorem parse_inner {s : Str} (h : InnerQ s) (hn : ∀ c ∈ s, isDig c = true ∨ isQ c = true ∨ c = '-') :
    (L2.isGroupQualification s = true → parseString s = L2.parseGroupQualification s) ∧
    (L2.isGroupQualification s = false → L2.isIndividualQualification s = true → parseString s = L2.parseIndividualQualification s) ∧
    (L2.isGroupQualification s = false → L2.isIndividualQualification s = false →
      ∃ e, parseString s = .err e ∧ (isInvalid e = true ∨ isUnrecognized e = true)) := by
  obtain ⟨h0, h1⟩ := inner_levels h hn
  obtain ⟨a1, a2, a3, a4, a5, a6⟩ := inner_dispatch h hn
  refine ⟨fun hg => ?_, fun hg hi => ?_, fun hg hi => ?_⟩
  · rw [parse_level2 h0 h1 (isLevel2_of (Or.inr (Or.inr (Or.inr (Or.inr (Or.inl hg))))))]
    unfold L2.parseString
    rw [a1, a2, a3, a4, hg]; rfl
  · rw [parse_level2 h0 h1 (isLevel2_of (Or.inr (Or.inr (Or.inr (Or.inr (Or.inr (Or.inl hi)))))))]
    unfold L2.parseString
    rw [a1, a2, a3, a4, hg, hi]; rfl
  · cases h2 : L2.isLevel2 s with
    | true =>
      rw [parse_level2 h0 h1 h2]
      unfold L2.parseString
      rw [a1, a2, a3, a4, hg, hi, a5, a6]
      exact ⟨_, rfl, Or.inl rfl⟩
    | false =>
      have hne : s ≠ OPEN ∧ s ≠ UNKNOWN := by
        obtain ⟨a, q, b, e, -, hq⟩ := h
        have hqs : q ∈ s := by rw [e]; simp
        constructor
        · intro e'
          rw [e'] at hqs
          have : q = '.' := by simpa [OPEN] using hqs
          rw [this] at hq; exact absurd hq (by decide)
        · intro e'
          rw [e'] at hqs
          simp [UNKNOWN, UNSPECIFIED] at hqs
      unfold parseString
      rw [h0, h1, h2]
      simp only [Bool.false_eq_true, if_false, if_neg hne.1, if_neg hne.2]
      exact ⟨_, rfl, Or.inr rfl⟩

/-! ### Which parser a feature comes from -/

theorem feature0 {s w : Str} (h : L0.matchesStr s = .ok w) : w = L0.DATE ∨ w = L0.DATE_AND_TIME ∨ w = L0.TIME_INTERVAL := by
  unfold L0.matchesStr at h
  repeat' split at h
  all_goals first | (injection h with h; simp [← h]) | cases h

theorem feature1 {s w : Str} (h : L1.matchesStr s = .ok w) : w = L1.LETTER_PREFIXED_CALENDAR_YEAR ∨ w = L1.SEASON ∨ w = L1.QUALIFIED_DATE ∨
    w = L1.UNSPECIFIED_DIGITS ∨ w = L1.EXTENDED_INTERVAL_START ∨ w = L1.EXTENDED_INTERVAL_END ∨ w = L1.NEGATIVE_CALENDAR_YEAR ∨ w = L1.EXTENDED_INTERVAL := by
  unfold L1.matchesStr at h
  repeat' split at h
  all_goals first | (injection h with h; simp [← h]) | cases h

/-- A result with one of the level 2 features comes from the level 2 parser. -/
theorem parse_feature2 {s : Str} {d : EDTFDate} (h : parseString s = .ok d)
    (hf : d.feature ∈ [L2.EXPONENTIAL_YEAR, L2.SIGNIFICANT_DIGITS, L2.SUB_YEAR_GROUPINGS, L2.SET_REPRESENTATIONS, L2.GROUP_QUALIFICATION,
      L2.INDIVIDUAL_QUALIFICATION, L2.UNSPECIFIED_DIGIT, L2.INTERVAL]) :
    L0.isLevel0 s = false ∧ L1.isLevel1 s = false ∧ L2.isLevel2 s = true ∧ L2.parseString s = .ok d ∧ L2.matchesStr s = .ok d.feature := by
  unfold parseString at h
  by_cases h0 : L0.isLevel0 s = true
  · rw [if_pos h0] at h
    exfalso
    rcases feature0 (level0_inv h).2.2 with e | e | e <;> rw [e] at hf <;> exact absurd hf (by decide)
  rw [if_neg h0] at h
  by_cases h1 : L1.isLevel1 s = true
  · rw [if_pos h1] at h
    exfalso
    rcases feature1 (level1_inv h).2.2 with e | e | e | e | e | e | e | e <;> rw [e] at hf <;> exact absurd hf (by decide)
  rw [if_neg h1] at h
  by_cases h2 : L2.isLevel2 s = true
  · rw [if_pos h2] at h
    exact ⟨by simpa using h0, by simpa using h1, h2, h, (level2_inv h).2.2⟩
  rw [if_neg h2] at h
  exfalso
  split at h
  · injection h with h; rw [← h] at hf; simp [mkEDTF, L2.EXPONENTIAL_YEAR, L2.SIGNIFICANT_DIGITS, L2.SUB_YEAR_GROUPINGS, L2.SET_REPRESENTATIONS, L2.GROUP_QUALIFICATION, L2.INDIVIDUAL_QUALIFICATION, L2.UNSPECIFIED_DIGIT, L2.INTERVAL] at hf
  split at h
  · injection h with h; rw [← h] at hf; simp [mkEDTF, L2.EXPONENTIAL_YEAR, L2.SIGNIFICANT_DIGITS, L2.SUB_YEAR_GROUPINGS, L2.SET_REPRESENTATIONS, L2.GROUP_QUALIFICATION, L2.INDIVIDUAL_QUALIFICATION, L2.UNSPECIFIED_DIGIT, L2.INTERVAL] at hf
  cases h

theorem feature_group {s : Str} {d : EDTFDate} (h : parseString s = .ok d) (hf : d.feature = L2.GROUP_QUALIFICATION) :
    L2.isGroupQualification s = true ∧ L2.parseGroupQualification s = .ok d := by
  obtain ⟨-, -, -, hp, hm⟩ := parse_feature2 h (by rw [hf]; decide)
  rw [hf] at hm
  unfold L2.matchesStr at hm
  unfold L2.parseString at hp
  cases h1 : L2.isExponentialYear s with
  | true => rw [h1] at hm; exact absurd (Res.ok.inj hm) (by decide)
  | false =>
  cases h2 : L2.isSignificantDigits s with
  | true => rw [h1, h2] at hm; exact absurd (Res.ok.inj hm) (by decide)
  | false =>
  cases h3 : L2.isSubYearGrouping s with
  | true => rw [h1, h2, h3] at hm; exact absurd (Res.ok.inj hm) (by decide)
  | false =>
  cases h4 : L2.isSetRepresentation s with
  | true => rw [h1, h2, h3, h4] at hm; exact absurd (Res.ok.inj hm) (by decide)
  | false =>
  cases h5 : L2.isGroupQualification s with
  | true => rw [h1, h2, h3, h4, h5] at hp; exact ⟨rfl, hp⟩
  | false =>
  exfalso
  rw [h1, h2, h3, h4, h5] at hm
  simp only [Bool.false_eq_true, if_false] at hm
  repeat' split at hm
  all_goals first | (injection hm with hm; exact absurd hm (by decide)) | cases hm

theorem feature_individual {s : Str} {d : EDTFDate} (h : parseString s = .ok d) (hf : d.feature = L2.INDIVIDUAL_QUALIFICATION) :
    L2.isGroupQualification s = false ∧ L2.isIndividualQualification s = true ∧ L2.parseIndividualQualification s = .ok d := by
  obtain ⟨-, -, -, hp, hm⟩ := parse_feature2 h (by rw [hf]; decide)
  rw [hf] at hm
  unfold L2.matchesStr at hm
  unfold L2.parseString at hp
  cases h1 : L2.isExponentialYear s with
  | true => rw [h1] at hm; exact absurd (Res.ok.inj hm) (by decide)
  | false =>
  cases h2 : L2.isSignificantDigits s with
  | true => rw [h1, h2] at hm; exact absurd (Res.ok.inj hm) (by decide)
  | false =>
  cases h3 : L2.isSubYearGrouping s with
  | true => rw [h1, h2, h3] at hm; exact absurd (Res.ok.inj hm) (by decide)
  | false =>
  cases h4 : L2.isSetRepresentation s with
  | true => rw [h1, h2, h3, h4] at hm; exact absurd (Res.ok.inj hm) (by decide)
  | false =>
  cases h5 : L2.isGroupQualification s with
  | true => rw [h1, h2, h3, h4, h5] at hm; exact absurd (Res.ok.inj hm) (by decide)
  | false =>
  cases h6 : L2.isIndividualQualification s with
  | true => rw [h1, h2, h3, h4, h5, h6] at hp; exact ⟨rfl, rfl, hp⟩
  | false =>
  exfalso
  rw [h1, h2, h3, h4, h5, h6] at hm
  simp only [Bool.false_eq_true, if_false] at hm
  repeat' split at hm
  all_goals first | (injection hm with hm; exact absurd hm (by decide)) | cases hm

/-! ### C27 -/

/-- C27: with qualifiers only to the right, at least one of them before the
last component: the flags are those of the qualified components and everything
to their left, and the bounds are those of the plain date. -/
theorem C27_group_partial (hf : DayCount f) {x : Date0} (hx : x.ok) (hn : x.neg = false) {qy qm qd : Deco} (hq : Date0.qOk x qy qm qd)
    (hl : noLeft qy qm qd) (he : Date0.early x qy qm) :
    parseString (x.qtext qy qm qd) = .ok (x.result f (x.qtext qy qm qd) (x.qtext qy qm qd) 2 (c! "Qualification (Group)")
      (marked saysUncertain qy qm qd) (marked saysApproximate qy qm qd)) := by
  have hg := isGroup_iff.2 (lang_group.2 ⟨x, qy, qm, qd, ok_wide hx hn, hq, hl, rfl⟩)
  rw [(parse_inner (early_inner hq he) (fun c hc => qtext_chars hn hq hc)).1 hg]
  unfold L2.parseGroupQualification
  rw [show Rx.GroupQualification.matchString _ = true from hg]
  simp only [Bool.not_true, Bool.false_eq_true, if_false]
  rw [dateSpanFromEDTF_noSlash (qtext_not_mem hn hq (by decide) (by decide) (by decide)), dateSpan_date0 hx hq, Res.ok_bind, spanRec_result hf hx]
  rfl

example : (⟨false, 2004, .day 6 11⟩ : Date0).ok ∧ Date0.qOk ⟨false, 2004, .day 6 11⟩ (.right '?') (.right '~') .none ∧
    noLeft (.right '?') (.right '~') .none ∧ Date0.early ⟨false, 2004, .day 6 11⟩ (.right '?') (.right '~') ∧
    (⟨false, 2004, .day 6 11⟩ : Date0).qtext (.right '?') (.right '~') .none = c! "2004?-06~-11" ∧
    marked saysUncertain (.right '?') (.right '~') .none = Prec.YEAR ∧
    marked saysApproximate (.right '?') (.right '~') .none = Prec.YEAR ||| Prec.MONTH := by decide

/-- C27: the bounds of a group qualified date are those of the plain date. -/
theorem C27_bounds_partial {x : Date0} (hx : x.ok) (hn : x.neg = false) {qy qm qd : Deco} (hq : Date0.qOk x qy qm qd)
    (hl : noLeft qy qm qd) (he : Date0.early x qy qm) :
    ∃ r r', parseString (x.qtext qy qm qd) = .ok r ∧ parseString x.text = .ok r' ∧ r.lower = r'.lower ∧ r.upper = r'.upper := by
  have hd : L0.isDate x.text = true := isDate_iff.2 ⟨x, hx.1, Date0.ok_shape hx, rfl⟩
  refine ⟨_, x.result U x.text x.text 0 (c! "Date") 0 0, C27_group_partial dayCount_unixDay hx hn hq hl he, ?_, ?_, ?_⟩
  · rw [parseString_isDate hd, parseDate_eq hd]
    have := dateSpan_date0 hx (qy := .none) (qm := .none) (qd := .none) (by obtain ⟨a, b, t⟩ := x; cases t <;> exact ⟨rfl, rfl, rfl, by simp⟩)
    rw [show x.text = x.qtext .none .none .none from rfl, this, Res.ok_bind, spanRec_result dayCount_unixDay hx]
    rfl
  · simp [EDTFDate.lower, Date0.result, dayStart, dated]
  · simp [EDTFDate.upper, Date0.result, dayEnd, dated]

example : (⟨false, 2004, .day 6 11⟩ : Date0).ok ∧ Date0.qOk ⟨false, 2004, .day 6 11⟩ .none (.right '~') .none ∧ noLeft .none (.right '~') .none ∧
    Date0.early ⟨false, 2004, .day 6 11⟩ .none (.right '~') ∧ (⟨false, 2004, .day 6 11⟩ : Date0).qtext .none (.right '~') .none = c! "2004-06~-11" := by decide

/-- What such a string with the day 00 gives: the last day of the month. -/
def zeroDayResult (f : Int → Nat → Nat → Int) (y : Int) (m : Nat) (s ft : Str) (u a : Prec) : EDTFDate :=
  (dayOf y m (monthLen y m)).result f s s 2 ft u a

theorem spanRec_zero (hf : DayCount f) {y : Int} {m : Nat} (hy : y.natAbs < 10000) (h1 : 1 ≤ m) (h2 : m ≤ 12) (s ft : Str) (u a : Prec) :
    mkEDTF (spanRec s y m (monthLen y m) y m (monthLen y m) true u a Prec.YEAR) s 2 ft = zeroDayResult f y m s ft u a := by
  have hv : (dayOf y m (monthLen y m)).ok := dayOf_ok hy (valid_last h1 h2)
  have := spanRec_result hf hv s s 2 ft u a
  rw [dayOf_value] at this
  exact this

/-- C27, the converse: only such strings are read as group qualification, the
date exists, and the result is the one above; the one exception is the day 00,
read as the last day of the month. -/
theorem C27_only_partial (hf : DayCount f) {s : Str} {r : EDTFDate} (h : parseString s = .ok r) (hft : r.feature = c! "Qualification (Group)") :
    ∃ (x : Date0) (qy qm qd : Deco), x.neg = false ∧ Date0.qOk x qy qm qd ∧ noLeft qy qm qd ∧ s = x.qtext qy qm qd ∧
      ((x.ok ∧ r = x.result f s s 2 (c! "Qualification (Group)") (marked saysUncertain qy qm qd) (marked saysApproximate qy qm qd)) ∨
       ∃ m, 1 ≤ m ∧ m ≤ 12 ∧ x.tail = .day m 0 ∧ r = zeroDayResult f x.value m s (c! "Qualification (Group)")
          (marked saysUncertain qy qm qd) (marked saysApproximate qy qm qd)) := by
  obtain ⟨hg, hp⟩ := feature_group h hft
  obtain ⟨x, qy, qm, qd, hw, hq, hl, rfl⟩ := lang_group.1 (isGroup_iff.1 hg)
  obtain ⟨-, sp, hs, rfl⟩ := guard_inv hp
  rw [dateSpanFromEDTF_noSlash (qtext_not_mem hw.1 hq (by decide) (by decide) (by decide))] at hs
  refine ⟨x, qy, qm, qd, hw.1, hq, hl, rfl, ?_⟩
  rcases dateSpan_wide hw hq hs with hx | ⟨m, h1, h2, ht, e⟩
  · left
    rw [dateSpan_date0 hx hq] at hs
    injection hs with hs
    rw [← hs, spanRec_result hf hx]
    exact ⟨hx, rfl⟩
  · right
    have hv : x.value.natAbs < 10000 := by
      have := hw.2.1
      unfold Date0.value; rw [hw.1]; simp only [Bool.false_eq_true, if_false]; omega
    refine ⟨m, h1, h2, ht, ?_⟩
    rw [e, spanRec_zero hf hv h1 h2]
    rfl

example : ∃ r, parseString (c! "2004-06~-11") = .ok r ∧ r.feature = c! "Qualification (Group)" := ⟨_, rfl, rfl⟩

/-- C27 does not hold for a qualifier after the last component only: it is
dropped ("2004-06~" is read as a season), C16_month_or_day_partial. -/
theorem C27_negation : ∃ d b, parseString ((⟨false, 2004, .month 6⟩ : Date0).qtext .none (.right '~') .none) = .ok d ∧
    d.start.bind (·.lower) = some b ∧ b.approximate = 0 := ⟨_, _, rfl, rfl, rfl⟩

/-- The second example of the exception. -/
theorem C27_zero_day : ∃ d, parseString (c! "2004?-06-00") = .ok d ∧ d.feature = c! "Qualification (Group)" ∧
    (d.start.bind (·.lower)).bind (·.ymd) = some ⟨2004, 6, 30⟩ := ⟨_, rfl, rfl, rfl⟩

/-! ### Texts that no parser reads -/

theorem wide_second {x : Date0} (hw : Date0.wide x) {qy qm qd : Deco} (hq : Date0.qOk x qy qm qd) :
    ∃ a b t, x.qtext qy qm qd = a :: b :: t ∧ a ≠ '-' ∧ b ≠ '-' := by
  rw [qtext_eq, hw.1]
  generalize Date0.qtail x qm qd = t
  have hd : ∀ k, dig (k % 10) ≠ '-' := fun k => dig_mod_ne k (by decide)
  cases qy with
  | none => exact ⟨_, _, _, rfl, hd _, hd _⟩
  | left q => exact ⟨_, _, _, rfl, (isQ_ne hq.1).1, hd _⟩
  | right q => exact ⟨_, _, _, rfl, hd _, hd _⟩

theorem neg_second {x : Date0} (hn : x.neg = true) {qy qm qd : Deco} : 
    (∃ t, x.qtext qy qm qd = '-' :: t) ∨ ∃ q t, x.qtext qy qm qd = q :: '-' :: t := by
  rw [qtext_eq, hn]
  cases qy with
  | none => exact Or.inl ⟨_, rfl⟩
  | left q => exact Or.inr ⟨_, _, rfl⟩
  | right q => exact Or.inl ⟨_, rfl⟩

theorem neg_not_wide {x x' : Date0} (hn : x.neg = true) {qy qm qd qy' qm' qd' : Deco} (hw : Date0.wide x') (hq' : Date0.qOk x' qy' qm' qd') :
    x.qtext qy qm qd ≠ x'.qtext qy' qm' qd' := by
  intro e
  obtain ⟨a, b, t, e', ha, hb⟩ := wide_second hw hq'
  rw [e'] at e
  rcases neg_second hn (qy := qy) (qm := qm) (qd := qd) with ⟨t', h⟩ | ⟨q, t', h⟩
  · rw [h] at e; injection e with e _; exact ha e.symm
  · rw [h] at e; injection e with _ e; injection e with e _; exact hb e.symm

theorem neg_chars {x : Date0} {qy qm qd : Deco} (hq : Date0.qOk x qy qm qd) {c : Char} (h : c ∈ x.qtext qy qm qd) :
    isDig c = true ∨ isQ c = true ∨ c = '-' := by
  cases hn : x.neg with
  | false => exact qtext_chars hn hq h
  | true =>
    have h2 : ∀ {c : Char}, c ∈ (⟨false, x.year, x.tail⟩ : Date0).qtext qy qm qd → isDig c = true ∨ isQ c = true ∨ c = '-' :=
      fun h => qtext_chars rfl (by obtain ⟨a, b, t⟩ := x; exact hq) h
    rw [qtext_eq, hn] at h
    have key : c = '-' ∨ c ∈ (⟨false, x.year, x.tail⟩ : Date0).qtext qy qm qd := by
      rw [qtext_eq]
      rcases List.mem_append.1 h with h | h
      · have : c ∈ qy.text ('-' :: pad4 x.year) := h
        cases qy with
        | none => rcases List.mem_cons.1 this with h | h
                  · exact Or.inl h
                  · exact Or.inr (List.mem_append.2 (Or.inl h))
        | left q =>
          rcases List.mem_cons.1 this with h | h
          · exact Or.inr (List.mem_append.2 (Or.inl (List.mem_cons.2 (Or.inl h))))
          rcases List.mem_cons.1 h with h | h
          · exact Or.inl h
          · exact Or.inr (List.mem_append.2 (Or.inl (List.mem_cons.2 (Or.inr h))))
        | right q =>
          rcases List.mem_append.1 this with h | h
          · rcases List.mem_cons.1 h with h | h
            · exact Or.inl h
            · exact Or.inr (List.mem_append.2 (Or.inl (List.mem_append.2 (Or.inl h))))
          · exact Or.inr (List.mem_append.2 (Or.inl (List.mem_append.2 (Or.inr h))))
      · exact Or.inr (List.mem_append.2 (Or.inr h))
    rcases key with h | h
    · exact Or.inr (Or.inr h)
    · exact h2 h

theorem neg_unread {x : Date0} (hn : x.neg = true) {qy qm qd : Deco} (hq : Date0.qOk x qy qm qd) (hi : InnerQ (x.qtext qy qm qd)) :
    ∃ e, parseString (x.qtext qy qm qd) = .err e ∧ (isInvalid e = true ∨ isUnrecognized e = true) := by
  refine (parse_inner hi (fun c hc => neg_chars hq hc)).2.2 ?_ ?_
  · cases h : L2.isGroupQualification (x.qtext qy qm qd) with
    | false => rfl
    | true =>
      obtain ⟨x', _, _, _, hw, hq', -, e⟩ := lang_group.1 (isGroup_iff.1 h)
      exact absurd e (neg_not_wide hn hw hq')
  · cases h : L2.isIndividualQualification (x.qtext qy qm qd) with
    | false => rfl
    | true =>
      obtain ⟨x', _, _, _, hw, hq', -, e⟩ := lang_individual.1 (isIndividual_iff.1 h)
      exact absurd e (neg_not_wide hn hw hq')

/-- C27: negative years with a qualifier before the last component are errors. -/
theorem C27_negative_partial {x : Date0} (hn : x.neg = true) {qy qm qd : Deco} (hq : Date0.qOk x qy qm qd) (he : Date0.early x qy qm) :
    ∃ e, parseString (x.qtext qy qm qd) = .err e ∧ (isInvalid e = true ∨ isUnrecognized e = true) :=
  neg_unread hn hq (early_inner hq he)

example : Date0.qOk ⟨true, 44, .day 3 15⟩ (.right '?') .none .none ∧ Date0.early ⟨true, 44, .day 3 15⟩ (.right '?') .none ∧
    (⟨true, 44, .day 3 15⟩ : Date0).qtext (.right '?') .none .none = c! "-0044?-03-15" := by decide

/-! ### C28 -/

/-- C28: with qualifiers only to the left and at least one: exactly the
qualified components are marked, and the bounds are those of the plain date. -/
theorem C28_individual (hf : DayCount f) {x : Date0} (hx : x.ok) (hn : x.neg = false) {qy qm qd : Deco} (hq : Date0.qOk x qy qm qd)
    (hr : noRight qy qm qd) (he : ¬ noLeft qy qm qd) :
    parseString (x.qtext qy qm qd) = .ok (x.result f (x.qtext qy qm qd) (x.qtext qy qm qd) 2 (c! "Qualification (Individual)")
      (marked saysUncertain qy qm qd) (marked saysApproximate qy qm qd)) := by
  have hi := isIndividual_iff.2 (lang_individual.2 ⟨x, qy, qm, qd, ok_wide hx hn, hq, hr, rfl⟩)
  have hg : L2.isGroupQualification (x.qtext qy qm qd) = false := by
    cases h : L2.isGroupQualification (x.qtext qy qm qd) with
    | false => rfl
    | true =>
      obtain ⟨x', qy', qm', qd', hw, hq', hl', e⟩ := lang_group.1 (isGroup_iff.1 h)
      obtain ⟨-, rfl, rfl, rfl⟩ := qtext_inj (ok_wide hx hn) hw hq hq' e
      exact absurd hl' he
  rw [(parse_inner (anyLeft_inner hq he) (fun c hc => qtext_chars hn hq hc)).2.1 hg hi]
  unfold L2.parseIndividualQualification
  rw [show Rx.IndividualQualification.matchString _ = true from hi]
  simp only [Bool.not_true, Bool.false_eq_true, if_false]
  rw [dateSpanFromEDTF_noSlash (qtext_not_mem hn hq (by decide) (by decide) (by decide)), dateSpan_date0 hx hq, Res.ok_bind, spanRec_result hf hx]
  rfl

example : (⟨false, 2004, .day 6 11⟩ : Date0).ok ∧ Date0.qOk ⟨false, 2004, .day 6 11⟩ (.left '?') .none (.left '%') ∧
    noRight (.left '?') .none (.left '%') ∧ ¬ noLeft (.left '?') .none (.left '%') ∧
    (⟨false, 2004, .day 6 11⟩ : Date0).qtext (.left '?') .none (.left '%') = c! "?2004-06-%11" ∧
    marked saysUncertain (.left '?') .none (.left '%') = Prec.YEAR ||| Prec.DAY ∧
    marked saysApproximate (.left '?') .none (.left '%') = Prec.DAY := by decide

/-- C28: with only left qualifiers, a component is marked exactly if it is
itself qualified. -/
theorem C28_marks (p : Char → Bool) {qy qm qd : Deco} (hr : noRight qy qm qd) :
    ((marked p qy qm qd) &&& Prec.YEAR = if qy.isLeft p then Prec.YEAR else 0) ∧
    ((marked p qy qm qd) &&& Prec.MONTH = if qm.isLeft p then Prec.MONTH else 0) ∧
    ((marked p qy qm qd) &&& Prec.DAY = if qd.isLeft p then Prec.DAY else 0) := by
  have key : ∀ q : Deco, q.isRight (fun _ => true) = false → q.isRight p = false := by
    intro q h; cases q with
    | right c => cases h
    | none => rfl
    | left c => rfl
  simp only [noRight, List.mem_cons, List.not_mem_nil, or_false, forall_eq_or_imp, forall_eq] at hr
  unfold marked
  rw [key _ hr.1, key _ hr.2.1, key _ hr.2.2]
  cases qy.isLeft p <;> cases qm.isLeft p <;> cases qd.isLeft p <;> decide

example : noRight (.left '?') .none (.left '%') ∧ marked saysUncertain (.left '?') .none (.left '%') &&& Prec.DAY = Prec.DAY := by decide

/-- C28, the converse. -/
theorem C28_only (hf : DayCount f) {s : Str} {r : EDTFDate} (h : parseString s = .ok r) (hft : r.feature = c! "Qualification (Individual)") :
    ∃ (x : Date0) (qy qm qd : Deco), x.neg = false ∧ Date0.qOk x qy qm qd ∧ noRight qy qm qd ∧ s = x.qtext qy qm qd ∧
      ((x.ok ∧ r = x.result f s s 2 (c! "Qualification (Individual)") (marked saysUncertain qy qm qd) (marked saysApproximate qy qm qd)) ∨
       ∃ m, 1 ≤ m ∧ m ≤ 12 ∧ x.tail = .day m 0 ∧ r = zeroDayResult f x.value m s (c! "Qualification (Individual)")
          (marked saysUncertain qy qm qd) (marked saysApproximate qy qm qd)) := by
  obtain ⟨-, hg, hp⟩ := feature_individual h hft
  obtain ⟨x, qy, qm, qd, hw, hq, hl, rfl⟩ := lang_individual.1 (isIndividual_iff.1 hg)
  obtain ⟨-, sp, hs, rfl⟩ := guard_inv hp
  rw [dateSpanFromEDTF_noSlash (qtext_not_mem hw.1 hq (by decide) (by decide) (by decide))] at hs
  refine ⟨x, qy, qm, qd, hw.1, hq, hl, rfl, ?_⟩
  rcases dateSpan_wide hw hq hs with hx | ⟨m, h1, h2, ht, e⟩
  · left
    rw [dateSpan_date0 hx hq] at hs
    injection hs with hs
    rw [← hs, spanRec_result hf hx]
    exact ⟨hx, rfl⟩
  · right
    have hv : x.value.natAbs < 10000 := by
      have := hw.2.1
      unfold Date0.value; rw [hw.1]; simp only [Bool.false_eq_true, if_false]; omega
    refine ⟨m, h1, h2, ht, ?_⟩
    rw [e, spanRec_zero hf hv h1 h2]
    rfl

example : ∃ r, parseString (c! "2004-06-~11") = .ok r ∧ r.feature = c! "Qualification (Individual)" := ⟨_, rfl, rfl⟩

/-- C28: negative years with a left qualifier are errors. -/
theorem C28_negative {x : Date0} (hn : x.neg = true) {qy qm qd : Deco} (hq : Date0.qOk x qy qm qd) (he : ¬ noLeft qy qm qd) :
    ∃ e, parseString (x.qtext qy qm qd) = .err e ∧ (isInvalid e = true ∨ isUnrecognized e = true) :=
  neg_unread hn hq (anyLeft_inner hq he)

example : Date0.qOk ⟨true, 44, .day 3 15⟩ (.left '?') .none .none ∧ ¬ noLeft (.left '?') .none .none ∧
    (⟨true, 44, .day 3 15⟩ : Date0).qtext (.left '?') .none .none = c! "?-0044-03-15" := by decide

/-- C28: a text with both left and right qualifiers is an error. -/
theorem C28_mixed {x : Date0} (hx : x.ok) {qy qm qd : Deco} (hq : Date0.qOk x qy qm qd) (hl : ¬ noLeft qy qm qd) (hr : ¬ noRight qy qm qd) :
    ∃ e, parseString (x.qtext qy qm qd) = .err e ∧ (isInvalid e = true ∨ isUnrecognized e = true) := by
  cases hn : x.neg with
  | true => exact neg_unread hn hq (anyLeft_inner hq hl)
  | false =>
    refine (parse_inner (anyLeft_inner hq hl) (fun c hc => qtext_chars hn hq hc)).2.2 ?_ ?_
    · cases h : L2.isGroupQualification (x.qtext qy qm qd) with
      | false => rfl
      | true =>
        obtain ⟨x', qy', qm', qd', hw, hq', hl', e⟩ := lang_group.1 (isGroup_iff.1 h)
        obtain ⟨-, rfl, rfl, rfl⟩ := qtext_inj (ok_wide hx hn) hw hq hq' e
        exact absurd hl' hl
    · cases h : L2.isIndividualQualification (x.qtext qy qm qd) with
      | false => rfl
      | true =>
        obtain ⟨x', qy', qm', qd', hw, hq', hl', e⟩ := lang_individual.1 (isIndividual_iff.1 h)
        obtain ⟨-, rfl, rfl, rfl⟩ := qtext_inj (ok_wide hx hn) hw hq hq' e
        exact absurd hl' hr

example : Date0.qOk ⟨false, 2004, .day 6 11⟩ (.left '?') .none (.right '~') ∧ ¬ noLeft (.left '?') .none (.right '~') ∧
    ¬ noRight (.left '?') .none (.right '~') ∧
    (⟨false, 2004, .day 6 11⟩ : Date0).qtext (.left '?') .none (.right '~') = c! "?2004-06-11~" := by decide

end EDTF
