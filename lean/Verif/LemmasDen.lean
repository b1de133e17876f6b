/- The records of single dates, intervals and sets. -/
import Verif.SpecDenote
import Verif.LemmasAcc2
import Verif.LemmasAcc3
import Verif.LemmasAcc4
namespace EDTF
open Spec

variable {f : Int → Nat → Nat → Int}

/-! ### Dates -/

theorem unit_of {x : XDate} {y1 y2 : Int} {p : Prec} (h : YearSpan (sgn x.neg x.year) y1 y2 p) (hx : x.ok) : datePrec p x.mx x.dx = x.unit := by
  have hp : p = yearUnitOf x.year := by
    obtain ⟨neg, w, t⟩ := x
    simp only at h hx ⊢
    have hl := hx.1
    obtain ⟨a, b, c, d, rfl⟩ := four_chars hl
    generalize hs : sgn neg [a, b, c, d] = s at h
    cases h with
    | plain neg' n hn =>
      have hX : d ≠ 'X' := by
        rintro rfl
        have hm : 'X' ∈ yearStr neg' n := by
          rw [← hs]; cases neg <;> simp [sgn]
        cases neg' with
        | true =>
          rcases List.mem_cons.1 (show 'X' ∈ '-' :: pad4 n from hm) with h | h
          · exact absurd h (by decide)
          · exact pad4_noX n h
        | false => exact pad4_noX n hm
      unfold yearUnitOf
      split
      · rename_i e
        injection e with _ e; injection e with _ e; injection e with _ e; injection e with e _
        exact absurd e hX
      · rfl
    | x a' b' c' ha hb hc =>
      cases neg with
      | true =>
        have := congrArg List.length hs
        simp [sgn] at this
      | false =>
        simp only [sgn, Bool.false_eq_true, if_false] at hs
        injection hs with h1 hs; injection hs with h2 hs; injection hs with h3 hs; injection hs with h4 _
        subst h1 h2 h3 h4
        have tb : ∀ {c : Char}, isDX c = true → (isDig c = true ↔ c ≠ 'X') := by
          intro c h
          rcases isDX_cases h with ⟨h1, h2⟩ | rfl
          · simp [h1, h2]
          · decide
        show (if isDig c = true then Prec.DECADE else if isDig b = true then Prec.CENTURY else Prec.MILLENIUM) =
          if c ≠ 'X' then Prec.DECADE else if b ≠ 'X' then Prec.CENTURY else Prec.MILLENIUM
        simp only [tb hb, tb hc]
  unfold datePrec XDate.unit
  rw [hp]
  by_cases h1 : x.dx = ['X', 'X'] <;> by_cases h2 : x.mx = ['X', 'X'] <;> simp [h1, h2]

theorem eformOf_deco (e : Endpoint) (h : e.shape) : (eformOf e).yc.q = e.qy ∧ (eformOf e).mq = e.qm ∧ (eformOf e).dq = e.qd := by
  obtain ⟨⟨neg, y, t⟩, qy, qm, qd⟩ := e
  obtain ⟨-, -, -, -, h⟩ := h
  cases t with
  | none => exact ⟨rfl, h.1.symm, h.2.symm⟩
  | month m => exact ⟨rfl, rfl, Eq.symm h⟩
  | day m d => exact ⟨rfl, rfl, rfl⟩

/-- The span of a date, exactly. -/
theorem span_runs {e : Endpoint} (h : e.shape) {y1 y2 : Int} {m1 d1 m2 d2 : Nat} (hr : e.date.Runs y1 m1 d1 y2 m2 d2) :
    dateSpanFromYMD e.text = .ok (spanRec e.text y1 m1 d1 y2 m2 d2 (sameDay y1 m1 d1 y2 m2 d2)
      (marked saysUncertain e.qy e.qm e.qd) (marked saysApproximate e.qy e.qm e.qd) e.date.unit) := by
  have hR : e.date.Readable := ⟨y1, y2, m1, m2, d1, d2, hr⟩
  obtain ⟨hY, hM, hD, V1, V2⟩ := hr
  obtain ⟨p, hY⟩ := (yearReads_iff h.1.1).1 hY
  rw [monthReads_iff] at hM
  rw [dayReads_iff] at hD
  obtain ⟨k1, k2, k3⟩ := eformOf_parts e
  have hF : (eformOf e).ok := by
    have hy := xyear_lang h.1
    obtain ⟨⟨neg, y, t⟩, qy, qm, qd⟩ := e
    obtain ⟨hx, o1, o2, o3, -⟩ := h
    simp only at o1 o2 o3 hy
    cases t with
    | none => exact ⟨o1, hy⟩
    | month m => exact ⟨⟨o1, hy⟩, o2, monthSpan_lang hM (by intro e; simp only at e; rw [e] at hx; exact absurd hx.2.2.1 (by decide))⟩
    | day m d =>
      exact ⟨⟨o1, hy⟩, ⟨o2, monthSpan_lang hM (by intro e; simp only at e; rw [e] at hx; exact absurd hx.2.2.1 (by decide))⟩,
        o3, daySpan_lang hD (by intro e; simp only at e; rw [e] at hx; exact absurd hx.2.2.2.2.1 (by decide))⟩
  have := dateSpan_form hF (k1 ▸ hY) (k2 ▸ hM) (k3 ▸ hD) V1 V2
  obtain ⟨q1, q2, q3⟩ := eformOf_deco e h
  rw [eformOf_text, k2, k3, q1, q2, q3, unit_of hY h.1] at this
  exact this

theorem dawn_congr (hf : DayCount f) (e : Endpoint) {y : Int} {m d : Nat} (V : Valid y m d) : e.dawn U y m d = e.dawn f y m d := by
  unfold Endpoint.dawn dayStart
  rw [dated_congr hf V]

theorem dusk_congr (hf : DayCount f) (e : Endpoint) {y : Int} {m d : Nat} (V : Valid y m d) : e.dusk U y m d = e.dusk f y m d := by
  unfold Endpoint.dusk dayEnd
  rw [dated_congr hf V]

theorem spanOf_ok (hf : DayCount f) {t : Str} {S E : DateRange} (h : SpanOf f t S E) : dateSpanFromYMD t = .ok ⟨some S, some E⟩ := by
  cases h with
  | date e h y1 m1 d1 y2 m2 d2 hr =>
    rw [span_runs h hr]
    obtain ⟨-, -, -, V1, V2⟩ := hr
    rw [← dawn_congr hf e V1, ← dawn_congr hf e V2, ← dusk_congr hf e V1, ← dusk_congr hf e V2]
    unfold spanRec sameDay
    simp only [decide_eq_true_eq]
    rfl

theorem rangeOf_ok (hf : DayCount f) {t : Str} {R : DateRange} (h : RangeOf f t R) :
    ∃ s e : DateRange, halfSpan t = .ok ⟨some s, some e⟩ ∧ R = ⟨t, s.lower, e.upper⟩ ∧ s.edtf = t ∧ e.edtf = t := by
  cases h with
  | absent => exact ⟨_, _, rfl, rfl, rfl, rfl⟩
  | date e h y1 m1 d1 y2 m2 d2 hr =>
    have k := span_runs h hr
    rw [← ehalf h] at k
    obtain ⟨-, -, -, V1, V2⟩ := hr
    rw [← dawn_congr hf e V1, ← dusk_congr hf e V2]
    exact ⟨_, _, k, rfl, rfl, rfl⟩

theorem range_exists (f : Int → Nat → Nat → Int) {e : Endpoint} (h : e.Readable) : ∃ R, RangeOf f e.text R := by
  obtain ⟨h, y1, y2, m1, m2, d1, d2, hr⟩ := h
  exact ⟨_, .date e h y1 m1 d1 y2 m2 d2 hr⟩

theorem span_exists (f : Int → Nat → Nat → Int) {e : Endpoint} (h : e.Readable) : ∃ S E, SpanOf f e.text S E := by
  obtain ⟨h, y1, y2, m1, m2, d1, d2, hr⟩ := h
  exact ⟨_, _, .date e h y1 m1 d1 y2 m2 d2 hr⟩

theorem reads_range (f : Int → Nat → Nat → Int) {t : Str} (h : Reads t) : ∃ R, RangeOf f t R := by
  obtain ⟨e, h, rfl⟩ := h
  exact range_exists f h

theorem reads_span (f : Int → Nat → Nat → Int) {t : Str} (h : Reads t) : ∃ S E, SpanOf f t S E := by
  obtain ⟨e, h, rfl⟩ := h
  exact span_exists f h

/-! ### Which branch reads a single date -/

/-- Which branch reads a single date. -/
theorem single_parse {e : Endpoint} (h : e.Readable) (hn : e.date.neg = false) (hq : noLeft e.qy e.qm e.qd ∨ noRight e.qy e.qm e.qd)
    (hx : 'X' ∈ e.text → e.qy = .none ∧ e.qm = .none ∧ e.qd = .none) {sp : DateSpan} (hsp : dateSpanFromYMD e.text = .ok sp)
    (h1 : L0.isDate e.text = false) (h2 : L1.isSeason e.text = false ∨ L1.isLevel1 e.text = false) (h3 : L1.isQualifiedDate e.text = false) :
    parseString e.text = .ok (mkEDTF sp e.text (if L1.isUnspecifiedDigits e.text then 1 else 2)
      (if L1.isUnspecifiedDigits e.text then c! "Unspecified digit(s) from the right" else if L2.isGroupQualification e.text then c! "Qualification (Group)"
        else if L2.isIndividualQualification e.text then c! "Qualification (Individual)" else c! "Unspecified Digit")) := by
  have nm : ∀ {c : Char}, isDX c = false → c ≠ '-' → isQ c = false → c ∉ e.text := fun h1 h2 h3 => e_not_mem h.1 h1 h2 h3
  have hd := e_head h.1 hn
  have hpl := e_plain h.1
  have hL : L2.isGroupQualification e.text = true ∨ L2.isIndividualQualification e.text = true ∨ L2.isUnspecifiedDigit e.text = true := by
    by_cases hX : 'X' ∈ e.text
    · obtain ⟨x, qy, qm, qd⟩ := e
      obtain ⟨e1, e2, e3⟩ := hx hX
      simp only at e1 e2 e3
      subst e1 e2 e3
      exact Or.inr (Or.inr (isUnspecifiedDigit_iff.2 (e_unspecified h.1.1 hn)))
    · obtain ⟨x, hw, ho, et, -⟩ := e_date0 h.1 hn hX
      rcases hq with hq | hq
      · exact Or.inl (isGroup_iff.2 (lang_group.2 ⟨x, _, _, _, hw, ho, hq, et⟩))
      · exact Or.inr (Or.inl (isIndividual_iff.2 (lang_individual.2 ⟨x, _, _, _, hw, ho, hq, et⟩)))
  have ns := nm (c := '/') (by decide) (by decide) (by decide)
  generalize e.text = s at *
  have hspE : dateSpanFromEDTF s = .ok sp := by rw [dateSpanFromEDTF_noSlash ns]; exact hsp
  have h0 := no_slash_level0 ns (nm (by decide) (by decide) (by decide)) h1
  cases hu : L1.isUnspecifiedDigits s with
  | true =>
    have hl : L1.isLevel1 s = true := by
      refine isLevel1_iff.2 (Or.inr (Or.inr (Or.inr (Or.inr (Or.inl ?_)))))
      rw [lang_ci_noLower (by decide) s hpl, ← isUnspecifiedDigits_iff]
      exact hu
    have hse : L1.isSeason s = false := h2.resolve_right (by simp [hl])
    rw [parse_level1 h0 hl]
    unfold L1.parseString
    rw [not_letter (nm (by decide) (by decide) (by decide)), hse, h3, hu]
    simp only [Bool.false_eq_true, if_false, if_true]
    unfold L1.parseUnspecifiedDigits
    rw [show Rx.UnspecifiedDigits.matchString s = true from hu, if_neg (by simp), hspE]
    rfl
  | false =>
    have hl : L1.isLevel1 s = false := by
      rw [Bool.eq_false_iff]
      intro hl
      have hse : L1.isSeason s = false := h2.resolve_right (by simp [hl])
      have h1 := hl
      have hqd := h3
      rcases isLevel1_iff.1 h1 with h | h | h | h | h | h | h | h
      · rw [← isLetter_iff, not_letter (nm (by decide) (by decide) (by decide))] at h
        cases h
      · obtain ⟨u, v, rfl, hu, hv⟩ := lang_cat.1 h
        obtain ⟨neg, n, hn, rfl⟩ := lang_year4'.1 (lang_grp.1 hu)
        obtain ⟨u, w, rfl, hu, hw⟩ := lang_cat.1 hv
        rw [lang_lit] at hu
        subst hu
        obtain ⟨m, -, hm, rfl⟩ := lang_seasonCode.1 (lang_grp.1 hw)
        have := (season_num (neg := neg) hn hm []).1
        rw [List.append_nil] at this
        rw [show L1.isSeason (yearStr neg n ++ (['-'] ++ pad2 m)) = true from this] at hse
        cases hse
      · obtain ⟨w, v, rfl, hw, hv⟩ := lang_cat.1 h
        obtain ⟨t1, v1, rfl, -, hv1⟩ := lang_cat.1 hv
        obtain ⟨cs, v2, rfl, ⟨c, rfl, hc⟩, -⟩ := lang_cat.1 hv1
        have := fold_comma hc
        subst this
        exact absurd (by simp) (nm (c := ',') (by decide) (by decide) (by decide))
      · rw [← isQualifiedDate_iff, hqd] at h; cases h
      · rw [lang_ci_noLower (by decide) s hpl, ← isUnspecifiedDigits_iff, hu] at h; cases h
      · obtain ⟨u, v, rfl, -, hv⟩ := lang_cat.1 h
        obtain ⟨c, w, rfl, hc, -⟩ := lang_cat.1 hv
        rw [lang_lit] at hc
        subst hc
        exact ns (by simp)
      · obtain ⟨u, v, rfl, -, hv⟩ := lang_cat.1 h
        obtain ⟨c, w, rfl, hc, -⟩ := lang_cat.1 hv
        rw [lang_lit] at hc
        subst hc
        exact ns (by simp)
      · obtain ⟨u, v, rfl, hu, -⟩ := lang_cat.1 h
        rw [lang_lit] at hu
        subst hu
        exact hd _ rfl
    have hsy : L2.isSubYearGrouping s = false := by
      rw [Bool.eq_false_iff]
      intro h
      obtain ⟨n, m, hn, hm, rfl⟩ := lang_subYear.1 (isSubYear_iff.1 h)
      have := span_month (neg := false) (n := n) (m := m) (rest := []) (by omega) (by rw [List.append_nil]; exact hsp)
      rw [show pad4 n ++ '-' :: pad2 m = yearStr false n ++ '-' :: pad2 m from rfl, month_level0 false hn this.1 this.2] at h0
      cases h0
    have h2' : L2.isLevel2 s = true := isLevel2_of (by rcases hL with h | h | h <;> simp [h])
    rw [parse_level2 h0 hl h2']
    unfold L2.parseString
    rw [not_exponential hpl (Or.inl (nm (by decide) (by decide) (by decide))), not_sig (nm (by decide) (by decide) (by decide)), hsy,
      not_set (fun c hc => by
        rcases List.mem_cons.1 hc with rfl | hc
        · exact nm (by decide) (by decide) (by decide)
        · rw [List.mem_singleton] at hc
          subst hc
          exact nm (by decide) (by decide) (by decide))]
    simp only [Bool.false_eq_true, if_false]
    cases hg : L2.isGroupQualification s with
    | true =>
      rw [if_pos rfl]
      unfold L2.parseGroupQualification
      rw [show Rx.GroupQualification.matchString s = true from hg, if_neg (by simp), hspE]
      rfl
    | false =>
      cases hi : L2.isIndividualQualification s with
      | true =>
        rw [if_neg (by simp), if_pos rfl]
        unfold L2.parseIndividualQualification
        rw [show Rx.IndividualQualification.matchString s = true from hi, if_neg (by simp), hspE]
        rfl
      | false =>
        have hu : L2.isUnspecifiedDigit s = true := by
          rcases hL with h | h | h
          · rw [hg] at h; cases h
          · rw [hi] at h; cases h
          · exact h
        rw [if_neg (by simp), if_neg (by simp), hu, if_pos rfl]
        unfold L2.parseUnspecifiedDigit
        rw [show Rx.UnspecifiedDigit.matchString s = true from hu, if_neg (by simp), hspE]
        rfl

theorem span_readable (hf : DayCount f) {e : Endpoint} (h : e.shape) {S E : DateRange} (hs : SpanOf f e.text S E) : e.Readable :=
  ⟨h, (readable_iff h).1 ⟨_, spanOf_ok hf hs⟩⟩

theorem e_dash {e : Endpoint} (h : e.shape) (hX : 'X' ∉ e.text) {c : Char} (hc : c ∈ e.text) : isDig c = true ∨ isQ c = true ∨ c = '-' := by
  rcases echars h hc with h | rfl | h
  · rcases isDX_cases h with h | rfl
    · exact Or.inl h.1
    · exact absurd hc hX
  · exact Or.inr (Or.inr rfl)
  · exact Or.inr (Or.inl h)

theorem zero_date {a b c d e g : Char} (ha : a ≠ '-') {x : Date0} (hs : Date0.shapeOk x) (h : x.text = [a, b, c, d, '-', e, g, '-', '0', '0']) : False := by
  obtain ⟨neg, n, t⟩ := x
  rw [date0_text] at h
  cases neg with
  | true => injection h with h _; exact ha h.symm
  | false =>
    cases t with
    | none => cases h
    | month m => cases h
    | day m k =>
      have e : pad2 k = pad2 0 := congrArg (List.drop 8) h
      obtain ⟨-, -, h1, h2⟩ := hs
      have : pad2 k = pad2 0 := e
      have := pad2_inj (by omega) (by omega) this
      omega

/-- Day "00" is not a date of Level 0 or 1. -/
theorem zero_levels {a b c d e g : Char} {t : Str} (ht : t = [] ∨ ∃ q, t = [q] ∧ isQ q = true) (ha : a ≠ '-')
    (hc : ∀ k ∈ [a, b, c, d, '-', e, g, '-', '0', '0'], isDig k = true ∨ k = '-') :
    L0.isDate ([a, b, c, d, '-', e, g, '-', '0', '0'] ++ t) = false ∧ L1.isLevel1 ([a, b, c, d, '-', e, g, '-', '0', '0'] ++ t) = false := by
  have hc' : ∀ k ∈ [a, b, c, d, '-', e, g, '-', '0', '0'] ++ t, isDig k = true ∨ isQ k = true ∨ k = '-' := by
    intro k hk
    rcases List.mem_append.1 hk with h | h
    · rcases hc k h with h | h
      · exact Or.inl h
      · exact Or.inr (Or.inr h)
    · rcases ht with rfl | ⟨q, rfl, hq⟩
      · cases h
      · rw [List.mem_singleton.1 h]; exact Or.inr (Or.inl hq)
  have nm : ∀ {k : Char}, isDig k = false → isQ k = false → k ≠ '-' → k ∉ [a, b, c, d, '-', e, g, '-', '0', '0'] ++ t := by
    intro c h1 h2 h3 hc
    rcases hc' c hc with h | h | h
    · rw [h1] at h; cases h
    · rw [h2] at h; cases h
    · exact h3 h
  constructor
  · rw [Bool.eq_false_iff]
    intro h
    obtain ⟨x, -, hs, e⟩ := isDate_iff.1 h
    rcases ht with rfl | ⟨q, rfl, hq⟩
    · exact zero_date ha hs (by rw [← e, List.append_nil])
    · have hm : q ∈ x.text := by rw [← e]; simp
      rcases isQ_cases hq with rfl | rfl | rfl <;> exact date0_not_mem x (by decide) (by decide) hm
  · refine not_level1_of (nm (by decide) (by decide) (by decide)) (nm (by decide) (by decide) (by decide)) ?_ ?_ ?_ ?_ ?_ ?_
    · intro h
      have := lang_lens _ _ rfl _ h
      rcases ht with rfl | ⟨q, rfl, hq⟩ <;> simp at this
    · intro h
      obtain ⟨u, v, e, hu, hv⟩ := lang_cat.1 h
      obtain ⟨x, -, hs, rfl⟩ := lang_date.1 hu
      obtain ⟨q', hq', rfl⟩ := lang_qualAlt.1 hv
      rcases ht with rfl | ⟨q, rfl, hq⟩
      · have hl : '0' = q' := by
          have := congrArg List.getLast? e
          simpa using this
        rw [← hl] at hq'
        exact absurd hq' (by decide)
      · exact zero_date ha hs (List.append_inj_left' e.symm rfl)
    · intro h
      obtain ⟨a', b', c', d', t', e, -, -, -, -, h⟩ := lang_unspec h
      injection e with _ e; injection e with _ e; injection e with _ e; injection e with _ e
      rcases h with rfl | ⟨w, rfl, mm, v, rfl, hl, -, h⟩
      · cases e
      · injection e with _ e
        have e2 := List.append_inj (show [_, _] ++ (['-', '0', '0'] ++ t) = mm ++ v from e) (by simp [hl])
        rcases h with rfl | ⟨z, rfl, hz⟩
        · cases e2.2
        · have e3 := e2.2
          injection e3 with _ e3
          subst e3
          rcases ht with rfl | ⟨q, rfl, hq⟩
          · have : (Rx.anch dayAlt.ci).matchString (c! "00") = true := (matchString_anch _ (by decide) _).2 hz
            exact absurd this (by decide)
          · have := lang_lens _ _ rfl _ hz
            simp at this
    · exact not_lang_of_must ['/'] (by decide) (by simpa using nm (k := '/') (by decide) (by decide) (by decide))
    · exact not_lang_of_must ['/'] (by decide) (by simpa using nm (k := '/') (by decide) (by decide) (by decide))
    · intro h
      obtain ⟨u, v, e, hu, -⟩ := lang_cat.1 h
      rw [lang_lit] at hu
      subst hu
      injection e with e _
      exact ha e

theorem level1_qualified {s : Str} (h : L1.isLevel1 s = false) : L1.isQualifiedDate s = false := by
  rw [Bool.eq_false_iff]
  intro hq
  rw [isLevel1_iff.2 (Or.inr (Or.inr (Or.inr (Or.inl (isQualifiedDate_iff.1 hq)))))] at h
  cases h

theorem level1_unspecified {s : Str} (hp : s.all plainC = true) (h : L1.isLevel1 s = false) : L1.isUnspecifiedDigits s = false := by
  rw [Bool.eq_false_iff]
  intro hq
  rw [isLevel1_iff.2 (Or.inr (Or.inr (Or.inr (Or.inr (Or.inl ((lang_ci_noLower (by decide) s hp).2 (isUnspecifiedDigits_iff.1 hq)))))))] at h
  cases h

theorem level0_date {s : Str} (h : L0.isLevel0 s = false) : L0.isDate s = false := by
  rw [isLevel0_iff] at h
  cases hd : L0.isDate s with
  | false => rfl
  | true => rw [hd] at h; simp at h

theorem digits_text {e : Endpoint} (h : e.shape) (hn : e.date.neg = false) (hX : 'X' ∉ e.text) 
    (hr : e.early ∨ e.date.dx = c! "00" ∨ ¬ noLeft e.qy e.qm e.qd) : L0.isDate e.text = false ∧ L1.isLevel1 e.text = false := by
  obtain ⟨x, hw, hq, et, htl⟩ := e_date0 h hn hX
  have hch : ∀ c ∈ e.text, isDig c = true ∨ isQ c = true ∨ c = '-' := fun c hc => e_dash h hX hc
  have key : InnerQ e.text → L0.isDate e.text = false ∧ L1.isLevel1 e.text = false := by
    intro hi
    have := inner_levels hi hch
    exact ⟨level0_date this.1, this.2⟩
  by_cases he : e.early
  · apply key
    rw [et]
    apply early_inner hq
    unfold Endpoint.early at he
    rw [htl] at he
    unfold Date0.early
    generalize x.tail = tl at he ⊢
    cases tl <;> exact he
  by_cases hlf : noLeft e.qy e.qm e.qd
  · have h0 := (hr.resolve_left he).resolve_right (by simp [hlf])
    obtain ⟨⟨neg, yy, tl⟩, qy, qm, qd⟩ := e
    obtain ⟨⟨hy, hyx, hx⟩, o1, o2, o3, ht⟩ := h
    simp only at hn hy hyx hx o1 o2 o3 ht
    subst hn
    cases tl with
    | none => cases h0
    | month m => cases h0
    | day m d =>
      obtain ⟨hm1, hm2, hd1, hd2⟩ := hx
      have h0 : d = c! "00" := h0
      subst h0
      have he' : ¬ (qy ≠ .none ∨ qm ≠ .none) := he
      have e1 : qy = .none := by
        cases qy <;> first | rfl | exact absurd (Or.inl (by simp)) he'
      have e2 : qm = .none := by
        cases qm <;> first | rfl | exact absurd (Or.inr (by simp)) he'
      subst e1 e2
      obtain ⟨a, b, c, d, rfl⟩ := four_chars hy
      match m, hm1 with
      | [i, j], _ =>
        have hz : ∃ t, (t = [] ∨ ∃ q, t = [q] ∧ isQ q = true) ∧
            (⟨⟨false, [a, b, c, d], .day [i, j] (c! "00")⟩, .none, .none, qd⟩ : Endpoint).text = [a, b, c, d, '-', i, j, '-', '0', '0'] ++ t := by
          cases qd with
          | none => exact ⟨[], Or.inl rfl, rfl⟩
          | left q => exact absurd (hlf (.left q) (by simp)) (by simp [Deco.isLeft])
          | right q => exact ⟨[q], Or.inr ⟨q, rfl, o3⟩, rfl⟩
        obtain ⟨t, ht, ez⟩ := hz
        rw [ez] at hX hch ⊢
        refine zero_levels ht ?_ ?_
        · rintro rfl
          exact absurd (xdigit_iff.1 (hyx '-' (by simp))) (by decide)
        · have kd : ∀ k, XDigit k → k ≠ 'X' → isDig k = true := by
            intro k h1 h2
            rcases isDX_cases (xdigit_iff.1 h1) with h | h
            · exact h.1
            · exact absurd h h2
          intro k hk
          have hkX : k ≠ 'X' := by
            rintro rfl
            exact hX (List.mem_append_left _ hk)
          rcases List.mem_append.1 (show k ∈ [a, b, c, d] ++ (['-'] ++ ([i, j] ++ ['-', '0', '0'])) from hk) with h | h
          · exact Or.inl (kd k (hyx k h) hkX)
          rcases List.mem_append.1 h with h | h
          · exact Or.inr (List.mem_singleton.1 h)
          rcases List.mem_append.1 h with h | h
          · exact Or.inl (kd k (hm2 k h) hkX)
          · exact (by decide : ∀ k ∈ ['-', '0', '0'], isDig k = true ∨ k = '-') k h
  · apply key
    rw [et]
    exact anyLeft_inner hq hlf

theorem group_ok (hf : DayCount f) {e : Endpoint} (h : e.shape) (hn : e.date.neg = false) (hX : 'X' ∉ e.text) (hl : noLeft e.qy e.qm e.qd)
    (he : e.early ∨ e.date.dx = c! "00") {S E : DateRange} (hs : SpanOf f e.text S E) :
    parseString e.text = .ok ⟨some S, some E, e.text, 2, c! "Qualification (Group)"⟩ := by
  have hl1 := digits_text h hn hX (by rcases he with h | h; exact Or.inl h; exact Or.inr (Or.inl h))
  obtain ⟨x, hw, hq, et, -⟩ := e_date0 h hn hX
  rw [single_parse (span_readable hf h hs) hn (Or.inl hl) (fun h => absurd h hX) (spanOf_ok hf hs) hl1.1 (Or.inr hl1.2) (level1_qualified hl1.2),
    level1_unspecified (e_plain h) hl1.2, isGroup_iff.2 (lang_group.2 ⟨x, _, _, _, hw, hq, hl, et⟩)]
  rfl

theorem individual_ok (hf : DayCount f) {e : Endpoint} (h : e.shape) (hn : e.date.neg = false) (hX : 'X' ∉ e.text) (hr : noRight e.qy e.qm e.qd)
    (hl : ¬ noLeft e.qy e.qm e.qd) {S E : DateRange} (hs : SpanOf f e.text S E) :
    parseString e.text = .ok ⟨some S, some E, e.text, 2, c! "Qualification (Individual)"⟩ := by
  have hl1 := digits_text h hn hX (Or.inr (Or.inr hl))
  obtain ⟨x, hw, hq, et, -⟩ := e_date0 h hn hX
  have hg : L2.isGroupQualification e.text = false := by
    rw [Bool.eq_false_iff]
    intro hg
    obtain ⟨x', qy', qm', qd', hw', hq', hl', e'⟩ := lang_group.1 (isGroup_iff.1 hg)
    obtain ⟨-, h1, h2, h3⟩ := qtext_inj hw hw' hq hq' (et ▸ e')
    rw [h1, h2, h3] at hl
    exact absurd hl' hl
  rw [single_parse (span_readable hf h hs) hn (Or.inr hr) (fun h => absurd h hX) (spanOf_ok hf hs) hl1.1 (Or.inr hl1.2) (level1_qualified hl1.2),
    level1_unspecified (e_plain h) hl1.2, hg, isIndividual_iff.2 (lang_individual.2 ⟨x, _, _, _, hw, hq, hr, et⟩)]
  rfl

/-! ### Unspecified digits -/

theorem endpoint_plain (x : XDate) : (⟨x, .none, .none, .none⟩ : Endpoint).text = x.text := by
  obtain ⟨neg, yy, tl⟩ := x
  rw [xtext]
  cases tl <;> rfl

theorem monthX_of {w : Str} {m1 m2 : Nat} (h : MonthReads w m1 m2) (h0 : w ≠ []) : Lang Rx.monthX w := by
  rw [← matchString_anch _ (by decide)]
  cases h with
  | absent => exact absurd rfl h0
  | digits m h1 h2 =>
    exact (by decide +kernel : ∀ m, m < 13 → 1 ≤ m → (Rx.anch Rx.monthX).matchString (pad2 m) = true) _ (by omega) h1
  | any => decide
  | zero => decide
  | one => decide

theorem dayAlt_of {w : Str} {l1 l2 d1 d2 : Nat} (h : DayReads l1 l2 w d1 d2) (h0 : w ≠ []) : (Rx.anch dayAlt).matchString w = !decide (w ∈ [c! "00", c! "10", c! "20"]) := by
  cases h with
  | absent => exact absurd rfl h0
  | digits m h1 h2 =>
    exact (by decide +kernel : ∀ m, m < 32 → 1 ≤ m → (Rx.anch dayAlt).matchString (pad2 m) = !decide (pad2 m ∈ [c! "00", c! "10", c! "20"])) _ (by omega) h1
  | zero => decide
  | any => decide
  | tens1 => decide
  | tens2 => decide
  | tens3 => decide

theorem dayAlt_ci_false : ∀ w ∈ [c! "00", c! "10", c! "20"], (Rx.anch dayAlt.ci).matchString w = false := by decide

theorem unspec_text {x : XDate} (h : x.ok) (hn : x.neg = false) (hr : x.Readable) :
    L1.isUnspecifiedDigits x.text = !decide (x.dx ∈ [c! "00", c! "10", c! "20"]) := by
  have hpl : x.text.all plainC = true := by
    have := e_plain (e := ⟨x, .none, .none, .none⟩) ⟨h, rfl, rfl, rfl, by cases x.tail <;> simp⟩
    rwa [endpoint_plain] at this
  obtain ⟨y1, y2, m1, m2, d1, d2, hY, hM, hD, -, -⟩ := hr
  rw [Bool.eq_iff_iff, isUnspecifiedDigits_iff, Bool.not_eq_true', decide_eq_false_iff_not, xtext]
  rw [xtext] at hpl
  obtain ⟨neg, yy, tl⟩ := x
  obtain ⟨hl, hy, hx⟩ := h
  simp only at hn hl hy hx
  subst hn
  have h4 := xdigits_rep4 hl hy
  cases tl with
  | none =>
    exact ⟨fun _ => by simp [XDate.dx], fun _ => ⟨yy, [], rfl, lang_grp.2 h4, Or.inl rfl⟩⟩
  | month m =>
    have := monthX_of hM (by intro e; rw [show m = [] from e] at hx; exact absurd hx.1 (by decide))
    exact ⟨fun _ => by simp [XDate.dx], fun _ => ⟨yy, _, rfl, lang_grp.2 h4, Or.inr ⟨['-'], _, rfl, lang_lit.2 rfl, m, [], by simp, lang_grp.2 this, Or.inl rfl⟩⟩⟩
  | day m d =>
    have k1 := monthX_of hM (by intro e; rw [show m = [] from e] at hx; exact absurd hx.1 (by decide))
    have k2 : _ = !decide (d ∈ _) := dayAlt_of hD (by intro e; rw [show d = [] from e] at hx; exact absurd hx.2.2.1 (by decide))
    show _ ↔ ¬ (d ∈ _)
    constructor
    · intro hL hm
      obtain ⟨a, b, c, d', t, e, -, -, -, -, ht⟩ := lang_unspec ((lang_ci_noLower (by decide) _ hpl).2 hL)
      have e1 := List.append_inj (show yy ++ '-' :: (m ++ '-' :: d) = [a, b, c, d'] ++ t from e) hl
      rcases ht with rfl | ⟨w, rfl, mm, v, rfl, hl2, -, hv⟩
      · cases e1.2
      · have e2 := List.append_inj (List.cons.inj e1.2).2 (by rw [hl2]; exact hx.1)
        rcases hv with rfl | ⟨z, rfl, hz⟩
        · cases e2.2
        · have e3 := (List.cons.inj e2.2).2
          subst e3
          have := dayAlt_ci_false d hm
          rw [(matchString_anch _ (by decide) _).2 hz] at this
          cases this
    · intro hm
      have : (Rx.anch dayAlt).matchString d = true := by rw [show (Rx.anch dayAlt).matchString d = _ from k2]; simpa using hm
      rw [matchString_anch _ (by decide)] at this
      exact ⟨yy, _, rfl, lang_grp.2 h4, Or.inr ⟨['-'], _, rfl, lang_lit.2 rfl, m, _, rfl, lang_grp.2 k1, Or.inr ⟨['-'], _, rfl, lang_lit.2 rfl,
        lang_grp.2 this⟩⟩⟩

theorem unspecified_ok (hf : DayCount f) {x : XDate} (h : x.ok) (hn : x.neg = false) (hX : 'X' ∈ x.year ∨ 'X' ∈ x.mx) {S E : DateRange}
    (hs : SpanOf f x.text S E) :
    parseString x.text = .ok ⟨some S, some E, x.text, if x.dx ∈ [c! "00", c! "10", c! "20"] then 2 else 1,
        if x.dx ∈ [c! "00", c! "10", c! "20"] then c! "Unspecified Digit" else c! "Unspecified digit(s) from the right"⟩ := by
  have he : (⟨x, .none, .none, .none⟩ : Endpoint).shape := ⟨h, rfl, rfl, rfl, by cases x.tail <;> simp⟩
  have et : (⟨x, .none, .none, .none⟩ : Endpoint).text = x.text := endpoint_plain x
  have hR := span_readable hf he (et ▸ hs)
  have hm : 'X' ∈ x.text := by
    rw [xtext]
    rcases hX with h | h
    · exact List.mem_append_left _ (by unfold sgn; split; exact List.mem_cons_of_mem _ h; exact h)
    · apply List.mem_append_right
      unfold XDate.mx at h
      split at h
      · cases h
      · simp [h]
      · simp [h]
  have h1 : L1.isSeason x.text = false := by
    rw [Bool.eq_false_iff]
    intro hse
    obtain ⟨n, m, d, -, -, e⟩ := xseason h hm hse
    rw [e] at hX
    rcases hX with h | h
    · exact pad4_noX _ h
    · exact pad2_noX _ h
  have h2 : L0.isDate x.text = false := level0_date (not_level0_char hm (by decide))
  have h3 : L1.isQualifiedDate x.text = false := by
    rw [Bool.eq_false_iff]
    intro hq
    exact not_lang_of_char (by decide) hm (isQualifiedDate_iff.1 hq)
  have := single_parse hR hn (Or.inl (by simp [noLeft, Deco.isLeft])) (fun _ => ⟨rfl, rfl, rfl⟩) (by rw [et]; exact spanOf_ok hf hs)
    (by rw [et]; exact h2) (by rw [et]; exact Or.inl h1) (by rw [et]; exact h3)
  rw [et] at this
  rw [this, unspec_text h hn hR.2, not_group_char hm (by decide), not_individual_char hm (by decide)]
  by_cases hd : x.dx ∈ [c! "00", c! "10", c! "20"]
  · simp only [hd, decide_true, Bool.not_true, Bool.false_eq_true, if_false, if_true]; rfl
  · simp only [hd, decide_false, Bool.not_false, if_false, if_true]; rfl

/-! ### Dates in digits -/

def xtailText : XTail → Str
  | .none => []
  | .month m => '-' :: m
  | .day m d => '-' :: (m ++ '-' :: d)

theorem xuniq {x x' : XDate} (h : x.ok) (h' : x'.ok) (e : x.text = x'.text) : x = x' := by
  have et : ∀ z : XDate, z.text = sgn z.neg z.year ++ xtailText z.tail := fun z => by rw [xtext]; rfl
  rw [et, et] at e
  obtain ⟨neg, yy, tl⟩ := x
  obtain ⟨neg', yy', tl'⟩ := x'
  obtain ⟨hl, hy, hx⟩ := h
  obtain ⟨hl', hy', hx'⟩ := h'
  simp only at hl hy hx hl' hy' hx' e
  have hd : ∀ {w t u : Str}, w.length = 4 → (∀ c ∈ w, XDigit c) → w ++ t ≠ '-' :: u := by
    intro w t u hl hw e
    match w, hl with
    | a :: w, _ =>
      injection e with e _
      subst e
      exact absurd (xdigit_iff.1 (hw '-' (by simp))) (by decide)
  have hn : neg = neg' ∧ yy ++ xtailText tl = yy' ++ xtailText tl' := by
    cases neg <;> cases neg'
    · exact ⟨rfl, e⟩
    · exact absurd e (hd hl hy)
    · exact absurd e.symm (hd hl' hy')
    · exact ⟨rfl, (List.cons.inj e).2⟩
  clear e
  obtain ⟨rfl, e0⟩ := hn
  obtain ⟨rfl, e⟩ := List.append_inj e0 (by rw [hl, hl'])
  cases tl with
  | none =>
    cases tl' with
    | none => rfl
    | month m => cases e
    | day m d => cases e
  | month m =>
    cases tl' with
    | none => cases e
    | month m' => rw [(List.cons.inj e).2]
    | day m' d' =>
      have := congrArg List.length e
      simp [xtailText, hx.1, hx'.1] at this
  | day m d =>
    cases tl' with
    | none => cases e
    | month m' =>
      have := congrArg List.length e
      simp [xtailText, hx.1, hx'.1] at this
    | day m' d' =>
      obtain ⟨rfl, e2⟩ := List.append_inj (List.cons.inj e).2 (by rw [hx.1, hx'.1])
      rw [(List.cons.inj e2).2]

/-- A date in digits that can be read exists, unless the day is "00". -/
theorem read_digits {x : XDate} (h : x.ok) (hX : 'X' ∉ x.text) (h0 : x.dx ≠ c! "00") (hr : x.Readable) : ∃ z : Date0, z.ok ∧ x = (dateE z).date := by
  obtain ⟨y1, y2, m1, m2, d1, d2, hY, hM, hD, V1, V2⟩ := hr
  rw [xtext] at hX
  obtain ⟨neg, yy, tl⟩ := x
  obtain ⟨hl, hy, hx⟩ := h
  simp only at hl hy hx hX hY hM hD
  have hXy : 'X' ∉ yy := fun hm => hX (List.mem_append_left _ (by unfold sgn; split; exact List.mem_cons_of_mem _ hm; exact hm))
  cases hY with
  | unspecified a ha hb hc => exact absurd (by simp) hXy
  | digits _ n hn =>
    cases tl with
    | none => exact ⟨⟨neg, n, .none⟩, ⟨hn, trivial⟩, rfl⟩
    | month m =>
      have hXm : 'X' ∉ m := fun hm => hX (List.mem_append_right _ (List.mem_cons_of_mem _ hm))
      have hM : MonthReads m m1 m2 := hM
      cases hM with
      | absent => exact absurd hx.1 (by decide)
      | digits k k1 k2 => exact ⟨⟨neg, n, .month m1⟩, ⟨hn, k1, k2⟩, rfl⟩
      | any => exact absurd (by decide) hXm
      | zero => exact absurd (by decide) hXm
      | one => exact absurd (by decide) hXm
    | day m d =>
      have hXm : 'X' ∉ m := fun hm => hX (List.mem_append_right _ (List.mem_cons_of_mem _ (List.mem_append_left _ hm)))
      have hXd : 'X' ∉ d := fun hm => hX (List.mem_append_right _ (List.mem_cons_of_mem _ (List.mem_append_right _ (List.mem_cons_of_mem _ hm))))
      have hM : MonthReads m m1 m2 := hM
      have hD : DayReads _ _ d d1 d2 := hD
      have h0 : d ≠ c! "00" := h0
      cases hM with
      | absent => exact absurd hx.1 (by decide)
      | any => exact absurd (by decide) hXm
      | zero => exact absurd (by decide) hXm
      | one => exact absurd (by decide) hXm
      | digits k k1 k2 =>
        cases hD with
        | absent => exact absurd hx.2.2.1 (by decide)
        | digits j j1 j2 => exact ⟨⟨neg, n, .day m1 d1⟩, ⟨hn, V1⟩, rfl⟩
        | zero => exact absurd rfl h0
        | any => exact absurd (by decide) hXd
        | tens1 => exact absurd (by decide) hXd
        | tens2 => exact absurd (by decide) hXd
        | tens3 => exact absurd (by decide) hXd

theorem no_deco {e : Endpoint} (h : e.shape) (hq : ∀ q ∈ (c! "?~%"), q ∉ e.text) : e.qy = .none ∧ e.qm = .none ∧ e.qd = .none := by
  obtain ⟨⟨neg, yy, tl⟩, qy, qm, qd⟩ := e
  obtain ⟨hx, o1, o2, o3, ht⟩ := h
  simp only at hx o1 o2 o3 ht
  refine ⟨deco_plain o1 (w := if neg then '-' :: yy else yy) (fun c hc hm => hq c hc (List.mem_append_left _ hm)), ?_, ?_⟩
  · cases tl with
    | none => exact ht.1
    | month m => exact deco_plain o2 (w := m) (fun c hc hm => hq c hc (List.mem_append_right _ (List.mem_cons_of_mem _ hm)))
    | day m d => exact deco_plain o2 (w := m) (fun c hc hm => hq c hc (List.mem_append_right _ (List.mem_cons_of_mem _ (List.mem_append_left _ hm))))
  · cases tl with
    | none => exact ht.2
    | month m => exact ht
    | day m d => exact deco_plain o3 (w := d) (fun c hc hm => hq c hc (List.mem_append_right _ (List.mem_cons_of_mem _ (List.mem_append_right _ (List.mem_cons_of_mem _ hm)))))

theorem plain_none {e : Endpoint} (h : e.shape) (hp : ∀ c ∈ c! "X?~%", c ∉ e.text) : e = ⟨e.date, .none, .none, .none⟩ ∧ e.text = e.date.text := by
  obtain ⟨x, qy, qm, qd⟩ := e
  obtain ⟨h1, h2, h3⟩ := no_deco h (fun q hq => hp q (List.mem_cons_of_mem _ hq))
  simp only at h1 h2 h3
  subst h1 h2 h3
  exact ⟨rfl, endpoint_plain x⟩

theorem plain_date {e : Endpoint} (h : e.Readable) (hp : e.plain) : ∃ z : Date0, z.ok ∧ e.text = z.text := by
  obtain ⟨h1, h2⟩ := plain_none h.1 hp.1
  obtain ⟨z, hz, ez⟩ := read_digits h.1.1 (by rw [← h2]; exact hp.1 'X' (by decide)) hp.2 h.2
  exact ⟨z, hz, by rw [h1, ez, ← dateE_text]; rfl⟩

theorem plain_of_date {e : Endpoint} (h : e.shape) {z : Date0} (hz : Date0.shapeOk z) (ez : e.text = z.text) : e.plain := by
  have hq : ∀ c ∈ c! "X?~%", c ∉ e.text := by
    intro c hc
    rw [ez]
    have : c = 'X' ∨ c = '?' ∨ c = '~' ∨ c = '%' := by simpa using hc
    rcases this with rfl | rfl | rfl | rfl <;> exact date0_not_mem z (by decide) (by decide)
  refine ⟨hq, ?_⟩
  obtain ⟨h1, h2⟩ := plain_none h hq
  have e2 : e.date.text = (dateE z).date.text := by
    rw [← h2, ez, ← dateE_text]
    exact (endpoint_plain (dateE z).date)
  rw [xuniq h.1 (dateE_ok z).1.1 e2]
  obtain ⟨neg, n, t⟩ := z
  cases t with
  | none => intro h; cases h
  | month m => intro h; cases h
  | day m d =>
    intro hd
    obtain ⟨-, -, h1, h2⟩ := hz
    have := pad2_inj (a := d) (b := 0) (by omega) (by omega) hd
    omega

/-! ### Two sides -/

theorem two_ok (hf : DayCount f) {t u : Str} (ht : Bare t) (hu : Bare u) {R S : DateRange} (hR : RangeOf f t R) (hS : RangeOf f u S) :
    dateSpanFromEDTF (t ++ '/' :: u) = .ok ⟨some R, some S⟩ := by
  obtain ⟨s, e, h1, rfl, h2, h3⟩ := rangeOf_ok hf hR
  obtain ⟨s', e', h1', rfl, h2', h3'⟩ := rangeOf_ok hf hS
  rw [dateSpanFromEDTF_slash ht.1 hu.1, h1, h1']
  subst h2 h3'
  rfl

theorem e_bare {e : Endpoint} (h : e.shape) : Bare e.text :=
  ⟨e_not_mem h (by decide) (by decide) (by decide), e_not_mem h (by decide) (by decide) (by decide)⟩

theorem interval_ok (hf : DayCount f) {a b : Endpoint} (ha : a.shape) (hb : b.shape) (ra : noRight a.qy a.qm a.qd) (rb : noRight b.qy b.qm b.qd)
    {R S : DateRange} (hR : RangeOf f a.text R) (hS : RangeOf f b.text S) :
    parseString (a.text ++ '/' :: b.text) = .ok ⟨some R, some S, a.text ++ '/' :: b.text, if a.plain ∧ b.plain then 0 else 2,
      if a.plain ∧ b.plain then c! "Time Interval" else c! "Interval"⟩ := by
  have ba := e_bare ha
  have bb := e_bare hb
  have hk := two_ok hf ba bb hR hS
  rw [ivparse ⟨ha, ra⟩ ⟨hb, rb⟩, hk]
  have hrd := (iv_readable ⟨ha, ra⟩ ⟨hb, rb⟩).1 ⟨_, by rw [ivparse ⟨ha, ra⟩ ⟨hb, rb⟩, hk]; rfl⟩
  have hl : L0.isLevel0 (a.text ++ '/' :: b.text) = decide (a.plain ∧ b.plain) := by
    have hm : '/' ∈ a.text ++ '/' :: b.text := by simp
    rw [isLevel0_iff, isDate_false_of_slash hm, isDateAndTime_false_of_slash hm, Bool.eq_iff_iff]
    simp only [Bool.false_or, decide_eq_true_eq]
    rw [isTimeInterval_iff]
    constructor
    · rintro ⟨x, y, hx, hy, e⟩
      obtain ⟨e1, e2⟩ := slash_split ba.1 (date0_slash x) e
      exact ⟨plain_of_date ha hx.2 e1, plain_of_date hb hy.2 e2⟩
    · rintro ⟨pa, pb⟩
      obtain ⟨x, hx, ex⟩ := plain_date hrd.1 pa
      obtain ⟨y, hy, ey⟩ := plain_date hrd.2 pb
      exact ⟨x, y, ⟨hx.1, Date0.ok_shape hx⟩, ⟨hy.1, Date0.ok_shape hy⟩, by rw [ex, ey]⟩
  rw [hl]
  by_cases hp : a.plain ∧ b.plain <;> simp only [hp, decide_true, decide_false] <;> rfl

/-! ### Sets -/

theorem collect_exact (s : Str) (cs : List Chunk) (hc : ∀ c ∈ cs, c.ok) (acc : L2.SetMembers) :
    L2.collectMembers s (cs.map Chunk.text) acc = .ok ⟨acc.possible ++ cs.flatMap Chunk.members,
      acc.start_open || cs.any Chunk.opensStart, acc.end_open || cs.any Chunk.opensEnd⟩ := by
  induction cs generalizing acc with
  | nil => simp [L2.collectMembers]
  | cons c cs ih =>
    have hd : ∀ r : List Date0, '.' ∉ runText r := fun r => runText_not_mem r (by decide) (by decide)
    have hk := hc c (by simp)
    have ih' := fun acc => ih (fun c h => hc c (List.mem_cons_of_mem _ h)) acc
    rw [List.map_cons]
    unfold L2.collectMembers
    cases c with
    | run r =>
      rw [show (Chunk.run r).text = runText r from rfl, splitDots_none (hd r)]
      simp only
      rw [ih']
      simp [Chunk.members, Chunk.opensStart, Chunk.opensEnd]
    | pair a b =>
      rw [show (Chunk.pair a b).text = runText a ++ '.' :: '.' :: runText b from rfl, splitDots_append (hd a), splitDots_none (hd b)]
      simp only
      rw [if_pos ⟨runText_ne_nil hk.1, runText_ne_nil hk.2⟩, ih']
      simp [Chunk.members, Chunk.opensStart, Chunk.opensEnd]
    | upTo r =>
      rw [show (Chunk.upTo r).text = [] ++ '.' :: '.' :: runText r from rfl, splitDots_append (by simp), splitDots_none (hd r)]
      simp only
      rw [if_neg (by simp), if_pos trivial, ih']
      simp [Chunk.members, Chunk.opensStart, Chunk.opensEnd]
    | onFrom r =>
      rw [show (Chunk.onFrom r).text = runText r ++ '.' :: '.' :: [] from rfl, splitDots_append (hd r), splitDots_none (u := []) (by simp)]
      simp only
      rw [if_neg (by simp), if_neg (runText_ne_nil hk), ih']
      simp [Chunk.members, Chunk.opensStart, Chunk.opensEnd]
    | blank =>
      rw [show Chunk.blank.text = [] from rfl, splitDots_none (u := []) (by simp)]
      simp only
      rw [ih']
      simp [Chunk.members, Chunk.opensStart, Chunk.opensEnd]
    | dots =>
      rw [show Chunk.dots.text = [] ++ '.' :: '.' :: [] from rfl, splitDots_append (by simp), splitDots_none (u := []) (by simp)]
      simp only
      rw [if_neg (by simp), if_pos trivial, ih']
      simp [Chunk.members, Chunk.opensStart, Chunk.opensEnd]

theorem extremes_sorted {l : List Str} {a b : Str} (h : Extremes l a b) : (sortStrings l).headD [] = a ∧ (sortStrings l).getLastD [] = b := by
  obtain ⟨ha, hb, hle⟩ := h
  have hl : sortStrings l ≠ [] := by
    intro h0
    have := mem_sortStrings.2 ha
    rw [h0] at this
    cases this
  obtain ⟨a1, a2⟩ := sorted_head (sorted_sortStrings l) hl
  obtain ⟨b1, b2⟩ := sorted_last (sorted_sortStrings l) hl
  exact ⟨(strLe_antisymm (textLe_iff.1 (hle _ (mem_sortStrings.1 a1)).1) (a2 a (mem_sortStrings.2 ha))).symm,
    (strLe_antisymm (b2 b (mem_sortStrings.2 hb)) (textLe_iff.1 (hle _ (mem_sortStrings.1 b1)).2)).symm⟩

/-- The texts that a range can come from. -/
theorem range_form {t : Str} {R : DateRange} (h : RangeOf f t R) : Bare t ∧ ∃ a b, R = ⟨t, some a, some b⟩ := by
  cases h with
  | absent => exact ⟨⟨by simp, by simp⟩, _, _, rfl⟩
  | date e h => exact ⟨e_bare h, _, _, rfl⟩

theorem two_left (hf : DayCount f) {t : Str} {R : DateRange} (hR : RangeOf f t R) :
    dateSpanFromEDTF (c! ".." ++ '/' :: t) = .ok ⟨some (openRange (c! "..")), some R⟩ := by
  have hb := (range_form hR).1
  obtain ⟨s, e, h1, rfl, h2, h3⟩ := rangeOf_ok hf hR
  rw [dateSpanFromEDTF_slash (by decide) hb.1, h1]
  subst h3
  rfl

theorem two_right (hf : DayCount f) {t : Str} {R : DateRange} (hR : RangeOf f t R) :
    dateSpanFromEDTF (t ++ '/' :: c! "..") = .ok ⟨some R, some (openRange (c! ".."))⟩ := by
  have hb := (range_form hR).1
  obtain ⟨s, e, h1, rfl, h2, h3⟩ := rangeOf_ok hf hR
  rw [dateSpanFromEDTF_slash hb.1 (by decide), h1]
  subst h2
  rfl

theorem setSpan_spec (hf : DayCount f) {l : List Str} {so eo : Bool} {p : Prec} {S E : DateRange} (h : SetSpan f p l so eo S E) :
    L2.setSpan (sortStrings l) so eo p = .ok ⟨some S, some E⟩ := by
  have two : ∀ {a b : Str} {R S : DateRange}, RangeOf f a R → RangeOf f b S →
      dateSpanFromEDTF (a ++ c! "/" ++ b) = .ok ⟨some R, some S⟩ := by
    intro a b R S hR hS
    rw [show a ++ c! "/" ++ b = a ++ '/' :: b by simp]
    exact two_ok hf (range_form hR).1 (range_form hS).1 hR hS
  unfold L2.setSpan L2.setString
  cases h with
  | one t h S E hs =>
    obtain ⟨h1, h2⟩ := extremes_sorted h
    simp only [h1, h2, ne_eq, not_true_eq_false, Bool.or_self, Bool.false_and, Bool.false_eq_true, if_false, L2.openPostFactoIf, L2.setInclusivityIf, Bool.not_false, if_true]
    have hn : '/' ∉ t := by cases hs with | date e he => exact (e_bare he).1
    rw [dateSpanFromEDTF_noSlash hn, spanOf_ok hf hs]
    cases hs
    rfl
  | closed a b h hab R S hR hS =>
    obtain ⟨h1, h2⟩ := extremes_sorted h
    simp only [h1, h2, ne_eq, hab, not_false_eq_true, Bool.or_self, Bool.false_and, Bool.false_eq_true, if_false, L2.openPostFactoIf, L2.setInclusivityIf, Bool.not_false, if_true]
    rw [two hR hS]
    obtain ⟨-, _, _, rfl⟩ := range_form hR
    obtain ⟨-, _, _, rfl⟩ := range_form hS
    rfl
  | upTo1 t h R hR =>
    subst h
    show (dateSpanFromEDTF (c! ".." ++ '/' :: t) >>= _) = _
    rw [two_left hf hR]
    obtain ⟨-, _, _, rfl⟩ := range_form hR
    rfl
  | onFrom1 t h R hR =>
    subst h
    show (dateSpanFromEDTF (t ++ '/' :: c! "..") >>= _) = _
    rw [two_right hf hR]
    obtain ⟨-, _, _, rfl⟩ := range_form hR
    rfl
  | upTo a b h h2 R S hR hS =>
    have hl : decide ((sortStrings l).length > 1) = true := by rw [length_sortStrings]; simp; omega
    obtain ⟨h1, h2⟩ := extremes_sorted h
    simp only [h1, h2, hl, Bool.true_or, Bool.and_self, if_true]
    rw [two hR hS]
    obtain ⟨-, _, _, rfl⟩ := range_form hR
    obtain ⟨-, _, _, rfl⟩ := range_form hS
    rfl
  | onFrom a b h h2 R S hR hS =>
    have hl : decide ((sortStrings l).length > 1) = true := by rw [length_sortStrings]; simp; omega
    obtain ⟨h1, h2⟩ := extremes_sorted h
    simp only [h1, h2, hl, Bool.or_true, Bool.and_self, if_true]
    rw [two hR hS]
    obtain ⟨-, _, _, rfl⟩ := range_form hR
    obtain ⟨-, _, _, rfl⟩ := range_form hS
    rfl
  | both a b h h2 R S hR hS =>
    have hl : decide ((sortStrings l).length > 1) = true := by rw [length_sortStrings]; simp; omega
    obtain ⟨h1, h2⟩ := extremes_sorted h
    simp only [h1, h2, hl, Bool.or_true, Bool.and_self, if_true]
    rw [two hR hS]
    obtain ⟨-, _, _, rfl⟩ := range_form hR
    obtain ⟨-, _, _, rfl⟩ := range_form hS
    rfl

theorem set_exact (hf : DayCount f) {o c : Char} (hb : Brackets o c) {cs : List Chunk} (hc : ChunksOk cs) {S E : DateRange}
    (hm : SetSpan f (setFlag o) (cs.flatMap Chunk.members) (cs.any Chunk.opensStart) (cs.any Chunk.opensEnd) S E) :
    parseString (o :: (commaJoin (cs.map Chunk.text) ++ [c])) =
      .ok ⟨some S, some E, o :: (commaJoin (cs.map Chunk.text) ++ [c]), 2, c! "Set representation"⟩ := by
  have hl : Lang (Rx.setRepresentations 1) (o :: (commaJoin (cs.map Chunk.text) ++ [c])) := by
    refine ⟨[o], _, rfl, ?_, _, [c], rfl, lang_chunks hc, ⟨c, rfl, ?_⟩⟩
    · rcases hb.1 with rfl | rfl
      · exact .inl (lang_lit.2 rfl)
      · exact .inr (lang_lit.2 rfl)
    · rcases hb.2 with rfl | rfl <;> decide
  have hset := isSet_iff.2 hl
  have ho : o ∈ o :: (commaJoin (cs.map Chunk.text) ++ [c]) := by simp
  have hsome : (Rx.SetRepresentations.submatch (o :: (commaJoin (cs.map Chunk.text) ++ [c]))).isSome = true := by
    rw [isSome_submatch]; exact hset
  obtain ⟨m, hm'⟩ := Option.isSome_iff_exists.1 hsome
  have key : L2.parseSetRepresentations (o :: (commaJoin (cs.map Chunk.text) ++ [c])) =
      .ok ⟨some S, some E, o :: (commaJoin (cs.map Chunk.text) ++ [c]), 2, c! "Set representation"⟩ := by
    obtain ⟨b, b', hb1, -, g1, g2, -⟩ := set_caps hm'
    injection g2 with g2 g3
    have em : m 2 = commaJoin (cs.map Chunk.text) := ((List.append_inj' g3 rfl).1).symm
    unfold L2.parseSetRepresentations
    rw [hm']
    simp only
    have hk : ∀ s, L2.setKind s (m 1) = .ok (setFlag o) := by
      intro s
      rw [g1, ← g2]
      rcases hb.1 with rfl | rfl <;> rfl
    rw [hk, Res.ok_bind, em, splitChar_commaJoin, collect_exact _ _ hc.1, Res.ok_bind]
    · simp only [List.nil_append, Bool.false_or]
      rw [if_neg (by
        obtain ⟨t, ht, -⟩ := chunks_ne_nil hc
        rw [length_sortStrings]
        intro h
        rw [List.length_eq_zero_iff.1 h] at ht
        cases ht), setSpan_spec hf hm]
      rfl
    · obtain ⟨-, ⟨c, hc, -⟩, -⟩ := hc
      intro h
      rw [List.map_eq_nil_iff] at h
      rw [h] at hc
      cases hc
    · intro x hx
      obtain ⟨p, -, rfl⟩ := List.mem_map.1 hx
      exact chunk_comma p
  generalize o :: (commaJoin (cs.map Chunk.text) ++ [c]) = s at *
  have nc : ∀ r : Re, r.mayHave '[' = false → r.mayHave '{' = false → ¬ Lang r s := by
    intro r h1 h2
    rcases hb.1 with rfl | rfl
    · exact not_lang_of_char h1 ho
    · exact not_lang_of_char h2 ho
  have l0 : L0.isLevel0 s = false := by
    rcases hb.1 with rfl | rfl
    · exact not_level0_char ho (by decide)
    · exact not_level0_char ho (by decide)
  have l1 : L1.isLevel1 s = false := by
    rcases hb.1 with rfl | rfl
    · exact not_level1_char ho (by decide)
    · exact not_level1_char ho (by decide)
  have e1 : L2.isExponentialYear s = false := by
    rw [← Bool.not_eq_true, isExponential_iff]; exact nc _ (by decide) (by decide)
  have e2 : L2.isSignificantDigits s = false := by
    rw [← Bool.not_eq_true, isSig_iff]; exact nc _ (by decide) (by decide)
  have e3 : L2.isSubYearGrouping s = false := by
    rw [← Bool.not_eq_true, isSubYear_iff]; exact nc _ (by decide) (by decide)
  rw [parse_level2 l0 l1 (isLevel2_of (.inr (.inr (.inr (.inl hset)))))]
  unfold L2.parseString
  rw [e1, e2, e3, hset]
  simp only [Bool.false_eq_true, if_false, if_true]
  exact key

end EDTF
