/-
The accepted language: single dates with qualifiers and unspecified digits,
Level 2 intervals and sub-year groupings.
-/
import Verif.LemmasAcc1
namespace EDTF
open Spec

/-! ### A year and a month that can be read -/

theorem span_month {neg : Bool} {n m : Nat} (hm : m < 100) {rest : Str} {sp : DateSpan}
    (h : dateSpanFromYMD (yearStr neg n ++ '-' :: (pad2 m ++ rest)) = .ok sp) : 1 ≤ m ∧ m ≤ 12 := by
  obtain ⟨F, y1, y2, m1, m2, d1, d2, py, hF, hE, hY, hM, -⟩ := dateSpan_inv h
  have e0 := hE
  rw [F.text_eq] at e0
  obtain ⟨-, e2⟩ := split_year (a := ⟨yearStr neg n, .none⟩) ⟨rfl, lang_yearStr neg n⟩ (YMDForm.yc_ok hF) (Or.inr ⟨_, rfl⟩) F.tail_dash e0
  have key : ∀ {b : Comp} {t : Str}, b.okFor Rx.monthX → pad2 m ++ rest = b.text ++ t → b.x = pad2 m := by
    intro b t hb e
    obtain ⟨x, q⟩ := b
    obtain ⟨hq, hx⟩ := hb
    obtain ⟨k1, k2, rfl, -, -⟩ := lang_monthX_DX hx
    cases q with
    | none => exact (List.append_inj e (by rw [pad2_length]; rfl)).1.symm
    | left q =>
      exfalso
      have := pad2_all m
      injection e with e _
      simp only [pad2, List.all_cons, Bool.and_eq_true] at this
      rw [e] at this
      have h1 := this.1
      simp only [Deco.ok, Bool.or_eq_true, beq_iff_eq] at hq
      rcases hq with (rfl | rfl) | rfl <;> exact absurd h1 (by decide)
    | right q =>
      have e' : pad2 m ++ rest = [k1, k2] ++ (q :: t) := by rw [e]; simp [Comp.text, Deco.text]
      exact (List.append_inj e' (by rw [pad2_length]; rfl)).1.symm
  have hx : F.mx = pad2 m := by
    cases F with
    | y a => cases e2
    | ym a b =>
      injection e2 with _ e2
      exact key hF.2 (t := []) (by rw [e2]; simp)
    | ymd a b c =>
      injection e2 with _ e2
      exact key hF.2.1 e2
  rw [hx] at hM
  obtain ⟨a, b, -⟩ := monthSpan_pad2 hm hM
  exact ⟨a, b⟩

/-! ### Endpoints and dates -/

/-- A date with qualifiers, as an endpoint. -/
def qE (x : Date0) (qy qm qd : Deco) : Endpoint := ⟨(dateE x).date, qy, qm, qd⟩

theorem qE_text (x : Date0) (qy qm qd : Deco) : (qE x qy qm qd).text = x.qtext qy qm qd := by
  obtain ⟨neg, n, t⟩ := x
  cases neg <;> cases t <;> simp [qE, dateE, Endpoint.text, qtext_eq, Date0.qtail, yearStr, sgn]

theorem qE_shape {x : Date0} {qy qm qd : Deco} (hq : Date0.qOk x qy qm qd) : (qE x qy qm qd).shape := by
  obtain ⟨o1, o2, o3, ht⟩ := hq
  refine ⟨(dateE_ok x).1.1, o1, o2, o3, ?_⟩
  obtain ⟨neg, n, t⟩ := x
  cases t <;> exact ht

theorem acc_wide {x : Date0} (hw : Date0.wide x) {qy qm qd : Deco} (hq : Date0.qOk x qy qm qd) (hl : noLeft qy qm qd ∨ noRight qy qm qd)
    {sp : DateSpan} (h : dateSpanFromYMD (x.qtext qy qm qd) = .ok sp) : Accepted (x.qtext qy qm qd) := by
  rw [← qE_text] at h ⊢
  refine .single _ ⟨qE_shape hq, (readable_iff (qE_shape hq)).1 ⟨sp, h⟩⟩ hw.1 hl (fun hX => ?_)
  rw [qE_text] at hX
  exact absurd hX (qtext_not_mem hw.1 hq (by decide) (by decide) (by decide))

/-! ### Single dates that parse are in the language -/

theorem acc_group {s : Str} (h : L2.isGroupQualification s = true) {r : EDTFDate} (hp : L2.parseGroupQualification s = .ok r) : Accepted s := by
  obtain ⟨x, qy, qm, qd, hw, hq, hl, rfl⟩ := lang_group.1 (isGroup_iff.1 h)
  unfold L2.parseGroupQualification at hp
  rw [show Rx.GroupQualification.matchString _ = true from h, if_neg (by simp)] at hp
  obtain ⟨sp, hsp, -⟩ := Res.bind_eq_ok.1 hp
  rw [dateSpanFromEDTF_noSlash (qtext_not_mem hw.1 hq (by decide) (by decide) (by decide))] at hsp
  exact acc_wide hw hq (Or.inl hl) hsp

theorem acc_individual {s : Str} (h : L2.isIndividualQualification s = true) {r : EDTFDate} (hp : L2.parseIndividualQualification s = .ok r) : Accepted s := by
  obtain ⟨x, qy, qm, qd, hw, hq, hl, rfl⟩ := lang_individual.1 (isIndividual_iff.1 h)
  unfold L2.parseIndividualQualification at hp
  rw [show Rx.IndividualQualification.matchString _ = true from h, if_neg (by simp)] at hp
  obtain ⟨sp, hsp, -⟩ := Res.bind_eq_ok.1 hp
  rw [dateSpanFromEDTF_noSlash (qtext_not_mem hw.1 hq (by decide) (by decide) (by decide))] at hsp
  exact acc_wide hw hq (Or.inr hl) hsp

theorem acc_unspecifiedDigit {s : Str} (h : L2.isUnspecifiedDigit s = true) {r : EDTFDate} (hp : L2.parseUnspecifiedDigit s = .ok r) : Accepted s := by
  have hl := isUnspecifiedDigit_iff.1 h
  have nm : ∀ {c : Char}, (Rx.unspecifiedDigit 1).mayHave c = false → c ∉ s := by
    intro c hc hm
    rw [lang_mayHave _ _ hl c hm] at hc
    cases hc
  unfold L2.parseUnspecifiedDigit at hp
  rw [show Rx.UnspecifiedDigit.matchString _ = true from h, if_neg (by simp)] at hp
  obtain ⟨sp, hsp, -⟩ := Res.bind_eq_ok.1 hp
  rw [dateSpanFromEDTF_noSlash (nm (by decide))] at hsp
  refine single_of_reads (reads_iff.1 ⟨sp, hsp⟩) (fun q hq => ?_) (fun t e => ?_)
  · have tb : ∀ q ∈ (c! "?~%"), (Rx.unspecifiedDigit 1).mayHave q = false := by decide
    exact nm (tb q hq)
  · obtain ⟨u, v, rfl, hu, -⟩ := lang_cat.1 hl
    obtain ⟨a, b, c, d, rfl, ha, -⟩ := (lang_rep4 (fun w => lang_digX (w := w))).1 (lang_grp.1 hu)
    injection e with e _
    subst e
    exact absurd ha (by decide)

theorem acc_interval2 {s : Str} (h : L2.isInterval s = true) {r : EDTFDate} (hp : parseString s = .ok r) : Accepted s := by
  obtain ⟨u, v, rfl, hu, hv⟩ := lang_cat.1 (isInterval_iff.1 h)
  obtain ⟨c, w, rfl, hc, hw⟩ := lang_cat.1 hv
  rw [lang_lit] at hc
  subst hc
  obtain ⟨a, ha, rfl⟩ := elang_inv hu
  obtain ⟨b, hb, rfl⟩ := elang_inv hw
  exact acc_interval ha hb rfl hp

theorem lang_subYear {s : Str} : Lang (Rx.subYearGrouping 1) s ↔
    ∃ n m, n < 10000 ∧ ((10 ≤ m ∧ m ≤ 12) ∨ (21 ≤ m ∧ m ≤ 41)) ∧ s = pad4 n ++ '-' :: pad2 m := by
  constructor
  · intro h
    obtain ⟨u, v, rfl, hu, hv⟩ := lang_cat.1 h
    obtain ⟨c, w, rfl, hc, hw⟩ := lang_cat.1 hv
    rw [lang_lit] at hc
    subst hc
    obtain ⟨n, hn, rfl⟩ := lang_digits4.1 (lang_grp.1 hu)
    obtain ⟨m, -, hm, rfl⟩ := lang_groupCode.1 (lang_grp.1 hw)
    exact ⟨n, m, hn, hm, rfl⟩
  · rintro ⟨n, m, hn, hm, rfl⟩
    exact ⟨_, _, rfl, lang_digits4.2 ⟨n, hn, rfl⟩, ['-'], _, rfl, lang_lit.2 rfl, lang_groupCode.2 ⟨m, by omega, hm, rfl⟩⟩

theorem season_level1 (neg : Bool) {n m : Nat} (hn : n < 10000) (h1 : 21 ≤ m) (h2 : m ≤ 24) : L1.isLevel1 (yearStr neg n ++ '-' :: pad2 m) = true := by
  rw [isLevel1_iff]
  exact Or.inr (Or.inl ⟨_, _, rfl, lang_year4'.2 ⟨neg, n, hn, rfl⟩, ['-'], _, rfl, lang_lit.2 rfl, lang_seasonCode.2 ⟨m, by omega, Or.inr ⟨h1, h2⟩, rfl⟩⟩)

theorem acc_subYear {s : Str} (h0 : L0.isLevel0 s = false) (h1 : L1.isLevel1 s = false) (h : L2.isSubYearGrouping s = true) {r : EDTFDate}
    (hp : parseString s = .ok r) : Accepted s := by
  obtain ⟨n, m, hn, hm, rfl⟩ := lang_subYear.1 (isSubYear_iff.1 h)
  rcases hm with ⟨m1, m2⟩ | ⟨m1, m2⟩
  · have := month_level0 false hn (show 1 ≤ m by omega) m2
    rw [show pad4 n ++ '-' :: pad2 m = yearStr false n ++ '-' :: pad2 m from rfl, this] at h0
    cases h0
  · by_cases hm : m ≤ 24
    · have := season_level1 false hn m1 hm
      rw [show pad4 n ++ '-' :: pad2 m = yearStr false n ++ '-' :: pad2 m from rfl, this] at h1
      cases h1
    · obtain ⟨g, rfl⟩ := grouping_all (show 25 ≤ m by omega) m2
      refine .grouping n hn g (fun hx => ?_)
      apply Classical.byContradiction
      intro hc
      obtain ⟨e, he, -⟩ := C19_crossing_partial hn g hx (by omega)
      rw [he] at hp
      cases hp

/-! ### Single dates of the language parse -/

theorem mem_deco {q : Deco} {w : Str} {c : Char} (h : c ∈ w) : c ∈ q.text w := by
  cases q <;> simp [Deco.text, h]

theorem digits_of {w : Str} (h : ∀ c ∈ w, XDigit c) (hX : 'X' ∉ w) : w.all isDig = true := by
  rw [List.all_eq_true]
  intro c hc
  rcases h c hc with rfl | ⟨k, hk, rfl⟩
  · exact absurd hc hX
  · exact (isDig_iff _).2 ⟨k, hk, rfl⟩

theorem e_date0 {e : Endpoint} (h : e.shape) (hn : e.date.neg = false) (hX : 'X' ∉ e.text) :
    ∃ x : Date0, Date0.wide x ∧ Date0.qOk x e.qy e.qm e.qd ∧ e.text = x.qtext e.qy e.qm e.qd ∧
      e.date.tail = (match x.tail with | .none => .none | .month m => .month (pad2 m) | .day m d => .day (pad2 m) (pad2 d)) := by
  obtain ⟨⟨neg, yy, tl⟩, qy, qm, qd⟩ := e
  obtain ⟨⟨hl, hy, hx⟩, o1, o2, o3, ht⟩ := h
  simp only at hn hl hy hx o1 o2 o3 ht
  subst hn
  obtain ⟨n, hn, rfl⟩ := four_digits' (digits_of hy (fun hm => hX (List.mem_append_left _ (mem_deco hm)))) hl
  cases tl with
  | none => exact ⟨⟨false, n, .none⟩, ⟨rfl, hn, trivial⟩, ⟨o1, o2, o3, ht⟩, by simp [Endpoint.text, qtext_eq, Date0.qtail, yearStr, sgn], rfl⟩
  | month m =>
    obtain ⟨k, hk, rfl⟩ := two_digits' (digits_of hx.2 (fun hm => hX (List.mem_append_right _ (List.mem_cons_of_mem _ (mem_deco hm))))) hx.1
    exact ⟨⟨false, n, .month k⟩, ⟨rfl, hn, hk⟩, ⟨o1, o2, o3, ht⟩, by simp [Endpoint.text, qtext_eq, Date0.qtail, yearStr, sgn], rfl⟩
  | day m d =>
    obtain ⟨l1, x1, l2, x2⟩ := hx
    obtain ⟨k, hk, rfl⟩ := two_digits' (digits_of x1 (fun hm => hX (List.mem_append_right _ (List.mem_cons_of_mem _ (List.mem_append_left _ (mem_deco hm)))))) l1
    obtain ⟨j, hj, rfl⟩ := two_digits' (digits_of x2 (fun hm => hX (List.mem_append_right _ (List.mem_cons_of_mem _ (List.mem_append_right _ (List.mem_cons_of_mem _ (mem_deco hm))))))) l2
    exact ⟨⟨false, n, .day k j⟩, ⟨rfl, hn, hk, hj⟩, ⟨o1, o2, o3, ht⟩, by simp [Endpoint.text, qtext_eq, Date0.qtail, yearStr, sgn], rfl⟩

theorem xdigits_rep4 {w : Str} (hl : w.length = 4) (h : ∀ c ∈ w, XDigit c) : Lang (Re.rep Rx.digX 4) w := by
  match w, hl with
  | [a, b, c, d], _ =>
    exact (lang_rep4 (fun w => lang_digX (w := w))).2 ⟨a, b, c, d, rfl, xdigit_iff.1 (h a (by simp)), xdigit_iff.1 (h b (by simp)),
      xdigit_iff.1 (h c (by simp)), xdigit_iff.1 (h d (by simp))⟩

theorem xdigits_rep2 {w : Str} (hl : w.length = 2) (h : ∀ c ∈ w, XDigit c) : Lang (Re.rep Rx.digX 2) w := by
  match w, hl with
  | [a, b], _ =>
    exact (lang_rep2 (fun w => lang_digX (w := w))).2 ⟨a, b, rfl, xdigit_iff.1 (h a (by simp)), xdigit_iff.1 (h b (by simp))⟩

theorem e_unspecified {x : XDate} (h : x.ok) (hn : x.neg = false) : Lang (Rx.unspecifiedDigit 1) (⟨x, .none, .none, .none⟩ : Endpoint).text := by
  obtain ⟨neg, yy, tl⟩ := x
  obtain ⟨hl, hy, hx⟩ := h
  simp only at hn hl hy hx
  subst hn
  have h4 := xdigits_rep4 hl hy
  cases tl with
  | none => exact ⟨yy, [], rfl, h4, Or.inl rfl⟩
  | month m => exact ⟨yy, _, rfl, h4, Or.inr ⟨['-'], _, rfl, lang_lit.2 rfl, m, [], by simp, xdigits_rep2 hx.1 hx.2, Or.inl rfl⟩⟩
  | day m d =>
    exact ⟨yy, _, rfl, h4, Or.inr ⟨['-'], _, rfl, lang_lit.2 rfl, m, _, rfl, xdigits_rep2 hx.1 hx.2.1, Or.inr ⟨['-'], _, rfl, lang_lit.2 rfl,
      xdigits_rep2 hx.2.2.1 hx.2.2.2⟩⟩⟩

theorem e_head {e : Endpoint} (h : e.shape) (hn : e.date.neg = false) (t : Str) : e.text ≠ '-' :: t := by
  obtain ⟨⟨neg, yy, tl⟩, qy, qm, qd⟩ := e
  obtain ⟨⟨hl, hy, hx⟩, o1, o2, o3, ht⟩ := h
  simp only at hn hl hy o1
  subst hn
  intro e
  match yy, hl with
  | a :: yy, _ =>
    have ha := xdigit_iff.1 (hy a (by simp))
    cases qy with
    | none => injection e with e _; subst e; exact absurd ha (by decide)
    | left q => injection e with e _; subst e; exact absurd o1 (by decide)
    | right q => injection e with e _; subst e; exact absurd ha (by decide)

theorem e_plain {e : Endpoint} (h : e.shape) : e.text.all plainC = true := by
  rw [List.all_eq_true]
  intro c hc
  rcases echars h hc with k | rfl | k
  · rcases xdigit_iff.2 k with rfl | ⟨j, hj, rfl⟩
    · decide
    · have tb : ∀ j, j < 10 → plainC (dig j) = true := by decide
      exact tb j hj
  · decide
  · simp only [isQ, Bool.or_eq_true, beq_iff_eq] at k
    rcases k with (rfl | rfl) | rfl <;> decide

theorem single_ok {e : Endpoint} (h : e.Readable) (hn : e.date.neg = false) (hq : noLeft e.qy e.qm e.qd ∨ noRight e.qy e.qm e.qd)
    (hx : 'X' ∈ e.text → e.qy = .none ∧ e.qm = .none ∧ e.qd = .none) : ∃ r, parseString e.text = .ok r := by
  obtain ⟨sp, hsp⟩ := (readable_iff h.1).2 h.2
  have nm : ∀ {c : Char}, isDX c = false → c ≠ '-' → isQ c = false → c ∉ e.text := fun h1 h2 h3 => e_not_mem h.1 h1 h2 h3
  have hd := e_head h.1 hn
  have hpl := e_plain h.1
  have hL : L2.isGroupQualification e.text = true ∨ L2.isIndividualQualification e.text = true ∨ L2.isUnspecifiedDigit e.text = true := by
    by_cases hX : 'X' ∈ e.text
    · obtain ⟨x, qy, qm, qd⟩ := e
      obtain ⟨e1, e2, e3⟩ := hx hX
      simp only at e1 e2 e3
      subst e1 e2 e3
      exact Or.inr (Or.inr (isUnspecifiedDigit_iff.2 (e_unspecified h.1.1 hn)))
    · obtain ⟨x, hw, ho, et, -⟩ := e_date0 h.1 hn hX
      rcases hq with hq | hq
      · exact Or.inl (isGroup_iff.2 (lang_group.2 ⟨x, _, _, _, hw, ho, hq, et⟩))
      · exact Or.inr (Or.inl (isIndividual_iff.2 (lang_individual.2 ⟨x, _, _, _, hw, ho, hq, et⟩)))
  have ns := nm (c := '/') (by decide) (by decide) (by decide)
  generalize e.text = s at *
  have hspE : dateSpanFromEDTF s = .ok sp := by rw [dateSpanFromEDTF_noSlash ns]; exact hsp
  cases h0 : L0.isDate s with
  | true => rw [parseString_isDate h0, parseDate_eq h0, hsp]; exact ⟨_, rfl⟩
  | false =>
    have h0 := no_slash_level0 ns (nm (by decide) (by decide) (by decide)) h0
    have noSeason : L1.isSeason s = true → ∃ n m rest, n < 10000 ∧ 1 ≤ m ∧ m ≤ 12 ∧ s = yearStr false n ++ '-' :: (pad2 m ++ rest) := by
      intro hse
      rcases (C49_exact_partial _).1 hse with ⟨neg, n, m, rest, hn, hm, e⟩ | ⟨pre, w, t1, t2, z, n, -, -, -, -, e⟩
      · cases neg with
        | true => exact absurd e (hd _)
        | false =>
          have e' : s = yearStr false n ++ '-' :: (pad2 m ++ rest) := e
          rw [e'] at hsp
          obtain ⟨m1, m2⟩ := span_month (by omega) hsp
          exact ⟨n, m, rest, hn, m1, m2, e'⟩
      · exact absurd (by rw [e]; simp) (nm (c := ',') (by decide) (by decide) (by decide))
    cases h1 : L1.isLevel1 s with
    | true =>
      cases hse : L1.isSeason s with
      | true =>
        obtain ⟨n, m, rest, hn, m1, m2, rfl⟩ := noSeason hse
        exact (acc_prefix hn m1 m2 h0 h1).2 (Or.inl (by simp))
      | false =>
        rw [parse_level1 h0 h1]
        unfold L1.parseString
        rw [not_letter (nm (by decide) (by decide) (by decide)), hse]
        simp only [Bool.false_eq_true, if_false]
        cases hqd : L1.isQualifiedDate s with
        | true =>
          rw [if_pos rfl]
          unfold L1.parseQualifiedDate
          rw [show Rx.QualifiedDate.matchString s = true from hqd, if_neg (by simp), hspE]
          exact ⟨_, rfl⟩
        | false =>
          cases hu : L1.isUnspecifiedDigits s with
          | true =>
            rw [if_neg (by simp), if_pos rfl]
            unfold L1.parseUnspecifiedDigits
            rw [show Rx.UnspecifiedDigits.matchString s = true from hu, if_neg (by simp), hspE]
            exact ⟨_, rfl⟩
          | false =>
            exfalso
            rcases isLevel1_iff.1 h1 with h | h | h | h | h | h | h | h
            · rw [← isLetter_iff, not_letter (nm (by decide) (by decide) (by decide))] at h
              cases h
            · obtain ⟨u, v, rfl, hu, hv⟩ := lang_cat.1 h
              obtain ⟨neg, n, hn, rfl⟩ := lang_year4'.1 (lang_grp.1 hu)
              obtain ⟨u, w, rfl, hu, hw⟩ := lang_cat.1 hv
              rw [lang_lit] at hu
              subst hu
              obtain ⟨m, -, hm, rfl⟩ := lang_seasonCode.1 (lang_grp.1 hw)
              have := (season_num (neg := neg) hn hm []).1
              rw [List.append_nil] at this
              rw [show L1.isSeason (yearStr neg n ++ (['-'] ++ pad2 m)) = true from this] at hse
              cases hse
            · obtain ⟨w, v, rfl, hw, hv⟩ := lang_cat.1 h
              obtain ⟨t1, v1, rfl, -, hv1⟩ := lang_cat.1 hv
              obtain ⟨cs, v2, rfl, ⟨c, rfl, hc⟩, -⟩ := lang_cat.1 hv1
              have := fold_comma hc
              subst this
              exact absurd (by simp) (nm (c := ',') (by decide) (by decide) (by decide))
            · rw [← isQualifiedDate_iff, hqd] at h; cases h
            · rw [lang_ci_noLower (by decide) s hpl, ← isUnspecifiedDigits_iff, hu] at h; cases h
            · obtain ⟨u, v, rfl, -, hv⟩ := lang_cat.1 h
              obtain ⟨c, w, rfl, hc, -⟩ := lang_cat.1 hv
              rw [lang_lit] at hc
              subst hc
              exact ns (by simp)
            · obtain ⟨u, v, rfl, -, hv⟩ := lang_cat.1 h
              obtain ⟨c, w, rfl, hc, -⟩ := lang_cat.1 hv
              rw [lang_lit] at hc
              subst hc
              exact ns (by simp)
            · obtain ⟨u, v, rfl, hu, -⟩ := lang_cat.1 h
              rw [lang_lit] at hu
              subst hu
              exact hd _ rfl
    | false =>
      have hsy : L2.isSubYearGrouping s = false := by
        rw [Bool.eq_false_iff]
        intro h
        obtain ⟨n, m, hn, hm, rfl⟩ := lang_subYear.1 (isSubYear_iff.1 h)
        have := span_month (neg := false) (n := n) (m := m) (rest := []) (by omega) (by rw [List.append_nil]; exact hsp)
        rw [show pad4 n ++ '-' :: pad2 m = yearStr false n ++ '-' :: pad2 m from rfl, month_level0 false hn this.1 this.2] at h0
        cases h0
      have h2 : L2.isLevel2 s = true := isLevel2_of (by rcases hL with h | h | h <;> simp [h])
      rw [parse_level2 h0 h1 h2]
      unfold L2.parseString
      rw [not_exponential hpl (Or.inl (nm (by decide) (by decide) (by decide))), not_sig (nm (by decide) (by decide) (by decide)), hsy,
        not_set (fun c hc => by
          rcases List.mem_cons.1 hc with rfl | hc
          · exact nm (by decide) (by decide) (by decide)
          · rw [List.mem_singleton] at hc
            subst hc
            exact nm (by decide) (by decide) (by decide))]
      simp only [Bool.false_eq_true, if_false]
      cases hg : L2.isGroupQualification s with
      | true =>
        rw [if_pos rfl]
        unfold L2.parseGroupQualification
        rw [show Rx.GroupQualification.matchString s = true from hg, if_neg (by simp), hspE]
        exact ⟨_, rfl⟩
      | false =>
        cases hi : L2.isIndividualQualification s with
        | true =>
          rw [if_neg (by simp), if_pos rfl]
          unfold L2.parseIndividualQualification
          rw [show Rx.IndividualQualification.matchString s = true from hi, if_neg (by simp), hspE]
          exact ⟨_, rfl⟩
        | false =>
          have hu : L2.isUnspecifiedDigit s = true := by
            rcases hL with h | h | h
            · rw [hg] at h; cases h
            · rw [hi] at h; cases h
            · exact h
          rw [if_neg (by simp), if_neg (by simp), hu, if_pos rfl]
          unfold L2.parseUnspecifiedDigit
          rw [show Rx.UnspecifiedDigit.matchString s = true from hu, if_neg (by simp), hspE]
          exact ⟨_, rfl⟩

end EDTF
