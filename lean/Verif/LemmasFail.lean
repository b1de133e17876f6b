/-
The errors of the shared date code.
-/
import Verif.SpecFail
import Verif.LemmasForm
import Verif.LemmasPanic
namespace EDTF
open Spec

theorem lang_dayLike {w : Str} : Lang Rx.dayX w ↔ DayLike w :=
  lang_shape (cls_lang _ (by decide) (by decide +kernel)) (cls_lang _ (by decide) (by decide +kernel))
    (cls_lang _ (by decide) (by decide +kernel)) (cls_lang _ (by decide) (by decide +kernel))

theorem eformOf_ok {e : Endpoint} (h : e.like) : (eformOf e).ok := by
  obtain ⟨h, hl⟩ := h
  have hy := xyear_lang h.1
  obtain ⟨⟨neg, y, t⟩, qy, qm, qd⟩ := e
  obtain ⟨hx, o1, o2, o3, -⟩ := h
  simp only at o1 o2 o3 hy hl
  cases t with
  | none => exact ⟨o1, hy⟩
  | month m => exact ⟨⟨o1, hy⟩, o2, lang_monthShape.2 hl⟩
  | day m d => exact ⟨⟨o1, hy⟩, ⟨o2, lang_monthShape.2 hl.1⟩, o3, lang_dayLike.2 hl.2⟩

theorem form_like {F : YMDForm} (h : F.ok) : ∃ e : Endpoint, e.like ∧ F.text = e.text := by
  obtain ⟨e, he, ht⟩ := form_endpoint h
  obtain ⟨-, k2, k3, -⟩ := eform he h ht.symm
  refine ⟨e, ⟨he, ?_⟩, ht⟩
  obtain ⟨⟨neg, y, t⟩, qy, qm, qd⟩ := e
  have h2 : ∀ {w : Str}, w.length = 2 → w ≠ [] := by rintro _ h rfl; cases h
  have hx := he.1.2.2
  cases t with
  | none => trivial
  | month m =>
    simp only [XDate.mx] at k2
    rcases F.mx_lang h with e | e
    · rw [k2] at e; exact absurd e (h2 hx.1)
    · rw [k2] at e; exact lang_monthShape.1 e
  | day m d =>
    simp only [XDate.mx, XDate.dx] at k2 k3
    constructor
    · rcases F.mx_lang h with e | e
      · rw [k2] at e; exact absurd e (h2 hx.1)
      · rw [k2] at e; exact lang_monthShape.1 e
    · rcases F.dx_lang h with e | e
      · rw [k3] at e; exact absurd e (h2 hx.2.2.1)
      · rw [k3] at e; exact lang_dayLike.1 e

theorem form_iff_like {t : Str} : (∃ F : YMDForm, F.ok ∧ t = F.text) ↔ ∃ e : Endpoint, e.like ∧ t = e.text := by
  constructor
  · rintro ⟨F, hF, rfl⟩
    exact form_like hF
  · rintro ⟨e, he, rfl⟩
    exact ⟨_, eformOf_ok he, (eformOf_text e).symm⟩

open Res in
theorem ymdFromStrings_plain {a b c : Str} (h : ∀ y, atoi a = some y → y.natAbs < 10000) :
    (ymdFromStrings a b c).Errs (· = .plain) := by
  intro e he
  rcases ymdFromStrings_errs a b c e he with k | ⟨y, rfl⟩
  · exact k
  · exfalso
    unfold ymdFromStrings at he
    split at he
    · cases he
    split at he
    · cases he
    rcases Res.bind_eq_err.1 he with he | ⟨y, hy, he⟩
    · exact absurd (Errs.ofOption (P := (· = .plain)) rfl _ he) (by intro h; cases h)
    have hy := h y (Res.ofOption_eq_ok.1 hy)
    have hz : ∀ s e, atoiOrZero s = .err e → e = .plain := by
      intro s
      unfold atoiOrZero
      exact Errs.ite (fun _ => Errs.ofOption rfl) fun _ => Errs.ok
    rcases Res.bind_eq_err.1 he with he | ⟨m, -, he⟩
    · cases hz _ _ he
    rcases Res.bind_eq_err.1 he with he | ⟨d, -, he⟩
    · cases hz _ _ he
    have : ¬ ((if decide (y < 0) = true then flipYear y else y) > MAX_YEARS) := by
      have := flipYear_eq (y := y) (by omega) (by omega)
      unfold MAX_YEARS
      simp only [decide_eq_true_eq]
      split <;> omega
    rw [if_neg this] at he
    split at he
    · cases he
    split at he
    · cases he
    rcases Res.bind_eq_err.1 he with he | ⟨d, -, he⟩
    · cases daysInMonth_errs _ _ _ he
    split at he <;> cases he

open Res in
theorem spanTimes_plain (b : Bool) (v w : YMD) : (spanTimes b v w).Errs (· = .plain) := by
  have ht := fun v h => timeWithYMD_errs v h
  unfold spanTimes
  refine Errs.ite (fun _ => ?_) fun _ => ?_
  · exact Errs.bind (ht _ _) fun _ _ => Errs.bind (ht _ _) fun _ _ => Errs.ok
  · exact Errs.bind (ht _ _) fun _ _ => Errs.bind (ht _ _) fun _ _ => Errs.bind (ht _ _) fun _ _ => Errs.bind (ht _ _) fun _ _ => Errs.ok

/-- Where an error in the shared date code can come from. -/
theorem date_err_from {F : YMDForm} (hF : F.ok) {e : Err} (h : dateSpanFromYMD F.text = .err e) :
    yearRange F.text F.yx = .err e ∨
    (∃ a b p, yearRange F.text F.yx = .ok (a, b, p) ∧ (dayRange F.text F.dx (monthRange F.mx p).2.2 = .err e ∨
      (∃ r, dayRange F.text F.dx (monthRange F.mx p).2.2 = .ok r) ∧ e = .plain)) := by
  unfold dateSpanFromYMD at h
  rw [stringRange_form hF] at h
  have after : ∀ {a b : Str} {p : Prec}, yearRange F.text F.yx = .ok (a, b, p) →
      (∀ y, atoi a = some y → y.natAbs < 10000 ∧ ∀ z, atoi b = some z → z.natAbs < 10000) := by
    intro a b p hr y hy
    obtain ⟨y1, y2, hs⟩ := yearSpan_of_ok (F.yc_ok hF).2 hr hy
    obtain ⟨ys, ye, k1, k2, k3, k4, k5, k6, k7, k8, k9, -⟩ := year_strs hs
    have k1 := k1 F.text
    have : yearRange F.text F.yc.x = .ok (a, b, p) := hr
    rw [k1] at this
    simp only [Res.ok.injEq, Prod.mk.injEq] at this
    obtain ⟨rfl, rfl, -⟩ := this
    rw [k4] at hy
    injection hy with hy
    subst hy
    refine ⟨k8, fun z hz => ?_⟩
    rw [k5] at hz
    injection hz with hz
    subst hz
    exact k9
  rcases Res.bind_eq_err.1 h with h | ⟨r, hr, h⟩
  · unfold rangeOf at h
    rcases Res.bind_eq_err.1 h with h | ⟨⟨a, b, p⟩, hy, h⟩
    · exact .inl h
    refine .inr ⟨a, b, p, hy, ?_⟩
    simp only at h
    rcases Res.bind_eq_err.1 h with h | ⟨⟨s1, s2, p2⟩, hd, h⟩
    · exact .inl h
    refine .inr ⟨⟨_, hd⟩, ?_⟩
    simp only at h
    rcases Res.bind_eq_err.1 h with h | ⟨_, -, h⟩
    · unfold endDay at h
      split at h
      · rcases Res.bind_eq_err.1 h with h | ⟨_, -, h⟩
        · exact daysInMonthWithString_errs _ _ h
        · cases h
      · cases h
    · cases h
  · unfold rangeOf at hr
    obtain ⟨⟨a, b, p⟩, hy, hr⟩ := Res.bind_eq_ok.1 hr
    refine .inr ⟨a, b, p, hy, .inr ?_⟩
    simp only at hr
    obtain ⟨⟨s1, s2, p2⟩, hd, hr⟩ := Res.bind_eq_ok.1 hr
    refine ⟨⟨_, hd⟩, ?_⟩
    simp only at hr
    obtain ⟨ed, hed, hr⟩ := Res.bind_eq_ok.1 hr
    injection hr with hr
    subst hr
    simp only at h
    rcases Res.bind_eq_err.1 h with h | ⟨v1, hv1, h⟩
    · exact ymdFromStrings_plain (fun y k => (after hy y k).1) _ h
    have nm : (if (monthRange F.mx p).1 = [] then c! "01" else (monthRange F.mx p).1) ≠ [] := by
      split
      · decide
      · assumption
    have nd : (if s1 = [] then c! "01" else s1) ≠ [] := by
      split
      · decide
      · assumption
    obtain ⟨⟨y, ay⟩, -⟩ := ymdFromStrings_atoi hv1 nm nd
    rcases Res.bind_eq_err.1 h with h | ⟨v2, hv2, h⟩
    · exact ymdFromStrings_plain (fun z k => (after hy y ay).2 z k) _ h
    rcases Res.bind_eq_err.1 h with h | ⟨ts, hts, h⟩
    · exact spanTimes_plain _ _ _ _ h
    · cases h

theorem date_err_year {F : YMDForm} (hF : F.ok) {e : Err} (h : yearRange F.text F.yx = .err e) : dateSpanFromYMD F.text = .err e := by
  unfold dateSpanFromYMD
  rw [stringRange_form hF]
  unfold rangeOf
  rw [h]
  rfl

theorem date_err_day {F : YMDForm} (hF : F.ok) {e : Err} {a b : Str} {p : Prec} (h : yearRange F.text F.yx = .ok (a, b, p))
    (hd : dayRange F.text F.dx (monthRange F.mx p).2.2 = .err e) : dateSpanFromYMD F.text = .err e := by
  unfold dateSpanFromYMD
  rw [stringRange_form hF]
  unfold rangeOf
  rw [h]
  simp only [Res.ok_bind]
  rw [hd]
  rfl

/-- The year range. -/
theorem yearRange_cases (s : Str) {neg : Bool} {y : Str} (hl : y.length = 4) (hx : ∀ c ∈ y, XDigit c) :
    ((∃ a b, y = ['X', a, b, 'X']) ∧ neg = false ∧ yearRange s (sgn neg y) = .err (.notImplemented (c! "date") s)) ∨
    ((∃ a b c, y = [a, b, c, 'X']) ∧ neg = true ∧ yearRange s (sgn neg y) = .err .plain) ∨
    ((∀ a b c, y = [a, b, c, 'X'] → a ≠ 'X' ∧ neg = false) ∧ ∃ a b p, yearRange s (sgn neg y) = .ok (a, b, p)) := by
  obtain ⟨a, b, c, d, rfl⟩ := four_chars hl
  have ha := xdigit_iff.1 (hx a (by simp))
  have hb := xdigit_iff.1 (hx b (by simp))
  have hc := xdigit_iff.1 (hx c (by simp))
  by_cases hd : d = 'X'
  · subst hd
    have hs : hasSuffix (sgn neg [a, b, c, 'X']) (c! "X") = true := by rw [hasSuffix_X4]; rfl
    cases neg with
    | true =>
      refine .inr (.inl ⟨⟨a, b, c, rfl⟩, rfl, ?_⟩)
      unfold yearRange
      rw [hs]
      simp [sgn, idx, parseInt_dash, Res.ofOption]
    | false =>
      by_cases h : a = 'X'
      · subst h
        refine .inl ⟨⟨b, c, rfl⟩, rfl, ?_⟩
        unfold yearRange
        rw [hs]
        simp [sgn, idx]
        rfl
      · refine .inr (.inr ⟨fun _ _ _ e => ?_, ?_⟩)
        · injection e with e
          subst e
          exact ⟨h, rfl⟩
        · have := yearRange_x s ((isDX_cases ha).elim (fun k => k.1) (fun k => absurd k h)) hb hc
          exact ⟨_, _, _, this⟩
  · refine .inr (.inr ⟨fun _ _ _ e => ?_, ?_⟩)
    · simp at e
      exact absurd e.2.2.2 hd
    · exact ⟨_, _, _, yearRange_plain s (by rw [hasSuffix_X4]; simpa using hd)⟩

/-- The day range. -/
theorem dayRange_cases (s : Str) {d : Str} (p : Prec) (hd : d = [] ∨ Lang Rx.dayX d) :
    (d = c! "0X" ∧ dayRange s d p = .err (.invalid (c! "date") s)) ∨ (d ≠ c! "0X" ∧ ∃ r, dayRange s d p = .ok r) := by
  by_cases hx : hasSuffix d (c! "X") = true
  · rcases hd with rfl | hd
    · cases hx
    have hd' := lang_dayLike.1 hd
    obtain ⟨a, b, rfl, hab⟩ := hd'
    rw [hasSuffix_X2] at hx
    have hb : b = 'X' := by simpa using hx
    subst hb
    have : a = '0' ∨ a = '1' ∨ a = '2' ∨ a = '3' ∨ a = 'X' := by
      simp at hab
      rcases hab with h | h
      · rcases h with h | h | h | h <;> simp [h]
      · rcases h with h | h <;> simp [h]
    rcases this with rfl | rfl | rfl | rfl | rfl
    · exact .inl ⟨rfl, rfl⟩
    all_goals exact .inr ⟨by decide, _, rfl⟩
  · refine .inr ⟨?_, ?_⟩
    · rintro rfl; exact hx rfl
    · unfold dayRange
      rw [if_pos (by simpa using hx)]
      exact ⟨_, rfl⟩

/-- The errors of a date. -/
theorem date_err_iff {t : Str} {e : Err} : dateSpanFromYMD t = .err e ↔ DateFails t e := by
  have rd : ∀ {x : Endpoint}, x.like → ((∃ E, dateSpanFromYMD x.text = .err E) ↔ ¬ x.date.Readable) := by
    intro x hx
    rw [← readable_iff hx.1]
    constructor
    · rintro ⟨E, h⟩ ⟨sp, k⟩
      rw [h] at k; cases k
    · intro h
      cases k : dateSpanFromYMD x.text with
      | ok sp => exact absurd ⟨sp, k⟩ h
      | err E => exact ⟨E, rfl⟩
      | panic => exact absurd k (dateSpanFromYMD_safe _)
  constructor
  · intro h
    by_cases hf : ∃ F : YMDForm, F.ok ∧ t = F.text
    · obtain ⟨x, hx, rfl⟩ := form_iff_like.1 hf
      have hF := eformOf_ok hx
      obtain ⟨k1, k2, k3⟩ := eformOf_parts x
      have ht := eformOf_text x
      rw [← ht] at h
      have hr := (rd hx).1 ⟨e, ht ▸ h⟩
      have hc := date_err_from hF h
      rw [k1, k2, k3, ht] at hc
      rcases yearRange_cases x.text (neg := x.date.neg) hx.1.1.1 hx.1.1.2.1 with ⟨⟨a, b, e1⟩, e2, e3⟩ | ⟨⟨a, b, c, e1⟩, e2, e3⟩ | ⟨e1, a, b, p, e2⟩
      · rw [e3] at hc
        rcases hc with hc | ⟨_, _, _, hc, -⟩
        · injection hc with hc
          subst hc
          exact .millennium x hx e2 a b e1
        · cases hc
      · rw [e3] at hc
        rcases hc with hc | ⟨_, _, _, hc, -⟩
        · injection hc with hc
          subst hc
          exact .negative x hx e2 a b c e1
        · cases hc
      · rw [e2] at hc
        rcases hc with hc | ⟨_, _, q, hc, hd⟩
        · cases hc
        · have hl := (eformOf x).dx_lang hF
          rw [k3] at hl
          rcases dayRange_cases x.text (monthRange x.date.mx q).2.2 hl with ⟨d1, d2⟩ | ⟨d1, r, d2⟩
          · rw [d2] at hd
            rcases hd with hd | ⟨⟨_, hd⟩, -⟩
            · injection hd with hd
              subst hd
              exact .zeroX x hx e1 d1
            · cases hd
          · rw [d2] at hd
            rcases hd with hd | ⟨-, rfl⟩
            · cases hd
            · exact .other x hx e1 d1 hr
    · unfold dateSpanFromYMD at h
      rw [stringRange_none (fun F hF e => hf ⟨F, hF, e⟩)] at h
      injection h with h
      subst h
      exact .form t (fun k => hf (form_iff_like.2 k))
  · intro h
    cases h with
    | form _ h =>
      unfold dateSpanFromYMD
      rw [stringRange_none (fun F hF e => h (form_iff_like.1 ⟨F, hF, e⟩))]
      rfl
    | millennium x hx hn a b hy =>
      obtain ⟨k1, k2, k3⟩ := eformOf_parts x
      have ht := eformOf_text x
      rw [← ht]
      apply date_err_year (eformOf_ok hx)
      rw [k1, ht]
      rcases yearRange_cases x.text (neg := x.date.neg) hx.1.1.1 hx.1.1.2.1 with ⟨-, -, e3⟩ | ⟨-, e2, -⟩ | ⟨e1, -⟩
      · exact e3
      · rw [hn] at e2; cases e2
      · exact absurd rfl (e1 _ _ _ hy).1
    | negative x hx hn a b c hy =>
      obtain ⟨k1, k2, k3⟩ := eformOf_parts x
      have ht := eformOf_text x
      rw [← ht]
      apply date_err_year (eformOf_ok hx)
      rw [k1, ht]
      rcases yearRange_cases x.text (neg := x.date.neg) hx.1.1.1 hx.1.1.2.1 with ⟨-, e2, -⟩ | ⟨-, -, e3⟩ | ⟨e1, -⟩
      · rw [hn] at e2; cases e2
      · exact e3
      · have := (e1 _ _ _ hy).2
        rw [hn] at this; cases this
    | zeroX x hx hy hd =>
      obtain ⟨k1, k2, k3⟩ := eformOf_parts x
      have ht := eformOf_text x
      have hF := eformOf_ok hx
      rcases yearRange_cases x.text (neg := x.date.neg) hx.1.1.1 hx.1.1.2.1 with ⟨⟨a, b, e1⟩, e2, -⟩ | ⟨⟨a, b, c, e1⟩, e2, -⟩ | ⟨-, a, b, p, e1⟩
      · exact absurd rfl (hy _ _ _ e1).1
      · have := (hy _ _ _ e1).2
        rw [e2] at this; cases this
      · conv => lhs; rw [← ht]
        refine date_err_day hF (by rw [k1, ht]; exact e1) ?_
        have hl := (eformOf x).dx_lang hF
        rw [k3, ht, hd]
        rw [k3, hd] at hl
        rcases dayRange_cases x.text (monthRange (eformOf x).mx p).2.2 hl with ⟨-, d2⟩ | ⟨d1, -⟩
        · exact d2
        · exact absurd rfl d1
    | other x hx hy hd hr =>
      obtain ⟨E, hE⟩ := (rd hx).2 hr
      obtain ⟨k1, k2, k3⟩ := eformOf_parts x
      have ht := eformOf_text x
      have hF := eformOf_ok hx
      have hc := date_err_from hF (ht ▸ hE)
      rw [k1, k2, k3, ht] at hc
      rcases yearRange_cases x.text (neg := x.date.neg) hx.1.1.1 hx.1.1.2.1 with ⟨⟨a, b, e1⟩, e2, -⟩ | ⟨⟨a, b, c, e1⟩, e2, -⟩ | ⟨-, a, b, p, e1⟩
      · exact absurd rfl (hy _ _ _ e1).1
      · have := (hy _ _ _ e1).2
        rw [e2] at this; cases this
      · rw [e1] at hc
        rcases hc with hc | ⟨_, _, q, hc, hc'⟩
        · cases hc
        · have hl := (eformOf x).dx_lang hF
          rw [k3] at hl
          rcases dayRange_cases x.text (monthRange x.date.mx q).2.2 hl with ⟨d1, -⟩ | ⟨-, r, d2⟩
          · exact absurd d1 hd
          · rw [d2] at hc'
            rcases hc' with hc' | ⟨-, rfl⟩
            · cases hc'
            · exact hE

end EDTF
