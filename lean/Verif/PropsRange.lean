/-
C70: the exported function `StringRangeFromYMD` on every text.
-/
import Verif.SpecRange
import Verif.PropsFail
import Verif.PropsYmd
import Verif.PropsDenote
namespace EDTF
open Spec

theorem signed_sgn (neg : Bool) (w : Str) : signed neg w = sgn neg w := rfl

/-! ### The year -/

theorem yearUnit_plain {w : Str} (h : ∀ a b c, w ≠ [a, b, c, 'X']) : yearUnitOf w = Prec.YEAR := by
  unfold yearUnitOf
  split
  · exact absurd rfl (h _ _ _)
  · rfl

theorem xunit {c : Char} (h : isDX c = true) : isDig c = true ↔ c ≠ 'X' := by
  rcases isDX_cases h with ⟨h1, h2⟩ | rfl
  · simp [h1, h2]
  · decide

theorem year_texts {s : Str} {neg : Bool} {w a b : Str} (hl : w.length = 4) (hx : ∀ c ∈ w, XDigit c) (h : YearTexts neg w a b) :
    yearRange s (sgn neg w) = .ok (a, b, yearUnitOf w) ∧ ∃ n ds, '-' ∉ ds ∧ b = sgn n ds := by
  obtain ⟨x, y, z, u, rfl⟩ := four_chars hl
  have nd : ∀ {c : Char}, isDX c = true → '-' ≠ c := by rintro c h rfl; cases h
  have hx' : isDX x = true ∧ isDX y = true ∧ isDX z = true ∧ isDX u = true :=
    ⟨xdigit_iff.1 (hx x (by simp)), xdigit_iff.1 (hx y (by simp)), xdigit_iff.1 (hx z (by simp)), xdigit_iff.1 (hx u (by simp))⟩
  generalize hw : [x, y, z, u] = w at h
  cases h with
  | itself _ _ h =>
    subst hw
    have hu : u ≠ 'X' := fun e => h x y z (by rw [e])
    rw [yearRange_plain s (by rw [hasSuffix_X4]; simpa using hu), yearUnit_plain h]
    exact ⟨rfl, neg, _, by simp [nd hx'.1, nd hx'.2.1, nd hx'.2.2.1, nd hx'.2.2.2], rfl⟩
  | unspecified a' b' c' y1 y2 h t1 t2 h1 h2 =>
    injection hw with e1 hw; injection hw with e2 hw; injection hw with e3 hw; injection hw with e4 _
    subst e1 e2 e3 e4
    obtain ⟨p, hs⟩ := (yearReads_iff rfl).1 h
    obtain ⟨hx1, hx2, hx3, -⟩ := hx'
    rw [numeral_iff.1 h1, numeral_iff.1 h2]
    generalize hw : sgn false [x, y, z, 'X'] = w at hs ⊢
    cases hs with
    | plain neg' n hn =>
      exfalso
      have hm : 'X' ∈ yearStr neg' n := by rw [← hw]; simp [sgn]
      cases neg' with
      | true =>
        rcases List.mem_cons.1 (show 'X' ∈ '-' :: pad4 n from hm) with h | h
        · exact absurd h (by decide)
        · exact pad4_noX n h
      | false => exact pad4_noX n hm
    | x a b c ha hb hc =>
      injection hw with e1 hw; injection hw with e2 hw; injection hw with e3 hw
      subst e1 e2 e3
      rw [yearRange_x s ha hb hc]
      refine ⟨?_, false, _, not_mem_digits (itoa_nat_digits _) rfl, rfl⟩
      show Res.ok (_, _, if isDig z = true then Prec.DECADE else if isDig y = true then Prec.CENTURY else Prec.MILLENIUM) =
        Res.ok (_, _, if z ≠ 'X' then Prec.DECADE else if y ≠ 'X' then Prec.CENTURY else Prec.MILLENIUM)
      simp only [xunit hb, xunit hc]

theorem year_texts_exist {neg : Bool} {w : Str} (hl : w.length = 4) (hx : ∀ c ∈ w, XDigit c)
    (h : ∀ a b c, w = [a, b, c, 'X'] → a ≠ 'X' ∧ neg = false) : ∃ a b, YearTexts neg w a b := by
  by_cases hX : ∃ a b c, w = [a, b, c, 'X']
  · obtain ⟨a, b, c, rfl⟩ := hX
    obtain ⟨ha, rfl⟩ := h a b c rfl
    have hda := xdigit_iff.1 (hx a (by simp))
    have hb := xdigit_iff.1 (hx b (by simp))
    have hc := xdigit_iff.1 (hx c (by simp))
    have hda := ((isDX_cases hda).resolve_right ha).1
    have := YearSpan.x a b c hda hb hc
    have := (yearReads_iff (neg := false) (w := [a, b, c, 'X']) rfl).2 ⟨_, this⟩
    exact ⟨_, _, .unspecified a b c _ _ this _ _ (numeral_iff.2 rfl) (numeral_iff.2 rfl)⟩
  · exact ⟨_, _, .itself neg w fun a b c e => hX ⟨a, b, c, e⟩⟩

/-! ### The month -/

theorem month_texts {x a b : Str} (h : MonthTexts x a b) {p : Prec} (hp : p ≠ 0) :
    (if (monthRange x p).1 = [] then c! "01" else (monthRange x p).1) = a ∧
    (if (monthRange x p).2.1 = [] then c! "12" else (monthRange x p).2.1) = b ∧
    (monthRange x p).2.2 = (if x = ['0', 'X'] ∨ x = ['1', 'X'] then Prec.MONTH else p) := by
  have hp' : p ≠ Prec.NONE := hp
  cases h with
  | absent => simp [monthRange, suffix_nil]
  | any => exact ⟨rfl, rfl, rfl⟩
  | zero => exact ⟨rfl, rfl, rfl⟩
  | one => exact ⟨rfl, rfl, rfl⟩
  | itself a b h =>
    have hs : hasSuffix [a, b] (c! "X") = false := by rw [hasSuffix_X2]; simpa using h
    unfold monthRange
    rw [hs]
    simp [h, hp']

theorem month_texts_exist {x : Str} (hx : x = [] ∨ Lang Rx.monthX x) : ∃ a b, MonthTexts x a b := by
  rcases hx with rfl | hx
  · exact ⟨_, _, .absent⟩
  · obtain ⟨a, b, rfl, ha, hb⟩ := lang_monthX_DX hx
    have hl := lang_monthX_iff.1 hx
    by_cases hX : b = 'X'
    · subst hX
      rcases isDX_cases ha with ⟨h1, h2⟩ | rfl
      · rcases hl with ⟨h, -⟩ | ⟨h, -⟩
        · obtain rfl := h.resolve_right h2
          exact ⟨_, _, .zero⟩
        · obtain rfl := h.resolve_right h2
          exact ⟨_, _, .one⟩
      · exact ⟨_, _, .any⟩
    · exact ⟨_, _, .itself a b hX⟩

theorem month_texts_form {x a b : Str} (h : MonthTexts x a b) (hx : x = [] ∨ Lang Rx.monthX x) : '-' ∉ b := by
  cases h with
  | absent => decide
  | any => decide
  | zero => decide
  | one => decide
  | itself a b h =>
    obtain ⟨a', b', e, ha, hb⟩ := lang_monthX_DX (hx.resolve_left (by simp))
    injection e with e1 e; injection e with e2 _
    subst e1 e2
    have t : ∀ {c : Char}, isDX c = true → '-' ≠ c := by
      rintro c h rfl; cases h
    simp [t ha, t hb]

/-! ### The day -/

theorem day_texts {L : Str → Prop} {x a b : Str} (h : DayTexts L x a b) {p : Prec} (hp : p ≠ 0) (e : Str) :
    ∃ s1 s2, dayRange e x p = .ok (s1, s2, p) ∧ (if s1 = [] then c! "01" else s1) = a ∧ ((s2 = [] ∧ L b) ∨ (s2 = b ∧ b ≠ [])) := by
  have hp' : p ≠ Prec.NONE := hp
  cases h with
  | absent t h => exact ⟨[], [], by simp [dayRange, suffix_nil], rfl, .inl ⟨rfl, h⟩⟩
  | any t h => exact ⟨_, _, rfl, rfl, .inl ⟨rfl, h⟩⟩
  | tens1 => exact ⟨_, _, rfl, rfl, .inr ⟨rfl, by decide⟩⟩
  | tens2 => exact ⟨_, _, rfl, rfl, .inr ⟨rfl, by decide⟩⟩
  | tens3 t h => exact ⟨_, _, rfl, rfl, .inl ⟨rfl, h⟩⟩
  | itself a b h =>
    have hs : hasSuffix [a, b] (c! "X") = false := by rw [hasSuffix_X2]; simpa using h
    refine ⟨[a, b], [a, b], ?_, rfl, .inr ⟨rfl, by simp⟩⟩
    unfold dayRange
    rw [hs]
    simp [hp']

/-- Which days have texts. -/
theorem day_texts_cases (L : Str → Prop) {x : Str} (hx : x = [] ∨ Lang Rx.dayX x) :
    x = c! "0X" ∨ (∃ a b, DayTexts L x a b) ∨ ((x = [] ∨ x = c! "XX" ∨ x = c! "3X") ∧ ∀ t, ¬ L t) := by
  have last : (∃ t, L t) ∨ ∀ t, ¬ L t := by
    by_cases h : ∃ t, L t
    · exact .inl h
    · exact .inr fun t ht => h ⟨t, ht⟩
  rcases hx with rfl | hx
  · rcases last with ⟨t, ht⟩ | h
    · exact .inr (.inl ⟨_, _, .absent t ht⟩)
    · exact .inr (.inr ⟨.inl rfl, h⟩)
  · obtain ⟨a, b, rfl, hab⟩ := lang_dayLike.1 hx
    by_cases hX : b = 'X'
    · subst hX
      have : a = '0' ∨ a = '1' ∨ a = '2' ∨ a = '3' ∨ a = 'X' := by
        simp at hab
        rcases hab with h | h
        · rcases h with h | h | h | h <;> simp [h]
        · rcases h with h | h <;> simp [h]
      rcases this with rfl | rfl | rfl | rfl | rfl
      · exact .inl rfl
      · exact .inr (.inl ⟨_, _, .tens1⟩)
      · exact .inr (.inl ⟨_, _, .tens2⟩)
      · rcases last with ⟨t, ht⟩ | h
        · exact .inr (.inl ⟨_, _, .tens3 t ht⟩)
        · exact .inr (.inr ⟨.inr (.inr rfl), h⟩)
      · rcases last with ⟨t, ht⟩ | h
        · exact .inr (.inl ⟨_, _, .any t ht⟩)
        · exact .inr (.inr ⟨.inr (.inl rfl), h⟩)
    · exact .inr (.inl ⟨_, _, .itself a b hX⟩)

/-! ### The last day of the month -/

theorem days_of_texts {neg : Bool} {ds m : Str} (h1 : '-' ∉ ds) (h2 : '-' ∉ m) (r : Res Int) :
    daysInMonthWithString (sgn neg ds ++ c! "-" ++ m) = r ↔ DaysTexts (sgn neg ds) m r := by
  rw [← days_texts]
  unfold daysInMonthWithString
  cases neg with
  | true =>
    rw [show sgn true ds ++ c! "-" ++ m = [] ++ '-' :: (ds ++ '-' :: m) by simp [sgn], splitChar_append (by simp), splitChar_append h1, splitChar_none h2]
    rfl
  | false =>
    rw [show sgn false ds ++ c! "-" ++ m = ds ++ '-' :: m by simp [sgn], splitChar_append h1, splitChar_none h2]
    rfl

theorem endDay_last {x : XDate} (hx : x.ok) {y1 y2 m1 m2 t : Str} (hm : x.mx = [] ∨ Lang Rx.monthX x.mx)
    (hy : YearTexts x.neg x.year y1 y2) (hmt : MonthTexts x.mx m1 m2) (h : LastDay x t) : endDay [] y2 m2 = .ok t := by
  obtain ⟨a, b, k, l, hr, hmr, hn⟩ := h
  obtain ⟨p, hs⟩ := (yearReads_iff hx.1).1 hr
  obtain ⟨ys, ye, hyr, n1, n2, a1, a2, ⟨neg, ds, hds, hye⟩, -, k1, k2, -, hp⟩ := year_strs hs
  have e := (year_texts (s := []) hx.1 hx.2.1 hy).1
  rw [hyr] at e
  simp only [Res.ok.injEq, Prod.mk.injEq] at e
  obtain ⟨-, rfl, -⟩ := e
  obtain ⟨q1, q2, q3, -, hs2, -⟩ := month_strs (monthReads_iff.1 hmr) hp
  rw [(month_texts hmt hp).2.1] at hs2
  subst hs2
  unfold endDay
  rw [if_pos rfl, hye, daysInMonthWithString_eq neg hds (pad2_all l) (hye ▸ a2) (atoi_pad2 (by omega)) k2 (by omega) q3, numeral_iff.1 hn]
  rfl

theorem endDay_none {x : XDate} (hx : x.ok) {y1 y2 m1 m2 : Str} (hm : x.mx = [] ∨ Lang Rx.monthX x.mx)
    (hy : YearTexts x.neg x.year y1 y2) (hmt : MonthTexts x.mx m1 m2) (h : ∀ t, ¬ LastDay x t) : endDay [] y2 m2 = .err .plain := by
  have hyt := year_texts (s := []) hx.1 hx.2.1 hy
  obtain ⟨hyr, neg, ds, hds, rfl⟩ := hyt
  have hm2 := month_texts_form hmt hm
  unfold endDay
  rw [if_pos rfl]
  cases e : daysInMonthWithString (sgn neg ds ++ c! "-" ++ m2) with
  | err E => rw [daysInMonthWithString_errs _ _ e]; rfl
  | panic => exact absurd e (daysInMonthWithString_safe _)
  | ok n =>
    exfalso
    have e := (days_of_texts hds hm2 _).1 e
    generalize hr : (Res.ok n : Res Int) = r at e
    cases e with
    | error => cases hr
    | read y m ty tm r hd =>
      obtain ⟨a, b, hY⟩ : ∃ a b, YearReads x.neg x.year a b := by
        generalize hw : sgn neg ds = w at hy ty hyr
        obtain ⟨n, yr, tl⟩ := x
        simp only at hy hyr ⊢
        cases hy with
        | itself _ _ h =>
          obtain ⟨a, b, hs⟩ := yearSpan_of_ok (xyear_lang hx) hyr ((atoi_iff _ _).2 ty)
          exact ⟨a, b, (yearReads_iff hx.1).2 ⟨_, hs⟩⟩
        | unspecified a b c u v hr t1 t2 h1 h2 => exact ⟨u, v, hr⟩
      obtain ⟨k, l, hM⟩ : ∃ k l, MonthReads x.mx k l := by
        have am := (atoi_iff _ _).2 tm
        generalize x.mx = mx at hm hmt
        cases hmt with
        | absent => exact ⟨_, _, .absent⟩
        | any => exact ⟨_, _, .any⟩
        | zero => exact ⟨_, _, .zero⟩
        | one => exact ⟨_, _, .one⟩
        | itself a b hb =>
          have e : (monthRange [a, b] Prec.YEAR).1 = [a, b] := by
            unfold monthRange
            rw [show hasSuffix [a, b] (c! "X") = false by rw [hasSuffix_X2]; simpa using hb]; rfl
          obtain ⟨k, l, hs⟩ := monthSpan_of_ok hm (p := Prec.YEAR) ⟨m, by rw [e, if_neg (by simp)]; exact am⟩
          exact ⟨k, l, monthReads_iff.2 hs⟩
      exact h _ ⟨a, b, k, l, hY, hM, numeral_iff.2 rfl⟩

/-! ### The whole -/

theorem unit_eq (x : XDate) : datePrec (yearUnitOf x.year) x.mx x.dx = x.unit := by
  unfold datePrec XDate.unit
  by_cases h1 : x.dx = ['X', 'X'] <;> by_cases h2 : x.mx = ['X', 'X'] <;> simp [h1, h2]

theorem yearUnit_ne (w : Str) : yearUnitOf w ≠ 0 := by
  unfold yearUnitOf
  split
  · split
    · decide
    split <;> decide
  · decide

theorem like_mx {e : Endpoint} (h : e.like) : e.date.mx = [] ∨ Lang Rx.monthX e.date.mx := by
  have := YMDForm.mx_lang (eformOf_ok h)
  rwa [(eformOf_parts e).2.1] at this

theorem like_dx {e : Endpoint} (h : e.like) : e.date.dx = [] ∨ Lang Rx.dayX e.date.dx := by
  have := YMDForm.dx_lang (eformOf_ok h)
  rwa [(eformOf_parts e).2.2] at this

theorem stringRange_like {e : Endpoint} (h : e.like) :
    stringRangeFromYMD e.text = rangeOf e.text (sgn e.date.neg e.date.year) e.date.mx e.date.dx
      (marked saysUncertain e.qy e.qm e.qd, marked saysApproximate e.qy e.qm e.qd) := by
  have hF := eformOf_ok h
  have := stringRange_form hF
  obtain ⟨k1, k2, k3⟩ := eformOf_parts e
  obtain ⟨q1, q2, q3⟩ := eformOf_deco e h.1
  obtain ⟨o1, o2, o3⟩ := YMDForm.deco_ok hF
  rw [qualFlags_eq o1 o2 o3, eformOf_text, k1, k2, k3, q1, q2, q3] at this
  exact this

theorem reads_ok {s : Str} {r : StringRange} (h : RangeReads s r) : stringRangeFromYMD s = .ok r := by
  cases h with
  | date e h y1 y2 m1 m2 d1 d2 hy hm hd =>
    rw [stringRange_like h]
    have hx := h.1.1
    have hyr := (year_texts (s := e.text) hx.1 hx.2.1 hy).1
    have hp := yearUnit_ne e.date.year
    obtain ⟨e1, e2, e3⟩ := month_texts hm hp
    have hp2 : (monthRange e.date.mx (yearUnitOf e.date.year)).2.2 ≠ 0 := by
      rw [e3]; split
      · decide
      · exact hp
    obtain ⟨s1, s2, hdr, hs1, hs2⟩ := day_texts hd hp2 e.text
    unfold rangeOf
    rw [hyr]
    simp only [Res.ok_bind, hdr, e1, e2, hs1]
    have hend : endDay s2 y2 m2 = .ok d2 := by
      rcases hs2 with ⟨rfl, hl⟩ | ⟨rfl, h0⟩
      · exact endDay_last hx (like_mx h) hy hm hl
      · unfold endDay; rw [if_neg h0]
    rw [hend]
    simp only [Res.ok_bind, e3]
    rw [← unit_eq]
    rfl

theorem fails_err {s : Str} {E : Err} (h : RangeFails s E) : stringRangeFromYMD s = .err E := by
  cases h with
  | form _ h =>
    refine stringRange_none fun F hF e => h ?_
    exact form_iff_like.1 ⟨F, hF, e⟩
  | millennium e h hn a b hy =>
    rw [stringRange_like h]
    rcases yearRange_cases e.text (neg := e.date.neg) h.1.1.1 h.1.1.2.1 with ⟨-, -, e3⟩ | ⟨-, e2, -⟩ | ⟨e1, -⟩
    · unfold rangeOf; rw [e3]; rfl
    · rw [hn] at e2; cases e2
    · exact absurd rfl (e1 _ _ _ hy).1
  | negative e h hn a b c hy =>
    rw [stringRange_like h]
    rcases yearRange_cases e.text (neg := e.date.neg) h.1.1.1 h.1.1.2.1 with ⟨-, e2, -⟩ | ⟨-, -, e3⟩ | ⟨e1, -⟩
    · rw [hn] at e2; cases e2
    · unfold rangeOf; rw [e3]; rfl
    · have := (e1 _ _ _ hy).2
      rw [hn] at this; cases this
  | zeroX e h hy hd =>
    rw [stringRange_like h]
    obtain ⟨a, b, hyt⟩ := year_texts_exist h.1.1.1 h.1.1.2.1 hy
    unfold rangeOf
    rw [(year_texts h.1.1.1 h.1.1.2.1 hyt).1]
    simp only [Res.ok_bind]
    rw [hd]
    rfl
  | last e h hy hd hl =>
    rw [stringRange_like h]
    have hx := h.1.1
    obtain ⟨a, b, hyt⟩ := year_texts_exist hx.1 hx.2.1 hy
    obtain ⟨m, n, hmt⟩ := month_texts_exist (like_mx h)
    have hend := endDay_none hx (like_mx h) hyt hmt hl
    obtain ⟨e1, e2, e3⟩ := month_texts hmt (yearUnit_ne e.date.year)
    unfold rangeOf
    rw [(year_texts hx.1 hx.2.1 hyt).1]
    simp only [Res.ok_bind, e2]
    have : ∀ p, ∃ s1 p', dayRange e.text e.date.dx p = .ok (s1, [], p') := by
      intro p
      rcases hd with hd | hd | hd
      · rw [hd]; exact ⟨_, _, rfl⟩
      · rw [hd]; exact ⟨_, _, rfl⟩
      · rw [hd]; exact ⟨_, _, rfl⟩
    obtain ⟨s1, p', hdr⟩ := this (monthRange e.date.mx (yearUnitOf e.date.year)).2.2
    rw [hdr]
    simp only [Res.ok_bind, hend]
    rfl

theorem range_total (s : Str) : (∃ r, RangeReads s r) ∨ ∃ E, RangeFails s E := by
  by_cases hf : ∃ e : Endpoint, e.like ∧ s = e.text
  · obtain ⟨e, h, rfl⟩ := hf
    have hx := h.1.1
    rcases yearRange_cases e.text (neg := e.date.neg) hx.1 hx.2.1 with ⟨⟨a, b, e1⟩, e2, -⟩ | ⟨⟨a, b, c, e1⟩, e2, -⟩ | ⟨hy, -⟩
    · exact .inr ⟨_, .millennium e h e2 a b e1⟩
    · exact .inr ⟨_, .negative e h e2 a b c e1⟩
    · obtain ⟨y1, y2, hyt⟩ := year_texts_exist hx.1 hx.2.1 hy
      obtain ⟨m1, m2, hmt⟩ := month_texts_exist (like_mx h)
      rcases day_texts_cases (LastDay e.date) (like_dx h) with k | ⟨d1, d2, k⟩ | ⟨k, l⟩
      · exact .inr ⟨_, .zeroX e h hy k⟩
      · exact .inl ⟨_, .date e h y1 y2 m1 m2 d1 d2 hyt hmt k⟩
      · exact .inr ⟨_, .last e h hy k l⟩
  · exact .inr ⟨_, .form s hf⟩

/-- C70: the texts of the first and the last day of every text that has them. -/
theorem C70_range (s : Str) (r : StringRange) : stringRangeFromYMD s = .ok r ↔ RangeReads s r := by
  refine ⟨fun h => ?_, reads_ok⟩
  rcases range_total s with ⟨r', k⟩ | ⟨E, k⟩
  · rw [reads_ok k] at h
    injection h with h
    exact h ▸ k
  · rw [fails_err k] at h; cases h

/-- C70: and the error of every other text. -/
theorem C70_error (s : Str) (E : Err) : stringRangeFromYMD s = .err E ↔ RangeFails s E := by
  refine ⟨fun h => ?_, fails_err⟩
  rcases range_total s with ⟨r', k⟩ | ⟨E', k⟩
  · rw [reads_ok k] at h; cases h
  · rw [fails_err k] at h
    injection h with h
    exact h ▸ k

/-- C70: it never panics. -/
theorem C70_total (s : Str) : stringRangeFromYMD s ≠ .panic := stringRange_safe s

/-! ### Instances -/

-- a year with an unspecified digit inside is left as it is, although it is not a number
example : ∃ r, RangeReads (c! "1X85-04-12?") r ∧ r.start.year = c! "1X85" ∧ r.uncertain = Prec.YEAR ||| Prec.MONTH ||| Prec.DAY :=
  ⟨_, (C70_range _ _).1 (show stringRangeFromYMD (c! "1X85-04-12?") = .ok _ from rfl), rfl, rfl⟩
-- the decade from the year 0: years without leading zeros
example : RangeReads (c! "000X-02") ⟨⟨c! "0", c! "02", c! "01"⟩, ⟨c! "9", c! "02", c! "28"⟩, Prec.DECADE, 0, 0⟩ :=
  (C70_range _ _).1 (by decide +kernel)
-- a day that does not exist, built from the specification
example : RangeReads (c! "-1984-02-3X") ⟨⟨c! "-1984", c! "02", c! "30"⟩, ⟨c! "-1984", c! "02", c! "29"⟩, Prec.YEAR, 0, 0⟩ := by
  refine .date ⟨⟨true, c! "1984", .day (c! "02") (c! "3X")⟩, .none, .none, .none⟩ ?_ _ _ _ _ _ _ (.itself _ _ (by simp)) (.itself '0' '2' (by decide))
    (.tens3 _ ⟨-1984, -1984, 2, 2, .digits true 1984 (by decide), .digits 2 (by decide) (by decide), ⟨[2, 9], by unfold Digits; decide, by decide, by decide, by decide⟩⟩)
  exact ⟨⟨by unfold XDate.ok XDigit; decide, by decide, by decide, by decide, trivial⟩, ⟨'0', '2', rfl, by decide⟩, '3', 'X', rfl, by decide⟩
-- no last day of a month in a year that is not a number
example : RangeFails (c! "1X85") .plain := (C70_error _ _).1 rfl
example : RangeFails (c! "1985-04-0X") (.invalid (c! "date") (c! "1985-04-0X")) := (C70_error _ _).1 rfl

end EDTF
