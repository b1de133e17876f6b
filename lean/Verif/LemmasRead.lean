/-
Which dates the span functions can read.
-/
import Verif.SpecLang
namespace EDTF
open Spec

theorem place_iff {c : Char} {a b : Nat} : Place c a b ↔ isDX c = true ∧ a = loD c ∧ b = hiD c := by
  constructor
  · rintro (⟨k, h⟩ | _)
    · have hd := (isDig_iff _).2 ⟨a, h, rfl⟩
      have hx : dig a ≠ 'X' := fun e => by rw [e] at hd; cases hd
      refine ⟨by simp [isDX, hd], ?_, ?_⟩
      · rw [loD, if_neg hx, digVal_dig_lt a h]
      · rw [hiD, if_neg hx, digVal_dig_lt a h]
    · exact ⟨rfl, rfl, rfl⟩
  · rintro ⟨h, rfl, rfl⟩
    rcases isDX_cases h with ⟨h1, h2⟩ | rfl
    · obtain ⟨k, hk, rfl⟩ := (isDig_iff _).1 h1
      rw [loD, hiD, if_neg h2, if_neg h2, digVal_dig_lt k hk]
      exact .digit k hk
    · exact .any

theorem yearReads_iff {neg : Bool} {w : Str} (hl : w.length = 4) {y1 y2 : Int} :
    YearReads neg w y1 y2 ↔ ∃ p, YearSpan (sgn neg w) y1 y2 p := by
  constructor
  · rintro (⟨_, n, h⟩ | ⟨a, h, hb, hc⟩)
    · exact ⟨_, YearSpan.plain neg n h⟩
    · obtain ⟨kb, rfl, rfl⟩ := place_iff.1 hb
      obtain ⟨kc, rfl, rfl⟩ := place_iff.1 hc
      have := YearSpan.x (dig a) _ _ ((isDig_iff _).2 ⟨a, h, rfl⟩) kb kc
      rw [digVal_dig_lt a h] at this
      exact ⟨_, this⟩
  · rintro ⟨p, h⟩
    generalize hs : sgn neg w = s at h
    cases h with
    | plain neg' n hn =>
      have : neg = neg' ∧ w = pad4 n := by
        cases neg <;> cases neg' <;> simp [sgn, yearStr] at hs
        · exact ⟨rfl, hs⟩
        · rw [hs] at hl; simp [pad4] at hl
        · have := congrArg List.length hs; simp [pad4] at this; omega
        · exact ⟨rfl, hs⟩
      obtain ⟨rfl, rfl⟩ := this
      exact .digits _ n hn
    | x a b c ha hb hc =>
      have : neg = false ∧ w = [a, b, c, 'X'] := by
        cases neg
        · exact ⟨rfl, hs⟩
        · have := congrArg List.length hs
          simp [sgn] at this
          omega
      obtain ⟨rfl, rfl⟩ := this
      obtain ⟨k, hk, rfl⟩ := (isDig_iff _).1 ha
      rw [digVal_dig_lt k hk]
      exact .unspecified k hk (place_iff.2 ⟨hb, rfl, rfl⟩) (place_iff.2 ⟨hc, rfl, rfl⟩)

theorem monthReads_iff {w : Str} {m1 m2 : Nat} : MonthReads w m1 m2 ↔ MonthSpan w m1 m2 := by
  constructor
  · intro h
    cases h with
    | absent => exact .none
    | digits _ h1 h2 => exact .plain _ h1 h2
    | any => exact .xx
    | zero => exact .dx '0' (Or.inl rfl)
    | one => exact .dx '1' (Or.inr rfl)
  · intro h
    cases h with
    | none => exact .absent
    | plain _ h1 h2 => exact .digits _ h1 h2
    | xx => exact .any
    | dx c h =>
      rcases h with rfl | rfl
      · exact .zero
      · exact .one

theorem dayReads_iff {l1 l2 : Nat} {w : Str} {d1 d2 : Nat} : DayReads l1 l2 w d1 d2 ↔ DaySpan w l1 l2 d1 d2 := by
  constructor
  · intro h
    cases h with
    | absent => exact .none _ _
    | digits _ h1 h2 => exact .plain _ _ _ h1 h2
    | zero => exact .zero _ _
    | any => exact .xx _ _
    | tens1 => exact .x1 _ _
    | tens2 => exact .x2 _ _
    | tens3 => exact .x3 _ _
  · intro h
    cases h with
    | none => exact .absent
    | plain _ h1 h2 => exact .digits _ ‹_› ‹_›
    | zero => exact .zero
    | xx => exact .any
    | x1 => exact .tens1
    | x2 => exact .tens2
    | x3 => exact .tens3

theorem months_lang : ∀ m, m < 13 → 1 ≤ m → (Rx.anch Rx.monthX).matchString (pad2 m) = true := by decide +kernel
theorem days_lang : ∀ d, d < 32 → (Rx.anch Rx.dayX).matchString (pad2 d) = true := by decide +kernel

theorem monthSpan_lang {w : Str} {m1 m2 : Nat} (h : MonthSpan w m1 m2) (h0 : w ≠ []) : Lang Rx.monthX w := by
  rw [← matchString_anch Rx.monthX (by decide)]
  cases h with
  | none => exact absurd rfl h0
  | plain _ h1 h2 => exact months_lang _ (by omega) h1
  | xx => decide
  | dx c h => rcases h with rfl | rfl <;> decide

theorem daySpan_lang {w : Str} {l1 l2 d1 d2 : Nat} (h : DaySpan w l1 l2 d1 d2) (h0 : w ≠ []) : Lang Rx.dayX w := by
  rw [← matchString_anch Rx.dayX (by decide)]
  cases h with
  | none => exact absurd rfl h0
  | plain _ h1 h2 => exact days_lang _ (by omega)
  | zero => decide
  | xx => decide
  | x1 => decide
  | x2 => decide
  | x3 => decide

/-- The form of an endpoint. -/
def eformOf (e : Endpoint) : YMDForm :=
  match e.date.tail with
  | .none => .y ⟨sgn e.date.neg e.date.year, e.qy⟩
  | .month m => .ym ⟨sgn e.date.neg e.date.year, e.qy⟩ ⟨m, e.qm⟩
  | .day m d => .ymd ⟨sgn e.date.neg e.date.year, e.qy⟩ ⟨m, e.qm⟩ ⟨d, e.qd⟩

theorem eformOf_text (e : Endpoint) : (eformOf e).text = e.text := by
  obtain ⟨⟨neg, y, t⟩, qy, qm, qd⟩ := e
  cases t <;> simp [eformOf, Endpoint.text, YMDForm.text, Comp.text, sgn]

theorem eformOf_parts (e : Endpoint) : (eformOf e).yx = sgn e.date.neg e.date.year ∧ (eformOf e).mx = e.date.mx ∧ (eformOf e).dx = e.date.dx := by
  obtain ⟨⟨neg, y, t⟩, qy, qm, qd⟩ := e
  cases t <;> simp [eformOf, YMDForm.yx, YMDForm.yc, YMDForm.mx, YMDForm.dx, XDate.mx, XDate.dx]

/-- A date with qualifiers can be read exactly when it is readable. -/
theorem readable_iff {e : Endpoint} (h : e.shape) : (∃ sp, dateSpanFromYMD e.text = .ok sp) ↔ e.date.Readable := by
  constructor
  · rintro ⟨sp, hs⟩
    obtain ⟨F, y1, y2, m1, m2, d1, d2, py, hF, hE, hY, hM, hD, V1, V2, -⟩ := dateSpan_inv hs
    obtain ⟨k1, k2, k3, -⟩ := eform h hF hE
    rw [k1] at hY
    rw [k2] at hM
    rw [k3] at hD
    exact ⟨y1, y2, m1, m2, d1, d2, (yearReads_iff h.1.1).2 ⟨_, hY⟩, monthReads_iff.2 hM, dayReads_iff.2 hD, V1, V2⟩
  · rintro ⟨y1, y2, m1, m2, d1, d2, hY, hM, hD, V1, V2⟩
    obtain ⟨p, hY⟩ := (yearReads_iff h.1.1).1 hY
    rw [monthReads_iff] at hM
    rw [dayReads_iff] at hD
    obtain ⟨k1, k2, k3⟩ := eformOf_parts e
    have hF : (eformOf e).ok := by
      have hy := xyear_lang h.1
      obtain ⟨⟨neg, y, t⟩, qy, qm, qd⟩ := e
      obtain ⟨hx, o1, o2, o3, -⟩ := h
      simp only at o1 o2 o3 hy
      cases t with
      | none => exact ⟨o1, hy⟩
      | month m => exact ⟨⟨o1, hy⟩, o2, monthSpan_lang hM (by intro e; simp only [XDate.mx] at e; rw [e] at hx; exact absurd hx.2.2.1 (by decide))⟩
      | day m d =>
        exact ⟨⟨o1, hy⟩, ⟨o2, monthSpan_lang hM (by intro e; simp only [XDate.mx] at e; rw [e] at hx; exact absurd hx.2.2.1 (by decide))⟩,
          o3, daySpan_lang hD (by intro e; simp only [XDate.dx] at e; rw [e] at hx; exact absurd hx.2.2.2.2.1 (by decide))⟩
    have := dateSpan_form hF (k1 ▸ hY) (k2 ▸ hM) (k3 ▸ hD) V1 V2
    rw [eformOf_text] at this
    exact ⟨_, this⟩

theorem lang_dx2 {r : Re} (hr : ∀ w, Lang r w → ∃ a b, w = [a, b] ∧ isDX a = true ∧ isDX b = true) {w : Str} (h : Lang r w) :
    w.length = 2 ∧ ∀ c ∈ w, XDigit c := by
  obtain ⟨a, b, rfl, ha, hb⟩ := hr w h
  refine ⟨rfl, fun c hc => ?_⟩
  rcases List.mem_cons.1 hc with rfl | hc
  · exact xdigit_iff.2 ha
  · rw [List.mem_singleton] at hc
    subst hc
    exact xdigit_iff.2 hb

/-- Every form is that of an endpoint. -/
theorem form_endpoint {F : YMDForm} (h : F.ok) : ∃ e : Endpoint, e.shape ∧ F.text = e.text := by
  have hy : ∀ {a : Comp}, a.okFor Rx.yearX → ∃ neg y, a.x = sgn neg y ∧ y.length = 4 ∧ ∀ c ∈ y, XDigit c := by
    intro a ha
    obtain ⟨neg, a1, a2, a3, a4, e, k1, k2, k3, k4⟩ := lang_yearX.1 ha.2
    refine ⟨neg, _, e, rfl, fun c hc => ?_⟩
    simp only [List.mem_cons, List.not_mem_nil, or_false] at hc
    rcases hc with rfl | rfl | rfl | rfl <;> exact xdigit_iff.2 ‹_›
  cases F with
  | y a =>
    obtain ⟨neg, y, e, hl, hc⟩ := hy h
    refine ⟨⟨⟨neg, y, .none⟩, a.q, .none, .none⟩, ⟨⟨hl, hc, trivial⟩, h.1, rfl, rfl, rfl, rfl⟩, ?_⟩
    simp [YMDForm.text, Comp.text, Endpoint.text, e, sgn]
  | ym a b =>
    obtain ⟨neg, y, e, hl, hc⟩ := hy h.1
    refine ⟨⟨⟨neg, y, .month b.x⟩, a.q, b.q, .none⟩, ⟨⟨hl, hc, lang_dx2 (fun w => lang_monthX_DX) h.2.2⟩, h.1.1, h.2.1, rfl, rfl⟩, ?_⟩
    simp [YMDForm.text, Comp.text, Endpoint.text, e, sgn]
  | ymd a b c =>
    obtain ⟨neg, y, e, hl, hc⟩ := hy h.1
    obtain ⟨k1, k2⟩ := lang_dx2 (fun w => lang_monthX_DX) h.2.1.2
    refine ⟨⟨⟨neg, y, .day b.x c.x⟩, a.q, b.q, c.q⟩, ⟨⟨hl, hc, k1, k2, lang_dx2 (fun w => lang_dayX_DX) h.2.2.2⟩, h.1.1, h.2.1.1, h.2.2.1, trivial⟩, ?_⟩
    simp [YMDForm.text, Comp.text, Endpoint.text, e, sgn]

/-- What can be read is the text of a readable endpoint. -/
theorem readable_of_ok {s : Str} {sp : DateSpan} (h : dateSpanFromYMD s = .ok sp) : ∃ e : Endpoint, e.Readable ∧ s = e.text := by
  obtain ⟨F, y1, y2, m1, m2, d1, d2, py, hF, hE, -⟩ := dateSpan_inv h
  obtain ⟨e, he, ht⟩ := form_endpoint hF
  rw [hE, ht] at h
  exact ⟨e, ⟨he, (readable_iff he).1 ⟨_, h⟩⟩, by rw [hE, ht]⟩

end EDTF
