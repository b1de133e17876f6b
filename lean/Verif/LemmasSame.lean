/- Texts that mean the same time: dates alone, and the characters of accepted texts. -/
import Verif.SpecSame
import Verif.PropsLabel
import Verif.LemmasStandard1
namespace EDTF
open Spec

variable {f : Int → Nat → Nat → Int}

/-! ### Results with a first and a last second -/

/-- The result begins at the second `l`. -/
def FromSecond (d : EDTFDate) (l : Int) : Prop := ∃ a : Date, Begins d a ∧ a.timestamp = some l ∧ a.isOpen = false ∧ a.unknown = false

/-- The result ends at the second `u`. -/
def ToSecond (d : EDTFDate) (u : Int) : Prop := ∃ b : Date, Finishes d b ∧ b.timestamp = some u ∧ b.isOpen = false ∧ b.unknown = false

/-- The result runs from the second `l` to the second `u`. -/
def Timed (d : EDTFDate) (l u : Int) : Prop := FromSecond d l ∧ ToSecond d u

theorem from_same {d e : EDTFDate} {l : Int} (h : FromSecond d l) (k : FromSecond e l) : SameStart d e := by
  obtain ⟨a, h, h1, h2, h3⟩ := h
  obtain ⟨a', k, k1, k2, k3⟩ := k
  exact ⟨a, a', h, k, by rw [h1, k1], by rw [h2, k2], by rw [h3, k3]⟩

theorem to_same {d e : EDTFDate} {l : Int} (h : ToSecond d l) (k : ToSecond e l) : SameStop d e := by
  obtain ⟨a, h, h1, h2, h3⟩ := h
  obtain ⟨a', k, k1, k2, k3⟩ := k
  exact ⟨a, a', h, k, by rw [h1, k1], by rw [h2, k2], by rw [h3, k3]⟩

theorem timed_same {d e : EDTFDate} {l u : Int} (h : Timed d l u) (k : Timed e l u) : SameTime d e :=
  ⟨from_same h.1 k.1, to_same h.2 k.2⟩

theorem begins_unique {d : EDTFDate} {a a' : Date} (h : Begins d a) (k : Begins d a') : a = a' := by
  obtain ⟨S, h1, h2⟩ := h
  obtain ⟨S', k1, k2⟩ := k
  rw [h1] at k1; cases k1
  rw [h2] at k2; cases k2
  rfl

theorem finishes_unique {d : EDTFDate} {a a' : Date} (h : Finishes d a) (k : Finishes d a') : a = a' := by
  obtain ⟨S, h1, h2⟩ := h
  obtain ⟨S', k1, k2⟩ := k
  rw [h1] at k1; cases k1
  rw [h2] at k2; cases k2
  rfl

theorem same_from {d e : EDTFDate} {l l' : Int} (h : FromSecond d l) (k : FromSecond e l') (hs : SameStart d e) : l = l' := by
  obtain ⟨a, h, h1, -⟩ := h
  obtain ⟨a', k, k1, -⟩ := k
  obtain ⟨x, x', p, q, r1, -⟩ := hs
  cases begins_unique h p
  cases begins_unique k q
  rw [h1, k1] at r1
  exact Option.some.inj r1

theorem same_to {d e : EDTFDate} {l l' : Int} (h : ToSecond d l) (k : ToSecond e l') (hs : SameStop d e) : l = l' := by
  obtain ⟨a, h, h1, -⟩ := h
  obtain ⟨a', k, k1, -⟩ := k
  obtain ⟨x, x', p, q, r1, -⟩ := hs
  cases finishes_unique h p
  cases finishes_unique k q
  rw [h1, k1] at r1
  exact Option.some.inj r1

theorem same_timed {d e : EDTFDate} {l u l' u' : Int} (h : Timed d l u) (k : Timed e l' u') (hs : SameTime d e) : l = l' ∧ u = u' :=
  ⟨same_from h.1 k.1 hs.1, same_to h.2 k.2 hs.2⟩

theorem same_symm {d e : EDTFDate} (h : SameTime d e) : SameTime e d := by
  obtain ⟨⟨a, a', h1, h2, e1, e2, e3⟩, b, b', h3, h4, e4, e5, e6⟩ := h
  exact ⟨⟨a', a, h2, h1, e1.symm, e2.symm, e3.symm⟩, b', b, h4, h3, e4.symm, e5.symm, e6.symm⟩

theorem same_trans {d e g : EDTFDate} (h : SameTime d e) (k : SameTime e g) : SameTime d g := by
  obtain ⟨⟨a, a', h1, h2, e1, e2, e3⟩, b, b', h3, h4, e4, e5, e6⟩ := h
  obtain ⟨⟨x, x', k1, k2, f1, f2, f3⟩, y, y', k3, k4, f4, f5, f6⟩ := k
  cases begins_unique h2 k1
  cases finishes_unique h4 k3
  exact ⟨⟨a, x', h1, k2, e1.trans f1, e2.trans f2, e3.trans f3⟩, b, y', h3, k4, e4.trans f4, e5.trans f5, e6.trans f6⟩

/-! ### The results of the written forms -/

theorem timed_result {x : Date0} {t s k : Str} {n : Int} {u a : Prec} : Timed (x.result f t s n k u a) (firstSecond f x) (lastSecond f x) :=
  ⟨⟨_, ⟨_, rfl, rfl⟩, ts_start .., rfl, rfl⟩, _, ⟨_, rfl, rfl⟩, ts_end .., rfl, rfl⟩

theorem timed_span {t s k : Str} {n : Int} {S E : DateRange} {e : Endpoint} (hf : DayCount f) (he : e.shape) (ht : t = e.text) (h : SpanOf f t S E)
    {y1 y2 : Int} {m1 d1 m2 d2 : Nat} (hr : e.date.Runs y1 m1 d1 y2 m2 d2) :
    Timed ⟨some S, some E, s, n, k⟩ (86400 * f y1 m1 d1) (86400 * f y2 m2 d2 + 86399) := by
  subst ht
  obtain ⟨rfl, rfl⟩ := span_text_unique hf h (.date e he y1 m1 d1 y2 m2 d2 hr)
  exact ⟨⟨_, ⟨_, rfl, rfl⟩, ts_start .., rfl, rfl⟩, _, ⟨_, rfl, rfl⟩, ts_end .., rfl, rfl⟩

theorem timed_months {s k : Str} {n : Int} {y1 y2 : Int} {m1 m2 : Nat} :
    Timed (monthsResult f s n k y1 m1 y2 m2) (86400 * f y1 m1 1) (86400 * f y2 m2 (monthLen y2 m2) + 86399) := by
  have : Timed (monthsResult f s n k y1 m1 y2 m2) (86400 * f (dayOf y1 m1 1).value m1 1) (86400 * f (dayOf y2 m2 (monthLen y2 m2)).value m2 (monthLen y2 m2) + 86399) :=
    ⟨⟨_, ⟨_, rfl, rfl⟩, ts_start .., rfl, rfl⟩, _, ⟨_, rfl, rfl⟩, ts_end .., rfl, rfl⟩
  rw [dayOf_value, dayOf_value] at this
  exact this

/-! ### Dates alone -/

/-- The text alone denotes the time between two days, or the whole month. -/
def AloneAs (f : Int → Nat → Nat → Int) (t : Str) (y1 : Int) (m1 d1 : Nat) (y2 : Int) (m2 d2 : Nat) : Prop :=
    ∃ d, Denotes f t d ∧ ((¬ TenDays t ∧ Timed d (86400 * f y1 m1 d1) (86400 * f y2 m2 d2 + 86399)) ∨
      (TenDays t ∧ y1 = y2 ∧ m1 = m2 ∧ (1 < d1 ∧ (d2 < monthLen y1 m1 ↔ EarlyDays t) ∧ Timed d (86400 * f y1 m1 1) (86400 * f y1 m1 (monthLen y1 m1) + 86399))))

theorem ten_x {s : Str} (h : TenDays s) : 'X' ∈ s := by
  obtain ⟨n, m, k, -, -, -, -, rfl⟩ := h
  simp

/-- The year and the month of such a day are digits. -/
theorem ten_parts {x : XDate} (h : x.ok) (hn : x.neg = false) (ht : TenDays x.text) : 'X' ∉ x.year ∧ 'X' ∉ x.mx ∧ x.dx ≠ c! "XX" := by
  obtain ⟨n, m, k, h1, h2, h3, h4, e⟩ := ht
  obtain ⟨neg, y, t⟩ := x
  simp only at hn
  subst hn
  obtain ⟨hl, hy, hx⟩ := h
  rw [xtext] at e
  have e' := List.append_inj e (by rw [pad4_length]; exact hl)
  obtain ⟨rfl, e2⟩ := e'
  cases t with
  | none => cases e2
  | month w =>
    exfalso
    have := congrArg List.length e2
    simp [pad2] at this
    have hx : w.length = 2 ∧ _ := hx
    omega
  | day w v =>
    have hw : w.length = 2 := hx.1
    simp only [List.cons_append, List.cons.injEq, true_and] at e2
    obtain ⟨rfl, e3⟩ := List.append_inj e2 (by simp [pad2, hw])
    injection e3 with _ e3
    subst e3
    refine ⟨pad4_noX _, pad2_noX _, ?_⟩
    intro k'
    simp only [XDate.dx] at k'
    injection k' with k' _
    subst k'
    revert h4; decide

theorem loose_time (hf : DayCount f) {x : XDate} (h : x.ok) (hn : x.neg = false) (hX : 'X' ∈ x.text) (h1 : 'X' ∉ x.year) (h2 : 'X' ∉ x.mx)
    {y1 y2 : Int} {m1 d1 m2 d2 : Nat} (hr : x.Runs y1 m1 d1 y2 m2 d2) :
    AloneAs f x.text y1 m1 d1 y2 m2 d2 := by
  have hten := ten_parts h hn
  obtain ⟨neg, y, t⟩ := x
  simp only at hn h1
  subst hn
  obtain ⟨hy, hm, hd, V1, V2⟩ := hr
  simp only at hy
  cases hy with
  | unspecified a ha hb hc => simp at h1
  | digits _ n hn =>
    cases t with
    | none => simp [XDate.text] at hX; exact absurd hX h1
    | month m =>
      exfalso
      simp [XDate.text, XDate.mx] at hX h2
      exact hX.elim h1 h2
    | day m d =>
      simp only [XDate.mx] at hm h2
      simp only [XDate.dx] at hd
      have hX' : 'X' ∈ d := by
        simp [XDate.text] at hX
        exact (hX.resolve_left h1).resolve_left h2
      clear hX
      cases hm with
      | absent => have := h.2.2.1; simp at this
      | any => simp at h2
      | zero => simp at h2
      | one => simp at h2
      | digits m a1 a2 =>
        have go : ∀ a b : Char, LooseDay a b → ∃ d, Denotes f (⟨false, pad4 n, .day (pad2 m1) [a, b]⟩ : XDate).text d ∧
            Timed d (86400 * f n m1 1) (86400 * f n m1 (monthLen n m1) + 86399) := by
          intro a b hab
          have := Denotes.month (f := f) false n m1 hn a1 a2 n rfl (Or.inl (by omega)) ['-', a, b] (.loose a b hab)
          rw [show signed false (pad4 n) ++ '-' :: (pad2 m1 ++ ['-', a, b]) = (⟨false, pad4 n, .day (pad2 m1) [a, b]⟩ : XDate).text by
            simp [XDate.text, signed]] at this
          exact ⟨_, this, timed_months⟩
        have ten : ∀ k ∈ c! "123", TenDays (⟨false, pad4 n, .day (pad2 m1) [k, 'X']⟩ : XDate).text :=
          fun k hk => ⟨n, m1, k, hn, a1, a2, hk, by simp [XDate.text]⟩
        have early : ∀ k : Char, EarlyDays (⟨false, pad4 n, .day (pad2 m1) [k, 'X']⟩ : XDate).text ↔ (k = '1' ∨ k = '2' ∧ m1 ≠ 2) := by
          intro k
          constructor
          · rintro ⟨n', m', k', h1, h2, h3, h4, e⟩
            simp only [XDate.text, Bool.false_eq_true, if_false, List.nil_append] at e
            obtain ⟨-, e⟩ := List.append_inj e (by rw [pad4_length, pad4_length])
            simp only [List.cons_append, List.cons.injEq, true_and] at e
            obtain ⟨e1, e2⟩ := List.append_inj e (by simp [pad2])
            cases pad2_inj (by omega) (by omega) e1
            simp only [List.cons.injEq, true_and, and_true] at e2
            subst e2
            exact h4
          · exact fun hk => ⟨n, m1, k, hn, a1, a2, hk, by simp [XDate.text]⟩
        have len := (monthLen_pos n m1).1
        cases hd with
        | absent => simp at hX'
        | zero => simp at hX'
        | any =>
          obtain ⟨d, hd, ht⟩ := go _ _ (by decide : LooseDay 'X' 'X')
          exact ⟨d, hd, .inl ⟨fun k => (hten k).2.2 rfl, ht⟩⟩
        | tens1 =>
          obtain ⟨d, hd, ht⟩ := go _ _ (by decide : LooseDay '1' 'X')
          exact ⟨d, hd, .inr ⟨ten _ (by decide), rfl, rfl, by decide, iff_of_true (show 19 < monthLen n m1 by omega) ((early _).2 (.inl rfl)), ht⟩⟩
        | tens2 =>
          obtain ⟨d, hd, ht⟩ := go _ _ (by decide : LooseDay '2' 'X')
          refine ⟨d, hd, .inr ⟨ten _ (by decide), rfl, rfl, by decide, ?_, ht⟩⟩
          rw [early]
          show 29 < monthLen n m1 ↔ _
          by_cases h2 : m1 = 2
          · subst h2
            have := monthLen_29 n
            exact iff_of_false (by omega) (by decide)
          · have := monthLen_30 n h2
            exact iff_of_true (by omega) (.inr ⟨rfl, h2⟩)
        | tens3 =>
          obtain ⟨d, hd, ht⟩ := go _ _ (by decide : LooseDay '3' 'X')
          exact ⟨d, hd, .inr ⟨ten _ (by decide), rfl, rfl, by decide, iff_of_false (Nat.lt_irrefl _) (by rw [early]; rintro (h | ⟨h, -⟩) <;> revert h <;> decide), ht⟩⟩
        | digits d b1 b2 =>
          exfalso
          exact (by decide : ∀ d < 32, 'X' ∉ pad2 d) d1 (by omega) hX'

/-- A date that is accepted alone is read as it would be in an interval, unless it is a day of which
the last digit is unspecified. -/
theorem alone_time (hf : DayCount f) {e : Endpoint} (hs : e.shape) (hr : noRight e.qy e.qm e.qd) (ha : e.alone) {y1 y2 : Int} {m1 d1 m2 d2 : Nat}
    (hruns : e.date.Runs y1 m1 d1 y2 m2 d2) :
    AloneAs f e.text y1 m1 d1 y2 m2 d2 := by
  have noX : 'X' ∉ e.text → ∀ {n : Int} {k : Str} {S E : DateRange}, SpanOf f e.text S E → Denotes f e.text ⟨some S, some E, e.text, n, k⟩ → AloneAs f e.text y1 m1 d1 y2 m2 d2 :=
    fun hX n k S E hS hd => ⟨⟨some S, some E, e.text, n, k⟩, hd, Or.inl ⟨fun k => hX (ten_x k), timed_span hf hs rfl hS hruns⟩⟩
  have plain : e.plain → AloneAs f e.text y1 m1 d1 y2 m2 d2 := by
    intro hp
    obtain ⟨z, hz, ez⟩ := plain_date ⟨hs, y1, y2, m1, m2, d1, d2, hruns⟩ hp
    have hS := SpanOf.date (f := f) e hs _ _ _ _ _ _ hruns
    refine ⟨_, ez ▸ Denotes.date z hz, Or.inl ⟨fun k => hp.1 'X' (by decide) (ten_x k), ?_⟩⟩
    have hS' := SpanOf.date (f := f) (dateE z) (dateE_ok z).1 _ _ _ _ _ _ (date_runs hz)
    rw [dateE_text, ← ez] at hS'
    have t1 := timed_span (s := []) (k := []) (n := 0) hf hs rfl hS hruns
    obtain ⟨e1, e2⟩ := span_text_unique hf hS hS'
    rw [e1, e2] at t1
    have t2 := timed_span (s := []) (k := []) (n := 0) hf (dateE_ok z).1 (by rw [dateE_text, ez]) hS' (date_runs hz)
    obtain ⟨k1, k2⟩ := same_timed t1 t2 (timed_same t1 t1)
    rw [k1, k2]
    exact timed_result
  rcases ha with hp | ⟨hn, hx⟩
  · exact plain hp
  by_cases hX : 'X' ∈ e.text
  · obtain ⟨x, qy, qm, qd⟩ := e
    obtain ⟨q1, q2, q3⟩ := hx hX
    simp only at q1 q2 q3
    subst q1 q2 q3
    have hS := SpanOf.date (f := f) _ hs _ _ _ _ _ _ hruns
    have hox : x.ok := hs.1
    simp only at hn
    rw [endpoint_plain] at hS hX ⊢
    by_cases hX' : 'X' ∈ x.year ∨ 'X' ∈ x.mx
    · exact ⟨_, .unspecified x hox hn hX' _ _ hS, .inl ⟨fun k => hX'.elim (ten_parts hox hn k).1 (ten_parts hox hn k).2.1, timed_span hf hs (endpoint_plain x).symm hS hruns⟩⟩
    · exact loose_time hf hox hn hX (fun k => hX' (Or.inl k)) (fun k => hX' (Or.inr k)) hruns
  · have hS := SpanOf.date (f := f) _ hs _ _ _ _ _ _ hruns
    by_cases hl : noLeft e.qy e.qm e.qd
    · by_cases h0 : e.date.dx = c! "00"
      · exact noX hX hS (.group e hs hn hX hl (.inr h0) _ _ hS)
      · refine plain ⟨?_, h0⟩
        have none : ∀ q ∈ [e.qy, e.qm, e.qd], q = .none := by
          intro q hq
          have k1 := hl q hq
          have k2 := hr q hq
          cases q <;> simp_all [Deco.isLeft, Deco.isRight]
        obtain ⟨x, qy, qm, qd⟩ := e
        have q1 : qy = .none := none _ (by simp)
        have q2 : qm = .none := none _ (by simp)
        have q3 : qd = .none := none _ (by simp)
        subst q1 q2 q3
        rw [endpoint_plain] at hX ⊢
        intro c hc hm
        rcases List.mem_cons.1 hc with rfl | hc
        · exact hX hm
        · have : isQ c = false := xtext_no_qual hs.1 hm
          have : c = '?' ∨ c = '~' ∨ c = '%' := by simpa using hc
          rcases this with rfl | rfl | rfl <;> contradiction
    · exact noX hX hS (.individual e hs hn hX hr hl _ _ hS)

end EDTF
