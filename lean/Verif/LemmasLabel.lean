/- The labels of the ranges: the texts of dates alone. -/
import Verif.SpecLabel
import Verif.PropsDenote
import Verif.PropsExact
import Verif.PropsOrder
namespace EDTF
open Spec

variable {f : Int → Nat → Nat → Int}

/-! ### The first day of a date is not after its last -/

theorem runs_le {x : XDate} {y1 y2 : Int} {m1 d1 m2 d2 : Nat} (h : x.Runs y1 m1 d1 y2 m2 d2) : dayLe y1 m1 d1 y2 m2 d2 := by
  obtain ⟨hy, hm, hd, V1, V2⟩ := h
  generalize x.year = wy at hy
  generalize x.neg = wn at hy
  generalize x.mx = wm at hm
  generalize x.dx = wd at hd
  have day : y1 = y2 → m1 = m2 → d1 ≤ d2 := by
    rintro rfl rfl
    cases hd with
    | absent => exact V2.2.2.1
    | digits => exact Nat.le_refl _
    | zero => exact Nat.le_refl _
    | any => exact V2.2.2.1
    | tens1 => omega
    | tens2 => omega
    | tens3 => exact V1.2.2.2
  have month : m1 ≤ m2 := by cases hm <;> omega
  have year : y1 ≤ y2 := by
    cases hy with
    | digits => exact Int.le_refl _
    | unspecified a ha hb hc =>
      have : ∀ {c : Char} {l u : Nat}, Place c l u → l ≤ u := by
        intro c l u h
        cases h <;> omega
      have b := this hb
      have c := this hc
      omega
  unfold dayLe
  by_cases e : y1 = y2
  · by_cases e' : m1 = m2
    · exact .inr ⟨e, .inr ⟨e', day e e'⟩⟩
    · exact .inr ⟨e, .inl (by omega)⟩
  · exact .inl (by omega)

/-! ### Ranges named by a text -/

/-- `t` denotes a time that contains `r`. -/
def Names (f : Int → Nat → Nat → Int) (t : Str) (r : DateRange) : Prop :=
  ∃ (d : EDTFDate) (S E : DateRange) (a b : Date), Denotes f t d ∧ d.start = some S ∧ d.stop = some E ∧ S.lower = some a ∧ E.upper = some b ∧ Between a b r

theorem names_time {t : Str} {d : EDTFDate} {S E : DateRange} {a b l u : Date} {ta tb tl tu : Int} {r : DateRange} (h : Denotes f t d)
    (hS : d.start = some S) (hE : d.stop = some E) (ha : S.lower = some a) (hb : E.upper = some b) (hl : r.lower = some l) (hu : r.upper = some u)
    (h1 : a.timestamp = some ta) (h2 : b.timestamp = some tb) (h3 : l.timestamp = some tl) (h4 : u.timestamp = some tu) (k1 : ta ≤ tl) (k2 : tu ≤ tb) :
    Names f t r :=
  ⟨d, S, E, a, b, h, hS, hE, ha, hb, l, u, hl, hu, .inl ⟨ta, tb, tl, tu, h1, h2, h3, h4, k1, k2⟩⟩

theorem names_flagged {t : Str} {r : DateRange} {p : Prec} (h : Names f t r) : Names f t (flagged p r) := by
  obtain ⟨d, S, E, a, b, h, hS, hE, ha, hb, l, u, hl, hu, k⟩ := h
  exact ⟨d, S, E, a, b, h, hS, hE, ha, hb, { l with inclusivity := p }, { u with inclusivity := p }, by simp [flagged, hl], by simp [flagged, hu], k⟩

theorem names_unknown : Names f [] ⟨[], some unknownEnd, some unknownEnd⟩ :=
  ⟨_, _, _, _, _, .unknown, rfl, rfl, rfl, rfl, _, _, rfl, rfl, .inr (.inr ⟨rfl, rfl, rfl, rfl⟩)⟩

theorem names_open : Names f (c! "..") (openRange (c! "..")) :=
  ⟨_, _, _, _, _, .opened, rfl, rfl, rfl, rfl, _, _, rfl, rfl, .inr (.inl ⟨rfl, rfl, rfl, rfl⟩)⟩

theorem names_side {l : Side} (h : l = .opened ∨ l = .unknown) : Names f l.text (l.range f) := by
  rcases h with rfl | rfl
  · exact names_open
  · exact names_unknown

/-- The text of a date that exists names every range inside it. -/
theorem names_date {x : Date0} (h : x.ok) {r : DateRange} {l u : Date} {tl tu : Int} (hl : r.lower = some l) (hu : r.upper = some u)
    (h3 : l.timestamp = some tl) (h4 : u.timestamp = some tu) (k1 : firstSecond f x ≤ tl) (k2 : tu ≤ lastSecond f x) : Names f x.text r := by
  refine names_time (.date x h) rfl rfl rfl rfl hl hu rfl rfl h3 h4 ?_ ?_
  · show 86400 * f x.value x.first.1 x.first.2 + ((0 : Nat) : Int) ≤ _
    unfold firstSecond at k1
    omega
  · show _ ≤ 86400 * f x.value x.last.1 x.last.2 + ((86399 : Nat) : Int)
    unfold lastSecond at k2
    omega

theorem names_range {x : Date0} (h : x.ok) {t : Str} {u a p : Prec} : Names f x.text (x.range f t u a p) := by
  refine names_date h rfl rfl rfl rfl ?_ ?_
  · show _ ≤ 86400 * f x.value x.first.1 x.first.2 + ((0 : Nat) : Int)
    unfold firstSecond
    omega
  · show 86400 * f x.value x.last.1 x.last.2 + ((86399 : Nat) : Int) ≤ _
    unfold lastSecond
    omega

/-- A result whose ranges are all labelled with the text itself. -/
theorem names_self {s : Str} {d : EDTFDate} {S E : DateRange} {a a' b' b : Date} {ta ta' tb' tb : Int} (h : Denotes f s d) (hS : d.start = some S)
    (hE : d.stop = some E) (h1 : S.lower = some a) (h2 : S.upper = some a') (h3 : E.lower = some b') (h4 : E.upper = some b)
    (k1 : a.timestamp = some ta) (k2 : a'.timestamp = some ta') (k3 : b'.timestamp = some tb') (k4 : b.timestamp = some tb)
    (le1 : ta' ≤ tb) (le2 : ta ≤ tb') : Names f s S ∧ Names f s E :=
  ⟨names_time h hS hE h1 h4 h1 h2 k1 k4 k1 k2 (by omega) le1, names_time h hS hE h1 h4 h3 h4 k1 k4 k3 k4 le2 (by omega)⟩

theorem ts_start (y : Int) (m d : Nat) (u a p : Prec) : (dayStart f y m d u a p).timestamp = some (86400 * f y m d) := by
  show some (86400 * f y m d + ((0 : Nat) : Int)) = _
  rw [show 86400 * f y m d + ((0 : Nat) : Int) = 86400 * f y m d by omega]

theorem ts_end (y : Int) (m d : Nat) (u a p : Prec) : (dayEnd f y m d u a p).timestamp = some (86400 * f y m d + 86399) := rfl

theorem span_le (hf : DayCount f) {t : Str} {S E : DateRange} (h : SpanOf f t S E) : ∃ (a a' b' b : Date) (ta ta' tb' tb : Int),
    S.lower = some a ∧ S.upper = some a' ∧ E.lower = some b' ∧ E.upper = some b ∧ a.timestamp = some ta ∧ a'.timestamp = some ta' ∧
    b'.timestamp = some tb' ∧ b.timestamp = some tb ∧ ta' ≤ tb ∧ ta ≤ tb' ∧ ta ≤ tb := by
  cases h with
  | date e h y1 m1 d1 y2 m2 d2 hr =>
    have := day_order hf hr.2.2.2.1 hr.2.2.2.2 (runs_le hr)
    by_cases k : y1 = y2 ∧ m1 = m2 ∧ d1 = d2
    · rw [if_pos k, if_pos k]
      exact ⟨_, _, _, _, _, _, _, _, rfl, rfl, rfl, rfl, ts_start .., ts_start .., ts_end .., ts_end .., by omega, by omega, by omega⟩
    · rw [if_neg k, if_neg k]
      exact ⟨_, _, _, _, _, _, _, _, rfl, rfl, rfl, rfl, ts_start .., ts_end .., ts_start .., ts_end .., by omega, by omega, by omega⟩

theorem names_span (hf : DayCount f) {s t : Str} {S E : DateRange} (h : SpanOf f t S E) {k : Str} {n : Int} (hd : Denotes f s ⟨some S, some E, s, n, k⟩) :
    Names f s S ∧ Names f s E := by
  obtain ⟨a, a', b', b, ta, ta', tb', tb, h1, h2, h3, h4, k1, k2, k3, k4, l1, l2, -⟩ := span_le hf h
  exact names_self hd rfl rfl h1 h2 h3 h4 k1 k2 k3 k4 l1 l2

theorem names_result (hf : DayCount f) {x : Date0} (hx : x.ok) {s t k : Str} {n : Int} {u a : Prec} {S E : DateRange} (hd : Denotes f s (x.result f t s n k u a))
    (hS : (x.result f t s n k u a).start = some S) (hE : (x.result f t s n k u a).stop = some E) : Names f s S ∧ Names f s E := by
  have le : f x.value x.first.1 x.first.2 ≤ f x.value x.last.1 x.last.2 := day_order hf (Date0.valid_first hx) (Date0.valid_last hx) (first_le_last hx)
  obtain ⟨neg, y, tl⟩ := x
  cases hS
  cases hE
  cases tl with
  | none => exact names_self hd rfl rfl rfl rfl rfl rfl (ts_start ..) (ts_end ..) (ts_start ..) (ts_end ..) (by omega) (by omega)
  | month m => exact names_self hd rfl rfl rfl rfl rfl rfl (ts_start ..) (ts_end ..) (ts_start ..) (ts_end ..) (by omega) (by omega)
  | day m d => exact names_self hd rfl rfl rfl rfl rfl rfl (ts_start ..) (ts_start ..) (ts_end ..) (ts_end ..) (by omega) (by omega)

/-! ### The text of an endpoint -/

theorem xtext_no_qual {x : XDate} (h : x.ok) {c : Char} (hc : c ∈ x.text) : isQ c = false := by
  have dx : ∀ {w : Str}, (∀ c ∈ w, XDigit c) → c ∈ w → isQ c = false := by
    intro w hw hm
    rcases hw c hm with rfl | ⟨k, hk, rfl⟩
    · decide
    · exact (by decide : ∀ k < 10, isQ (dig k) = false) k hk
  obtain ⟨neg, y, t⟩ := x
  obtain ⟨-, hy, ht⟩ := h
  simp only [XDate.text, List.mem_append] at hc
  rcases hc with (hc | hc) | hc
  · have : c = '-' := by cases neg <;> simp at hc; exact hc
    subst this; decide
  · exact dx hy hc
  · cases t with
    | none => cases hc
    | month m =>
      rcases List.mem_cons.1 hc with rfl | hc
      · decide
      · exact dx ht.2 hc
    | day m d =>
      simp only [List.cons_append, List.mem_cons, List.mem_append] at hc
      rcases hc with rfl | hc | rfl | hc
      · decide
      · exact dx ht.2.1 hc
      · decide
      · exact dx ht.2.2.2 hc

theorem span_text_unique (hf : DayCount f) {t : Str} {S E S' E' : DateRange} (h : SpanOf f t S E) (h' : SpanOf f t S' E') : S = S' ∧ E = E' := by
  have := spanOf_ok hf h
  rw [spanOf_ok hf h'] at this
  injection this with this
  injection this with e1 e2
  injection e1 with e1
  injection e2 with e2
  exact ⟨e1.symm, e2.symm⟩

/-- The range of a text runs from the start of its span to the end. -/
theorem range_of_span (hf : DayCount f) {t : Str} {R S E : DateRange} (hR : RangeOf f t R) (h : SpanOf f t S E) : R.lower = S.lower ∧ R.upper = E.upper := by
  cases hR with
  | absent => exact absurd rfl (span_ends h).1
  | date e he y1 m1 d1 y2 m2 d2 hr =>
    obtain ⟨rfl, rfl⟩ := span_text_unique hf h (.date e he y1 m1 d1 y2 m2 d2 hr)
    exact ⟨rfl, rfl⟩

theorem date_runs {x : Date0} (h : x.ok) : (dateE x).date.Runs x.value x.first.1 x.first.2 x.value x.last.1 x.last.2 := by
  have V1 := Date0.valid_first h
  have V2 := Date0.valid_last h
  obtain ⟨neg, n, t⟩ := x
  cases t with
  | none => exact ⟨.digits neg n h.1, .absent, .absent, V1, V2⟩
  | month m => exact ⟨.digits neg n h.1, .digits m h.2.1 h.2.2, .absent, V1, V2⟩
  | day m d => exact ⟨.digits neg n h.1, .digits m V1.1 V1.2.1, .digits d V1.2.2.1 (Nat.le_trans V1.2.2.2 (monthLen_pos _ _).2), V1, V2⟩

theorem names_plain (hf : DayCount f) {x : Date0} (h : x.ok) {R : DateRange} (hR : RangeOf f x.text R) : Names f x.text R := by
  have hs := SpanOf.date (f := f) (dateE x) (dateE_ok x).1 _ _ _ _ _ _ (date_runs h)
  rw [dateE_text] at hs
  obtain ⟨e1, e2⟩ := range_of_span hf hR hs
  exact names_date h e1 e2 (ts_start ..) (ts_end ..) (Int.le_refl _) (Int.le_refl _)

theorem names_of_span (hf : DayCount f) {t : Str} {R S E : DateRange} (hR : RangeOf f t R) (h : SpanOf f t S E) {k : Str} {n : Int}
    (hd : Denotes f t ⟨some S, some E, t, n, k⟩) : Names f t R := by
  obtain ⟨a, a', b', b, ta, ta', tb', tb, h1, h2, h3, h4, k1, k2, k3, k4, l1, l2, -⟩ := span_le hf h
  obtain ⟨e1, e2⟩ := range_of_span hf hR h
  exact names_time hd rfl rfl h1 h4 (e1.trans h1) (e2.trans h4) k1 k4 k1 k4 (Int.le_refl _) (Int.le_refl _)

theorem names_loose (hf : DayCount f) {x : XDate} (h : x.ok) (hn : x.neg = false) (hX : 'X' ∈ x.text) (h1 : 'X' ∉ x.year) (h2 : 'X' ∉ x.mx)
    {R : DateRange} {y1 y2 : Int} {m1 d1 m2 d2 : Nat} (hr : x.Runs y1 m1 d1 y2 m2 d2) {l u : Date} (e1 : R.lower = some l) (e2 : R.upper = some u)
    (t1 : l.timestamp = some (86400 * f y1 m1 d1)) (t2 : u.timestamp = some (86400 * f y2 m2 d2 + 86399)) : Names f x.text R := by
  obtain ⟨neg, y, t⟩ := x
  simp only at hn h1
  subst hn
  obtain ⟨hy, hm, hd, V1, V2⟩ := hr
  simp only at hy
  cases hy with
  | unspecified a ha hb hc => simp at h1
  | digits _ n hn =>
    cases t with
    | none => simp [XDate.text] at hX; exact absurd hX h1
    | month m =>
      exfalso
      simp [XDate.text, XDate.mx] at hX h2
      exact hX.elim h1 h2
    | day m d =>
      simp only [XDate.mx] at hm h2
      simp only [XDate.dx] at hd
      have hX' : 'X' ∈ d := by
        simp [XDate.text] at hX
        exact (hX.resolve_left h1).resolve_left h2
      clear hX
      cases hm with
      | absent => have := h.2.2.1; simp at this
      | any => simp at h2
      | zero => simp at h2
      | one => simp at h2
      | digits m a1 a2 =>
        have go : ∀ a b : Char, LooseDay a b → Names f (⟨false, pad4 n, .day (pad2 m1) [a, b]⟩ : XDate).text R := by
          intro a b hab
          have := Denotes.month (f := f) false n m1 hn a1 a2 n rfl (Or.inl (by omega)) ['-', a, b] (.loose a b hab)
          rw [show signed false (pad4 n) ++ '-' :: (pad2 m1 ++ ['-', a, b]) = (⟨false, pad4 n, .day (pad2 m1) [a, b]⟩ : XDate).text by
            simp [XDate.text, signed]] at this
          have hp := monthLen_pos (n : Int) m1
          have W1 : Valid (n : Int) m1 1 := ⟨a1, a2, Nat.le_refl _, by omega⟩
          have W2 : Valid (n : Int) m1 (monthLen n m1) := ⟨a1, a2, by omega, Nat.le_refl _⟩
          have le1 := day_order hf W1 V1 (.inr ⟨rfl, .inr ⟨rfl, V1.2.2.1⟩⟩)
          have le2 := day_order hf V2 W2 (.inr ⟨rfl, .inr ⟨rfl, V2.2.2.2⟩⟩)
          have v : ∀ d, (dayOf (n : Int) m1 d).value = n := by
            intro d
            have : decide ((n : Int) < 0) = false := by simp
            simp [dayOf, Date0.value, this]
          refine names_time this rfl rfl rfl rfl e1 e2 (ts_start ..) (ts_end ..) t1 t2 ?_ ?_
          · rw [v]; exact Int.mul_le_mul_of_nonneg_left le1 (by decide)
          · rw [v]; exact Int.add_le_add_right (Int.mul_le_mul_of_nonneg_left le2 (by decide)) _
        cases hd with
        | absent => simp at hX'
        | zero => simp at hX'
        | any => exact go _ _ (by decide)
        | tens1 => exact go _ _ (by decide)
        | tens2 => exact go _ _ (by decide)
        | tens3 => exact go _ _ (by decide)
        | digits d b1 b2 =>
          exfalso
          exact (by decide : ∀ d < 32, 'X' ∉ pad2 d) d1 (by omega) hX'

/-- An end of an interval that is accepted alone is a name for its range. -/
theorem names_endpoint (hf : DayCount f) {e : Endpoint} (h : e.Readable) (hr : noRight e.qy e.qm e.qd) (ha : e.alone) {R : DateRange}
    (hR : RangeOf f e.text R) : Names f e.text R := by
  have plain : e.plain → Names f e.text R := by
    intro hp
    obtain ⟨z, hz, ez⟩ := plain_date h hp
    rw [ez] at hR ⊢
    exact names_plain hf hz hR
  rcases ha with hp | ⟨hn, hx⟩
  · exact plain hp
  obtain ⟨S, E, hs⟩ := span_exists f h
  by_cases hX : 'X' ∈ e.text
  · obtain ⟨x, qy, qm, qd⟩ := e
    obtain ⟨q1, q2, q3⟩ := hx hX
    simp only at q1 q2 q3
    subst q1 q2 q3
    obtain ⟨hsh, y1, y2, m1, m2, d1, d2, hruns⟩ := h
    have hs := SpanOf.date (f := f) _ hsh _ _ _ _ _ _ hruns
    have hox : x.ok := hsh.1
    obtain ⟨e1, e2⟩ := range_of_span hf hR hs
    simp only at e1 e2
    rw [endpoint_plain] at hs hX hR ⊢
    by_cases hX' : 'X' ∈ x.year ∨ 'X' ∈ x.mx
    · exact names_of_span hf hR hs (.unspecified x hox hn hX' _ _ hs)
    · exact names_loose hf hox hn hX (fun k => hX' (Or.inl k)) (fun k => hX' (Or.inr k)) hruns e1 e2 (ts_start ..) (ts_end ..)
  · by_cases hl : noLeft e.qy e.qm e.qd
    · by_cases h0 : e.date.dx = c! "00"
      · exact names_of_span hf hR hs (.group e h.1 hn hX hl (.inr h0) S E hs)
      · refine plain ⟨?_, h0⟩
        have none : ∀ q ∈ [e.qy, e.qm, e.qd], q = .none := by
          intro q hq
          have k1 := hl q hq
          have k2 := hr q hq
          cases q <;> simp_all [Deco.isLeft, Deco.isRight]
        obtain ⟨x, qy, qm, qd⟩ := e
        have q1 : qy = .none := none _ (by simp)
        have q2 : qm = .none := none _ (by simp)
        have q3 : qd = .none := none _ (by simp)
        subst q1 q2 q3
        rw [endpoint_plain] at hX ⊢
        intro c hc hm
        rcases List.mem_cons.1 hc with rfl | hc
        · exact hX hm
        · have : isQ c = false := xtext_no_qual h.1.1 hm
          have : c = '?' ∨ c = '~' ∨ c = '%' := by simpa using hc
          rcases this with rfl | rfl | rfl <;> contradiction
    · exact names_of_span hf hR hs (.individual e h.1 hn hX hr hl S E hs)

/-! ### The ends that are accepted alone -/

theorem dx_of {w : Str} (h : ∀ c ∈ w, XDigit c) {c : Char} (hc : c ∈ w) : isDX c = true := xdigit_iff.1 (h c hc)

theorem last_plain {e : Endpoint} (h : e.shape) (hr : noRight e.qy e.qm e.qd) {w : Str} {q : Char} (he : e.text = w ++ [q]) : isQ q = false := by
  have clear : ∀ {c : Char}, isDX c = true → isQ c = false := by
    intro c hc
    rcases xdigit_iff.2 hc with rfl | ⟨k, hk, rfl⟩
    · decide
    · exact (by decide : ∀ k < 10, isQ (dig k) = false) k hk
  have part : ∀ {d : Deco} {v : Str}, d ∈ [e.qy, e.qm, e.qd] → v ≠ [] → (d.text v).getLast? = v.getLast? := by
    intro d v hd hv
    have := hr d hd
    cases d with
    | none => rfl
    | left c => simp [Deco.text, List.getLast?_cons, List.getLast?_eq_some_getLast hv]
    | right c => simp [Deco.isRight] at this
  have lastq : e.text.getLast? = some q := by rw [he]; simp
  have ne : ∀ {v : Str} {k : Nat}, v.length = k + 1 → v ≠ [] := by
    rintro v k hl rfl
    simp at hl
  obtain ⟨⟨neg, y, t⟩, qy, qm, qd⟩ := e
  obtain ⟨⟨hl, hy, hx⟩, o1, o2, o3, ht⟩ := h
  simp only at hl hy hx part
  have fin : ∀ {v : Str}, (∀ c ∈ v, XDigit c) → v.getLast? = some q → isQ q = false :=
    fun hv hq => clear (dx_of hv (List.mem_of_getLast? hq))
  cases t with
  | none =>
    simp only [Endpoint.text, List.append_nil] at lastq
    rw [part (by simp) (by cases neg <;> simp [ne hl])] at lastq
    refine fin hy ?_
    cases neg with
    | false => simpa using lastq
    | true => simpa [List.getLast?_cons, List.getLast?_eq_some_getLast (ne hl)] using lastq
  | month m =>
    have hm := ne hx.1
    have hne : qm.text m ≠ [] := by cases qm <;> simp [Deco.text, hm]
    simp only [Endpoint.text] at lastq
    rw [List.getLast?_append, List.getLast?_cons, List.getLast?_eq_some_getLast hne] at lastq
    refine fin hx.2 ?_
    rw [← part (d := qm) (by simp) hm, List.getLast?_eq_some_getLast hne]
    simpa using lastq
  | day m d =>
    have hd := ne hx.2.2.1
    have hne : qd.text d ≠ [] := by cases qd <;> simp [Deco.text, hd]
    simp only [Endpoint.text] at lastq
    rw [List.getLast?_append, List.getLast?_cons, List.getLast?_append, List.getLast?_cons, List.getLast?_eq_some_getLast hne] at lastq
    refine fin hx.2.2.2 ?_
    rw [← part (d := qd) (by simp) hd, List.getLast?_eq_some_getLast hne]
    simpa using lastq

theorem sign_head {e : Endpoint} (h : e.shape) (hr : noRight e.qy e.qm e.qd) (hn : e.date.neg = true) :
    ∃ t, e.text = '-' :: t ∨ ∃ q, e.text = q :: '-' :: t := by
  have := hr e.qy (by simp)
  obtain ⟨⟨neg, y, t⟩, qy, qm, qd⟩ := e
  simp only at hn this
  subst hn
  cases qy with
  | none => exact ⟨_, .inl rfl⟩
  | left q => exact ⟨_, .inr ⟨q, rfl⟩⟩
  | right q => simp [Deco.isRight] at this

theorem e_second {e : Endpoint} (h : e.shape) (hn : e.date.neg = false) (q : Char) (t : Str) : e.text ≠ q :: '-' :: t := by
  obtain ⟨⟨neg, yy, tl⟩, qy, qm, qd⟩ := e
  obtain ⟨⟨hl, hy, hx⟩, o1, o2, o3, ht⟩ := h
  simp only at hn hl hy o1
  subst hn
  intro e
  match yy, hl with
  | [a, b, c, d], _ =>
    have ha := xdigit_iff.1 (hy a (by simp))
    have hb := xdigit_iff.1 (hy b (by simp))
    cases qy with
    | none => injection e with _ e; injection e with e _; subst e; exact absurd hb (by decide)
    | left q => injection e with _ e; injection e with e _; subst e; exact absurd ha (by decide)
    | right q => injection e with _ e; injection e with e _; subst e; exact absurd hb (by decide)

/-- A short text of digits and signs is a date of Level 0. -/
theorem plain_short {e : Endpoint} (h : e.shape) (hc : ∀ c ∈ e.text, isDig c = true ∨ c = '-') (hl : e.text.length < 10) : e.plain := by
  have hq : ∀ c ∈ c! "X?~%", c ∉ e.text := by
    intro c hc' hm
    have : c = 'X' ∨ c = '?' ∨ c = '~' ∨ c = '%' := by simpa using hc'
    rcases hc c hm with k | k <;> rcases this with rfl | rfl | rfl | rfl <;> revert k <;> decide
  refine ⟨hq, fun h0 => ?_⟩
  obtain ⟨-, h2⟩ := plain_none h hq
  rw [h2] at hl
  obtain ⟨⟨neg, y, t⟩, qy, qm, qd⟩ := e
  have hy := h.1.1
  have hx := h.1.2.2
  simp only at hy hx h0 hl
  cases t with
  | none => cases h0
  | month m => cases h0
  | day m d =>
    simp only [XDate.text, List.length_append, List.length_cons, hy, hx.1, hx.2.2.1] at hl
    omega

theorem signed_chars {neg : Bool} {n k : Nat} {c : Char} (h : c ∈ signed neg (pad4 n) ++ '-' :: pad2 k) : isDig c = true ∨ c = '-' := by
  have h4 : ∀ c ∈ pad4 n, isDig c = true := List.all_eq_true.1 (pad4_all n)
  have h2 : ∀ c ∈ pad2 k, isDig c = true := List.all_eq_true.1 (pad2_all k)
  rcases List.mem_append.1 h with h | h
  · cases neg with
    | false => exact .inl (h4 c h)
    | true =>
      rcases List.mem_cons.1 h with h | h
      · exact .inr h
      · exact .inl (h4 c h)
  · rcases List.mem_cons.1 h with h | h
    · exact .inr h
    · exact .inl (h2 c h)

theorem pad4_head (n : Nat) : ∃ a b t, pad4 n = a :: b :: t ∧ isDig a = true ∧ isDig b = true := by
  have h4 : ∀ c ∈ pad4 n, isDig c = true := List.all_eq_true.1 (pad4_all n)
  exact ⟨_, _, _, rfl, h4 _ (by simp [pad4]), h4 _ (by simp [pad4])⟩

theorem alone_of_accepted {e : Endpoint} (h : e.Readable) (hr : noRight e.qy e.qm e.qd) (ha : Accepted e.text) : e.alone := by
  have no : ∀ {c : Char}, isDX c = false → c ≠ '-' → isQ c = false → c ∉ e.text := fun h1 h2 h3 => e_not_mem h.1 h1 h2 h3
  have isQ_of : ∀ {q : Char}, q ∈ c! "?~%" → isQ q = true := by
    intro q hq
    rcases q_mem.1 hq with rfl | rfl | rfl <;> rfl
  have last : ∀ {w : Str} {q : Char}, q ∈ c! "?~%" → e.text ≠ w ++ [q] := by
    intro w q hq he
    have := last_plain h.1 hr he
    rw [isQ_of hq] at this
    cases this
  -- not signed, and no qualifier beside an unspecified digit
  have ok : (∀ t, e.text ≠ '-' :: t) → (∀ q t, e.text ≠ q :: '-' :: t) → ((∃ q ∈ c! "?~%", q ∈ e.text) → 'X' ∉ e.text) → e.alone := by
    intro k1 k2 k3
    refine .inr ⟨?_, ?_⟩
    · cases hn : e.date.neg with
      | false => rfl
      | true =>
        obtain ⟨t, k | ⟨q, k⟩⟩ := sign_head h.1 hr hn
        · exact absurd k (k1 t)
        · exact absurd k (k2 q t)
    · intro hX
      exact no_deco h.1 (fun q hq hm => k3 ⟨q, hq, hm⟩ hX)
  generalize ht : e.text = s at ha
  cases ha with
  | unknown => exact absurd ht (e_nonempty h.1)
  | opened => exact absurd (by rw [ht]; decide) (no (c := '.') (by decide) (by decide) (by decide))
  | date x hx => exact .inl (plain_of_date h.1 (Date0.ok_shape hx) ht)
  | time neg y m d hh mi ss z =>
    exact absurd (by rw [ht, clockText_eq]; simp) (no (c := 'T') (by decide) (by decide) (by decide))
  | interval a b => exact absurd (by rw [ht]; simp) (no (c := '/') (by decide) (by decide) (by decide))
  | startless t _ x => exact absurd (by rw [ht]; simp) (no (c := '/') (by decide) (by decide) (by decide))
  | endless neg n _ t => exact absurd (by rw [ht]; simp) (no (c := '/') (by decide) (by decide) (by decide))
  | qualifiedYear neg n hn q hq => exact absurd ht (last hq)
  | single e' he hn hq hx =>
    refine ok (fun t k => e_head he.1 hn t (by rw [← ht, k])) (fun q t k => e_second he.1 hn q t (by rw [← ht, k])) ?_
    rintro ⟨q, hq', hm⟩ hX
    rw [ht] at hm hX
    obtain ⟨q1, q2, q3⟩ := hx hX
    obtain ⟨x, qy, qm, qd⟩ := e'
    simp only at q1 q2 q3
    subst q1 q2 q3
    rw [endpoint_plain] at hm
    have := xtext_no_qual he.1.1 hm
    rw [isQ_of hq'] at this
    cases this
  | month neg n m hn h1 h2 hy t hA =>
    cases hA with
    | qualifier _ q hq => exact absurd (by rw [ht]; simp) (last (w := signed neg (pad4 n) ++ '-' :: pad2 m) hq)
    | dayQualifier _ d _ _ q hq => exact absurd (by rw [ht]; simp) (last (w := signed neg (pad4 n) ++ '-' :: (pad2 m ++ '-' :: pad2 d)) hq)
    | ended _ t _ => exact absurd (by rw [ht]; simp) (no (c := '/') (by decide) (by decide) (by decide))
    | dayEnded _ d _ _ t _ => exact absurd (by rw [ht]; simp) (no (c := '/') (by decide) (by decide) (by decide))
    | loose a b hab =>
      obtain ⟨c1, c2, t, e4, i1, i2⟩ := pad4_head n
      refine ok ?_ ?_ ?_
      · intro t' k
        rw [ht, e4] at k
        injection k with k _
        subst k
        cases i1
      · intro q t' k
        rw [ht, e4] at k
        injection k with _ k
        injection k with k _
        subst k
        cases i2
      · rintro ⟨q, hq, hm⟩ -
        rw [ht, show signed false (pad4 n) ++ '-' :: (pad2 m ++ ['-', a, b]) = (signed false (pad4 n) ++ '-' :: pad2 m) ++ ['-', a, b] by simp] at hm
        have hq' := isQ_of hq
        rcases List.mem_append.1 hm with hm | hm
        · rcases signed_chars hm with k | rfl
          · rcases q_mem.1 hq with rfl | rfl | rfl <;> cases k
          · cases hq'
        · obtain ⟨la, lb⟩ := loose_chars hab
          have tb : ∀ c ∈ c! "0123456789Xx", isQ c = false := by decide
          simp only [List.mem_cons, List.not_mem_nil, or_false] at hm
          rcases hm with rfl | rfl | rfl
          · cases hq'
          · rw [tb _ la] at hq'; cases hq'
          · rw [tb _ lb] at hq'; cases hq'
  | season neg n hn z =>
    refine .inl (plain_short h.1 (fun c hc => signed_chars (ht ▸ hc)) ?_)
    rw [ht]
    cases neg <;> simp [signed, pad4, pad2]
  | seasonName z w t1 t2 n => exact absurd (by rw [ht]; simp) (no (c := ',') (by decide) (by decide) (by decide))
  | letter neg n => exact absurd (by rw [ht]; simp) (no (c := 'Y') (by decide) (by decide) (by decide))
  | exponential yc ec hy =>
    rcases mem_Yy.1 hy with rfl | rfl
    · exact absurd (by rw [ht]; simp) (no (c := 'Y') (by decide) (by decide) (by decide))
    · exact absurd (by rw [ht]; simp) (no (c := 'y') (by decide) (by decide) (by decide))
  | significant t v hv ds => exact absurd (by rw [ht]; simp) (no (c := 'S') (by decide) (by decide) (by decide))
  | grouping n hn g =>
    refine .inl (plain_short h.1 (fun c hc => signed_chars (neg := false) (ht ▸ hc)) ?_)
    rw [ht]
    simp [pad4, pad2]
  | set o c hb =>
    rcases hb.1 with rfl | rfl
    · exact absurd (by rw [ht]; simp) (no (c := '[') (by decide) (by decide) (by decide))
    · exact absurd (by rw [ht]; simp) (no (c := '{') (by decide) (by decide) (by decide))

/-! ### The members of sets -/

theorem date_tail3 {x : Date0} (h : x.shaped) : ∃ (v : Str) (p a b : Char), x.text = v ++ [p, a, b] ∧ [p, a, b] ≠ c! "-00" := by
  obtain ⟨neg, n, t⟩ := x
  obtain ⟨hn, ht⟩ := h
  have two : ∀ k, 1 ≤ k → k ≤ 31 → pad2 k ≠ c! "00" := by
    intro k h1 h2 e
    have := pad2_inj (a := k) (b := 0) (by omega) (by omega) e
    omega
  cases t with
  | none =>
    refine ⟨(if neg then ['-'] else []) ++ [dig (n / 1000 % 10)], dig (n / 100 % 10), dig (n / 10 % 10), dig (n % 10), ?_, ?_⟩
    · rw [date0_year]
      cases neg <;> simp [yearStr, sgn, pad4]
    · intro e
      injection e with e _
      have := List.all_eq_true.1 (pad4_all n) (dig (n / 100 % 10)) (by simp [pad4])
      rw [e] at this
      cases this
  | month m =>
    refine ⟨yearStr neg n, '-', dig (m / 10 % 10), dig (m % 10), ?_, ?_⟩
    · have := month_text (neg := neg) (n := n) (m := m) (t := [])
      simp only [List.append_nil] at this
      rw [this]
      rfl
    · intro e
      injection e with _ e
      exact two m ht.1 (Nat.le_trans ht.2 (by decide)) e
  | day m d =>
    refine ⟨yearStr neg n ++ '-' :: pad2 m, '-', dig (d / 10 % 10), dig (d % 10), ?_, ?_⟩
    · have := day_text (neg := neg) (n := n) (m := m) (d := d) (t := [])
      simp only [List.append_nil] at this
      rw [this]
      simp [pad2]
    · intro e
      injection e with _ e
      exact two d ht.2.2.1 ht.2.2.2 e

theorem run_tail3 {r : List Date0} (h : RunOk r) : ∃ (v : Str) (p a b : Char), runText r = v ++ [p, a, b] ∧ [p, a, b] ≠ c! "-00" := by
  obtain ⟨h0, h⟩ := h
  induction r with
  | nil => exact absurd rfl h0
  | cons x r ih =>
    cases r with
    | nil =>
      obtain ⟨v, p, a, b, e, k⟩ := date_tail3 (h x (by simp))
      exact ⟨v, p, a, b, by simp [runText, e], k⟩
    | cons y r =>
      obtain ⟨v, p, a, b, e, k⟩ := ih (by simp) (fun z hz => h z (List.mem_cons_of_mem _ hz))
      exact ⟨x.text ++ v, p, a, b, by rw [runText, e]; simp, k⟩

theorem e_tail00 {e : Endpoint} (h : e.date.dx = c! "00") : ∃ v, e.date.text = v ++ c! "-00" := by
  obtain ⟨⟨neg, y, t⟩, qy, qm, qd⟩ := e
  cases t with
  | none => cases h
  | month m => cases h
  | day m d =>
    have h : d = c! "00" := h
    subst h
    exact ⟨(if neg then ['-'] else []) ++ y ++ '-' :: m, by simp [XDate.text]⟩

/-- A member of a set that can be read is a date that exists. -/
theorem run_date {r : List Date0} (hr : RunOk r) {e : Endpoint} (h : e.Readable) (he : e.text = runText r) : ∃ z : Date0, z.ok ∧ e.text = z.text := by
  have hq : ∀ c ∈ c! "X?~%", c ∉ e.text := by
    intro c hc
    rw [he]
    have : c = 'X' ∨ c = '?' ∨ c = '~' ∨ c = '%' := by simpa using hc
    rcases this with rfl | rfl | rfl | rfl <;> exact runText_not_mem r (by decide) (by decide)
  refine plain_date h ⟨hq, fun h0 => ?_⟩
  obtain ⟨-, h2⟩ := plain_none h.1 hq
  obtain ⟨v, ev⟩ := e_tail00 h0
  obtain ⟨w, p, a, b, ew, k⟩ := run_tail3 hr
  rw [← h2, he, ew] at ev
  exact k (List.append_inj_right' ev rfl)

theorem member_run {cs : List Chunk} (hc : ∀ c ∈ cs, c.ok) {t : Str} (h : t ∈ cs.flatMap Chunk.members) : t = [] ∨ ∃ r, RunOk r ∧ t = runText r := by
  obtain ⟨c, hm, ht⟩ := List.mem_flatMap.1 h
  have ok := hc c hm
  cases c with
  | run r => exact .inr ⟨r, ok, by simpa [Chunk.members] using ht⟩
  | pair a b =>
    have : t = runText a ∨ t = runText b := by simpa [Chunk.members] using ht
    rcases this with rfl | rfl
    · exact .inr ⟨a, ok.1, rfl⟩
    · exact .inr ⟨b, ok.2, rfl⟩
  | upTo r => exact .inr ⟨r, ok, by simpa [Chunk.members] using ht⟩
  | onFrom r => exact .inr ⟨r, ok, by simpa [Chunk.members] using ht⟩
  | blank => exact .inl (by simpa [Chunk.members] using ht)
  | dots => exact .inl (by simpa [Chunk.members] using ht)

theorem member_date {cs : List Chunk} (hc : ∀ c ∈ cs, c.ok) {t : Str} (h : t ∈ cs.flatMap Chunk.members) (hr : Reads t) : ∃ z : Date0, z.ok ∧ t = z.text := by
  obtain ⟨e, he, rfl⟩ := hr
  rcases member_run hc h with k | ⟨r, hr, k⟩
  · exact absurd k (e_nonempty he.1)
  · exact run_date hr he k

/-- A member of a set names its range. -/
theorem names_member (hf : DayCount f) {cs : List Chunk} (hc : ∀ c ∈ cs, c.ok) {t : Str} (h : t ∈ cs.flatMap Chunk.members) {R : DateRange}
    (hR : RangeOf f t R) : Names f t R := by
  cases hR with
  | absent => exact names_unknown
  | date e he y1 m1 d1 y2 m2 d2 hr =>
    obtain ⟨z, hz, ez⟩ := member_date hc h ⟨e, ⟨he, y1, y2, m1, m2, d1, d2, hr⟩, rfl⟩
    have hR := RangeOf.date (f := f) e he y1 m1 d1 y2 m2 d2 hr
    revert hR
    generalize (⟨e.text, some (e.dawn f y1 m1 d1), some (e.dusk f y2 m2 d2)⟩ : DateRange) = R
    intro hR
    rw [ez] at hR ⊢
    exact names_plain hf hz hR

theorem range_label {t : Str} {R : DateRange} (h : RangeOf f t R) : R.edtf = t := by cases h <;> rfl

theorem names_set (hf : DayCount f) {cs : List Chunk} (hc : ∀ c ∈ cs, c.ok) {p : Prec} {so eo : Bool} {S E : DateRange}
    (h : SetSpan f p (cs.flatMap Chunk.members) so eo S E) (hn : so = true ∨ eo = true → (cs.flatMap Chunk.members).length < 2) :
    Names f S.edtf S ∧ Names f E.edtf E := by
  cases h with
  | one t h S E hs =>
    obtain ⟨a, a', b', b, ta, ta', tb', tb, h1, h2, h3, h4, k1, k2, k3, k4, l1, l2, -⟩ := span_le hf hs
    have lab : S.edtf = t ∧ E.edtf = t := by cases hs; exact ⟨rfl, rfl⟩
    have hr : Reads t := by
      cases hs with
      | date e he y1 m1 d1 y2 m2 d2 hr => exact ⟨e, ⟨he, y1, y2, m1, m2, d1, d2, hr⟩, rfl⟩
    obtain ⟨z, hz, ez⟩ := member_date hc h.1 hr
    have hs' := SpanOf.date (f := f) (dateE z) (dateE_ok z).1 _ _ _ _ _ _ (date_runs hz)
    rw [dateE_text, ← ez] at hs'
    obtain ⟨r1, r2⟩ := span_text_unique hf hs hs'
    have e1 : some a = some ((dateE z).dawn f z.value z.first.1 z.first.2) := by rw [← h1, r1]
    have e4 : some b = some ((dateE z).dusk f z.value z.last.1 z.last.2) := by rw [← h4, r2]
    injection e1 with e1
    injection e4 with e4
    rw [e1] at k1
    rw [e4] at k4
    have s1 : (86400 * f z.value z.first.1 z.first.2) = ta := Option.some.inj ((ts_start ..).symm.trans k1)
    have s4 : (86400 * f z.value z.last.1 z.last.2 + 86399) = tb := Option.some.inj ((ts_end ..).symm.trans k4)
    have f1 : firstSecond f z = ta := s1
    have f4 : lastSecond f z = tb := s4
    show Names f S.edtf (flagged p S) ∧ Names f E.edtf (flagged p E)
    rw [lab.1, lab.2, ez]
    exact ⟨names_flagged (names_date hz h1 h2 (by rw [e1]; exact k1) k2 (by omega) (by omega)),
      names_flagged (names_date hz h3 h4 k3 (by rw [e4]; exact k4) (by omega) (by omega))⟩
  | closed a b h hab R S hR hS =>
    show Names f R.edtf (flagged p R) ∧ Names f S.edtf (flagged p S)
    rw [range_label hR, range_label hS]
    exact ⟨names_flagged (names_member hf hc h.1 hR), names_flagged (names_member hf hc h.2.1 hS)⟩
  | upTo1 t h R hR =>
    show Names f (c! "..") _ ∧ Names f R.edtf (flagged p R)
    rw [range_label hR]
    exact ⟨names_open, names_flagged (names_member hf hc (by rw [h]; simp) hR)⟩
  | onFrom1 t h R hR =>
    show Names f R.edtf (flagged p R) ∧ Names f (c! "..") _
    rw [range_label hR]
    exact ⟨names_flagged (names_member hf hc (by rw [h]; simp) hR), names_open⟩
  | upTo a b h h2 R S hR hS => have := hn (.inl rfl); omega
  | onFrom a b h h2 R S hR hS => have := hn (.inr rfl); omega
  | both a b h h2 R S hR hS => have := hn (.inl rfl); omega

end EDTF
