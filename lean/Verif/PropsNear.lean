/-
C99: comparisons see only the nearest ends.
-/
import Verif.SpecNear
import Verif.PropsOrder
import Verif.PropsSame
import Verif.PropsClock
import Verif.PropsSort
namespace EDTF
open Spec

variable {f : Int → Nat → Nat → Int}

theorem firstOf_unique {s : Str} {o o' : Option Int} (h : FirstOf s o) (k : FirstOf s o') : o = o' := by
  obtain ⟨d, a, b, c, p, h⟩ := h
  obtain ⟨d', a', b', c', p', k⟩ := k
  rw [p] at p'; cases p'
  exact (bounds_unique h k).1

theorem lastOf_unique {s : Str} {o o' : Option Int} (h : LastOf s o) (k : LastOf s o') : o = o' := by
  obtain ⟨d, a, b, c, p, h⟩ := h
  obtain ⟨d', a', b', c', p', k⟩ := k
  rw [p] at p'; cases p'
  exact (bounds_unique h k).2.2.2

theorem ends_of {s : Str} {d : EDTFDate} (h : parseString s = .ok d) : ∃ p q, FirstOf s p ∧ LastOf s q := by
  obtain ⟨a, b, c, e, k⟩ := bounds_of dayCount_unixDay h
  exact ⟨a, e, ⟨d, b, c, e, h, k⟩, d, a, b, c, h, k⟩

theorem spans_ends {s : Str} {l u : Int} (h : Spans s l u) : FirstOf s (some l) ∧ LastOf s (some u) := by
  obtain ⟨d, p, h1, h2⟩ := h
  obtain ⟨a, b, c, e, k⟩ := bounds_of dayCount_unixDay p
  have e1 := (lower_bounds k).symm.trans h1
  have e2 := (upper_bounds k).symm.trans h2
  cases a with
  | none => cases e1
  | some a =>
    cases e with
    | none => cases e2
    | some e =>
      cases e1
      cases e2
      exact ⟨⟨d, b, c, _, p, k⟩, d, _, b, c, p, k⟩

theorem ends_spans {s : Str} {l u : Int} (h : FirstOf s (some l)) (k : LastOf s (some u)) : Spans s l u := by
  obtain ⟨d, a, b, c, p, h⟩ := h
  obtain ⟨d', a', b', c', p', k⟩ := k
  rw [p] at p'; cases p'
  exact ⟨d, p, lower_bounds h, upper_bounds k⟩

/-- A second that bounds a text can be written as a time of day. -/
theorem second_written {i : Int} {y : Int} {m d hh mi ss : Nat} (V : Valid y m d) (hy : y.natAbs < 10000) (h1 : hh < 24) (h2 : mi < 60) (h3 : ss < 60)
    (e : i = 86400 * U y m d + (3600 * hh + 60 * mi + ss : Nat)) : ∃ t, Spans t i i := by
  have a : U (-9999) 1 1 ≤ U y m d := day_order dayCount_unixDay (show Valid (-9999) 1 1 by decide) V (by
    obtain ⟨_, _, _, _⟩ := V
    unfold dayLe; omega)
  have b : U y m d < U 10000 1 1 := day_lt dayCount_unixDay V (show Valid 10000 1 1 by decide) (.inl (by omega))
  obtain ⟨t, ⟨d, p, -, h1, h2⟩, -⟩ := C94_every (f := U) dayCount_unixDay (i := i) (by omega) (by omega)
  exact ⟨t, d, p, h1, h2⟩

theorem bd_written {b : Date} {i : Int} (h : Bd b) (e : b.timestamp = some i) : ∃ t, Spans t i i := by
  rcases h with ⟨y, m, d, hh, mi, ss, u, a, p, i, V, hy, h1, h2, h3, rfl⟩ | ⟨i, rfl⟩ | ⟨i, rfl⟩
  · injection e with e
    exact second_written V hy h1 h2 h3 e.symm
  · cases e
  · cases e

theorem ends_written {s : Str} {i : Int} (h : FirstOf s (some i) ∨ LastOf s (some i)) : ∃ t, Spans t i i := by
  obtain ⟨d, p, q, a, b, p', hb, hi⟩ : ∃ d p q a b, parseString s = .ok d ∧ Bounds d p a b q ∧ (p = some i ∨ q = some i) := by
    rcases h with ⟨d, a, b, c, p, h⟩ | ⟨d, a, b, c, p, h⟩
    · exact ⟨d, _, _, _, _, p, h, .inl rfl⟩
    · exact ⟨d, _, _, _, _, p, h, .inr rfl⟩
  obtain ⟨es, ee, sl, su, el, eu, h1, h2, t1, t2, t3, t4⟩ := hb
  rcases parse_shape p' with ⟨ea, eb, al, au, bl, bu, k1, k2, b1, b2, b3, b4⟩ | ⟨y, m, dd, hh, mi, ss, V, k1, k2, k3, k4, k5, rfl⟩
  · rw [h1] at k1; rw [h2] at k2
    cases k1; cases k2
    rcases hi with rfl | rfl
    · exact bd_written b1 t1
    · exact bd_written b4 t4
  · cases h1; cases h2
    refine ⟨s, _, p', ?_, ?_⟩
    · rcases hi with rfl | rfl
      · exact congrArg Res.ok (Option.some.inj t1)
      · exact congrArg Res.ok (Option.some.inj t4)
    · rcases hi with rfl | rfl
      · exact congrArg Res.ok (Option.some.inj t1)
      · exact congrArg Res.ok (Option.some.inj t4)

theorem before_known {s t : Str} {p q : Option Int} (hs : LastOf s p) (ht : FirstOf t q) :
    isBefore s t = if s = c! ".." then .ok false else compareBounds p q (fun p q => decide (p ≤ q)) := by
  obtain ⟨d, a, b, c, px, h⟩ := hs
  obtain ⟨d', a', b', c', py, k⟩ := ht
  rw [← before_bounds px py h k]
  unfold isBefore
  rw [px, py]
  rfl

theorem after_known {s t : Str} {p q : Option Int} (hs : FirstOf s p) (ht : LastOf t q) :
    isAfter s t = if s = c! ".." then .ok false else compareBounds p q (fun p q => decide (q ≤ p)) := by
  obtain ⟨d, a, b, c, px, h⟩ := hs
  obtain ⟨d', a', b', c', py, k⟩ := ht
  rw [← after_bounds px py h k]
  unfold isAfter
  rw [px, py]
  rfl

theorem open_ends {p q : Option Int} (h : FirstOf (c! "..") p) (k : LastOf (c! "..") q) : p = none ∧ q = none := by
  have e : parseString (c! "..") = .ok (mkEDTF openDateSpan OPEN (-1) (c! "Open")) := rfl
  have b : Bounds (mkEDTF openDateSpan OPEN (-1) (c! "Open")) none none none none := ⟨_, _, _, _, _, _, rfl, rfl, rfl, rfl, rfl, rfl⟩
  exact ⟨firstOf_unique h ⟨_, _, _, _, e, b⟩, lastOf_unique k ⟨_, _, _, _, e, b⟩⟩

/-- The other text is not accepted: the first text does not matter. -/
theorem refused_right {s s' t : Str} (hs : ∃ d, parseString s = .ok d) (hs' : ∃ d, parseString s' = .ok d) (ht : ¬ ∃ d, parseString t = .ok d) :
    isBefore s t = isBefore s' t ∧ isAfter s t = isAfter s' t ∧ isBefore t s = isBefore t s' ∧ isAfter t s = isAfter t s' := by
  obtain ⟨d, hs⟩ := hs
  obtain ⟨d', hs'⟩ := hs'
  unfold isBefore isAfter
  rw [hs, hs']
  cases e : parseString t with
  | ok x => exact absurd ⟨x, e⟩ ht
  | err x => exact ⟨rfl, rfl, rfl, rfl⟩
  | panic => exact ⟨rfl, rfl, rfl, rfl⟩

theorem accepted_first {s : Str} {o : Option Int} (h : FirstOf s o) : ∃ d, parseString s = .ok d := h.imp fun _ ⟨_, _, _, h, _⟩ => h
theorem accepted_last {s : Str} {o : Option Int} (h : LastOf s o) : ∃ d, parseString s = .ok d := h.imp fun _ ⟨_, _, _, h, _⟩ => h

/-- There is a second, and a text of it. -/
theorem some_second : Spans (c! "2000-01-01T00:00:00Z") 946684800 946684800 := ⟨_, rfl, by decide +kernel, by decide +kernel⟩

/-! ### Only the nearest end counts -/

/-- C99: in the first place of "before", only the last second of a text counts, and whether
the text is "..". -/
theorem C99_first_before {s s' : Str} {p p' : Option Int} (h : LastOf s p) (h' : LastOf s' p') :
    (∀ t, isBefore s t = isBefore s' t) ↔ ((s = c! ".." ↔ s' = c! "..") ∧ p = p') := by
  constructor
  · intro k
    have key : ∀ {x x' : Str} {o o' : Option Int}, LastOf x o → LastOf x' o' → (∀ t, isBefore x t = isBefore x' t) → x = c! ".." → x' = c! ".." := by
      rintro x x' o o' h h' k rfl
      by_cases e : x' = c! ".."
      · exact e
      · exfalso
        cases o' with
        | none =>
          have := k (c! "2000-01-01T00:00:00Z")
          rw [before_known h (spans_ends some_second).1, before_known h' (spans_ends some_second).1, if_pos rfl, if_neg e] at this
          cases this
        | some i =>
          obtain ⟨t, ht⟩ := ends_written (.inr h')
          have := k t
          rw [before_known h (spans_ends ht).1, before_known h' (spans_ends ht).1, if_pos rfl, if_neg e] at this
          simp [compareBounds] at this
    refine ⟨⟨key h h' k, key h' h (fun t => (k t).symm)⟩, ?_⟩
    by_cases e : s = c! ".."
    · have e' := key h h' k e
      subst e e'
      exact lastOf_unique h h'
    · have e' : s' ≠ c! ".." := fun e' => e (key h' h (fun t => (k t).symm) e')
      have eq : ∀ {t i}, Spans t i i → compareBounds p (some i) (fun p q => decide (p ≤ q)) = compareBounds p' (some i) (fun p q => decide (p ≤ q)) := by
        intro t i ht
        have := k t
        rwa [before_known h (spans_ends ht).1, before_known h' (spans_ends ht).1, if_neg e, if_neg e'] at this
      cases p with
      | none =>
        cases p' with
        | none => rfl
        | some i' => exact absurd (eq some_second) (by simp [compareBounds])
      | some i =>
        cases p' with
        | none => exact absurd (eq some_second) (by simp [compareBounds])
        | some i' =>
          obtain ⟨t, ht⟩ := ends_written (.inr h)
          obtain ⟨t', ht'⟩ := ends_written (.inr h')
          have a := eq ht
          have b := eq ht'
          simp only [compareBounds, Int.le_refl, decide_true, Res.ok.injEq, decide_eq_true_eq, eq_comm (a := true)] at a b
          congr 1
          omega
  · rintro ⟨e, rfl⟩ t
    by_cases ht : ∃ d, parseString t = .ok d
    · obtain ⟨d, ht⟩ := ht
      obtain ⟨q, -, hq, -⟩ := ends_of ht
      rw [before_known h hq, before_known h' hq]
      simp only [e]
    · exact (refused_right (accepted_last h) (accepted_last h') ht).1

/-- A month and its last day. -/
example : LastOf (c! "1985-04") (some 483753599) ∧ LastOf (c! "1985-04-30") (some 483753599) :=
  ⟨⟨_, _, _, _, rfl, _, _, _, _, _, _, rfl, rfl, rfl, rfl, rfl, rfl⟩, _, _, _, _, rfl, _, _, _, _, _, _, rfl, rfl, rfl, rfl, rfl, rfl⟩

/-- C99: in the first place of "after", only the first second of a text counts, and whether
the text is "..". -/
theorem C99_first_after {s s' : Str} {p p' : Option Int} (h : FirstOf s p) (h' : FirstOf s' p') :
    (∀ t, isAfter s t = isAfter s' t) ↔ ((s = c! ".." ↔ s' = c! "..") ∧ p = p') := by
  constructor
  · intro k
    have key : ∀ {x x' : Str} {o o' : Option Int}, FirstOf x o → FirstOf x' o' → (∀ t, isAfter x t = isAfter x' t) → x = c! ".." → x' = c! ".." := by
      rintro x x' o o' h h' k rfl
      by_cases e : x' = c! ".."
      · exact e
      · exfalso
        cases o' with
        | none =>
          have := k (c! "2000-01-01T00:00:00Z")
          rw [after_known h (spans_ends some_second).2, after_known h' (spans_ends some_second).2, if_pos rfl, if_neg e] at this
          cases this
        | some i =>
          obtain ⟨t, ht⟩ := ends_written (.inl h')
          have := k t
          rw [after_known h (spans_ends ht).2, after_known h' (spans_ends ht).2, if_pos rfl, if_neg e] at this
          simp [compareBounds] at this
    refine ⟨⟨key h h' k, key h' h (fun t => (k t).symm)⟩, ?_⟩
    by_cases e : s = c! ".."
    · have e' := key h h' k e
      subst e e'
      exact firstOf_unique h h'
    · have e' : s' ≠ c! ".." := fun e' => e (key h' h (fun t => (k t).symm) e')
      have eq : ∀ {t i}, Spans t i i → compareBounds p (some i) (fun p q => decide (q ≤ p)) = compareBounds p' (some i) (fun p q => decide (q ≤ p)) := by
        intro t i ht
        have := k t
        rwa [after_known h (spans_ends ht).2, after_known h' (spans_ends ht).2, if_neg e, if_neg e'] at this
      cases p with
      | none =>
        cases p' with
        | none => rfl
        | some i' => exact absurd (eq some_second) (by simp [compareBounds])
      | some i =>
        cases p' with
        | none => exact absurd (eq some_second) (by simp [compareBounds])
        | some i' =>
          obtain ⟨t, ht⟩ := ends_written (.inl h)
          obtain ⟨t', ht'⟩ := ends_written (.inl h')
          have a := eq ht
          have b := eq ht'
          simp only [compareBounds, Int.le_refl, decide_true, Res.ok.injEq, decide_eq_true_eq, eq_comm (a := true)] at a b
          congr 1
          omega
  · rintro ⟨e, rfl⟩ t
    by_cases ht : ∃ d, parseString t = .ok d
    · obtain ⟨d, ht⟩ := ht
      obtain ⟨-, q, -, hq⟩ := ends_of ht
      rw [after_known h hq, after_known h' hq]
      simp only [e]
    · exact (refused_right (accepted_first h) (accepted_first h') ht).2.1

/-- A year and the interval of its first half. -/
example : FirstOf (c! "1985") (some 473385600) ∧ FirstOf (c! "1985-01/1985-06") (some 473385600) :=
  ⟨⟨_, _, _, _, rfl, _, _, _, _, _, _, rfl, rfl, rfl, rfl, rfl, rfl⟩, _, _, _, _, rfl, _, _, _, _, _, _, rfl, rfl, rfl, rfl, rfl, rfl⟩

/-- C99: in the second place of "before", only the first second counts. -/
theorem C99_second_before {s s' : Str} {p p' : Option Int} (h : FirstOf s p) (h' : FirstOf s' p') :
    (∀ t, isBefore t s = isBefore t s') ↔ p = p' := by
  constructor
  · intro k
    have ne : ∀ {t i}, Spans t i i → t ≠ c! ".." := by
      rintro t i ht rfl
      have := (open_ends (spans_ends ht).1 (spans_ends ht).2).1
      cases this
    have eq : ∀ {t i}, Spans t i i → compareBounds (some i) p (fun p q => decide (p ≤ q)) = compareBounds (some i) p' (fun p q => decide (p ≤ q)) := by
      intro t i ht
      have := k t
      rwa [before_known (spans_ends ht).2 h, before_known (spans_ends ht).2 h', if_neg (ne ht), if_neg (ne ht)] at this
    cases p with
    | none =>
      cases p' with
      | none => rfl
      | some i' => exact absurd (eq some_second) (by simp [compareBounds])
    | some i =>
      cases p' with
      | none => exact absurd (eq some_second) (by simp [compareBounds])
      | some i' =>
        obtain ⟨t, ht⟩ := ends_written (.inl h)
        obtain ⟨t', ht'⟩ := ends_written (.inl h')
        have a := eq ht
        have b := eq ht'
        simp only [compareBounds, Int.le_refl, decide_true, Res.ok.injEq, decide_eq_true_eq, eq_comm (a := true)] at a b
        congr 1
        omega
  · rintro rfl t
    by_cases ht : ∃ d, parseString t = .ok d
    · obtain ⟨d, ht⟩ := ht
      obtain ⟨-, q, -, hq⟩ := ends_of ht
      rw [before_known hq h, before_known hq h']
    · exact (refused_right (accepted_first h) (accepted_first h') ht).2.2.1

/-- An open and an unknown start. -/
example : FirstOf (c! "../1985-04") none ∧ FirstOf (c! "") none :=
  ⟨⟨_, _, _, _, rfl, _, _, _, _, _, _, rfl, rfl, rfl, rfl, rfl, rfl⟩, _, _, _, _, rfl, _, _, _, _, _, _, rfl, rfl, rfl, rfl, rfl, rfl⟩

/-- C99: in the second place of "after", only the last second counts. -/
theorem C99_second_after {s s' : Str} {p p' : Option Int} (h : LastOf s p) (h' : LastOf s' p') :
    (∀ t, isAfter t s = isAfter t s') ↔ p = p' := by
  constructor
  · intro k
    have ne : ∀ {t i}, Spans t i i → t ≠ c! ".." := by
      rintro t i ht rfl
      have := (open_ends (spans_ends ht).1 (spans_ends ht).2).1
      cases this
    have eq : ∀ {t i}, Spans t i i → compareBounds (some i) p (fun p q => decide (q ≤ p)) = compareBounds (some i) p' (fun p q => decide (q ≤ p)) := by
      intro t i ht
      have := k t
      rwa [after_known (spans_ends ht).1 h, after_known (spans_ends ht).1 h', if_neg (ne ht), if_neg (ne ht)] at this
    cases p with
    | none =>
      cases p' with
      | none => rfl
      | some i' => exact absurd (eq some_second) (by simp [compareBounds])
    | some i =>
      cases p' with
      | none => exact absurd (eq some_second) (by simp [compareBounds])
      | some i' =>
        obtain ⟨t, ht⟩ := ends_written (.inr h)
        obtain ⟨t', ht'⟩ := ends_written (.inr h')
        have a := eq ht
        have b := eq ht'
        simp only [compareBounds, Int.le_refl, decide_true, Res.ok.injEq, decide_eq_true_eq, eq_comm (a := true)] at a b
        congr 1
        omega
  · rintro rfl t
    by_cases ht : ∃ d, parseString t = .ok d
    · obtain ⟨d, ht⟩ := ht
      obtain ⟨q, -, hq, -⟩ := ends_of ht
      rw [after_known hq h, after_known hq h']
    · exact (refused_right (accepted_last h) (accepted_last h') ht).2.2.2

/-- A season and its last month. -/
example : LastOf (c! "1985-22") (some 494380799) ∧ LastOf (c! "1985-08") (some 494380799) :=
  ⟨⟨_, _, _, _, rfl, _, _, _, _, _, _, rfl, rfl, rfl, rfl, rfl, rfl⟩, _, _, _, _, rfl, _, _, _, _, _, _, rfl, rfl, rfl, rfl, rfl, rfl⟩

/-- **C99.** No comparison tells two texts apart exactly if they begin with the same second and
end with the same second: nothing else about a text can be found out by comparing. -/
theorem C99_indistinct {s s' : Str} {l u l' u' : Int} (h : Spans s l u) (h' : Spans s' l' u') : Indistinct s s' ↔ l = l' ∧ u = u' := by
  obtain ⟨h1, h2⟩ := spans_ends h
  obtain ⟨k1, k2⟩ := spans_ends h'
  have n : ∀ {x a b}, Spans x a b → x ≠ c! ".." := by
    rintro x a b hx rfl
    have := (open_ends (spans_ends hx).1 (spans_ends hx).2).1
    cases this
  unfold Indistinct
  rw [C99_first_before h2 k2, C99_first_after h1 k1, C99_second_before h1 k1, C99_second_after h2 k2]
  simp [n h, n h']

/-- Four ways to write April 1985. -/
example : ∀ t ∈ [c! "1985-04", c! "1985-04-XX", c! "1985-04~", c! "1985-04-01/1985-04-30"], Spans t 481161600 483753599 := by
  intro t ht
  simp only [List.mem_cons, List.not_mem_nil, or_false] at ht
  rcases ht with rfl | rfl | rfl | rfl <;> exact ⟨_, rfl, by decide +kernel, by decide +kernel⟩

/-! ### Intervals -/

theorem same_first {s s' : Str} {d e : EDTFDate} (h : parseString s = .ok d) (h' : parseString s' = .ok e) (k : SameStart d e) {p p' : Option Int}
    (hp : FirstOf s p) (hp' : FirstOf s' p') : p = p' := by
  obtain ⟨d1, _, _, _, q, b1⟩ := hp
  obtain ⟨d2, _, _, _, q', b2⟩ := hp'
  rw [h] at q; rw [h'] at q'
  cases q; cases q'
  obtain ⟨a, a', ⟨S, e1, e2⟩, ⟨S', e1', e2'⟩, t, -⟩ := k
  obtain ⟨_, _, _, _, _, _, g1, -, rfl, -⟩ := b1
  obtain ⟨_, _, _, _, _, _, g1', -, rfl, -⟩ := b2
  rw [g1] at e1; rw [g1'] at e1'
  cases e1; cases e1'; cases e2; cases e2'
  exact t

theorem same_last {s s' : Str} {d e : EDTFDate} (h : parseString s = .ok d) (h' : parseString s' = .ok e) (k : SameStop d e) {p p' : Option Int}
    (hp : LastOf s p) (hp' : LastOf s' p') : p = p' := by
  obtain ⟨d1, _, _, _, q, b1⟩ := hp
  obtain ⟨d2, _, _, _, q', b2⟩ := hp'
  rw [h] at q; rw [h'] at q'
  cases q; cases q'
  obtain ⟨a, a', ⟨S, e1, e2⟩, ⟨S', e1', e2'⟩, t, -⟩ := k
  obtain ⟨_, _, _, _, _, _, -, g1, -, -, -, rfl⟩ := b1
  obtain ⟨_, _, _, _, _, _, -, g1', -, -, -, rfl⟩ := b2
  rw [g1] at e1; rw [g1'] at e1'
  cases e1; cases e1'; cases e2; cases e2'
  exact t

theorem boundary_flags {b : Date} {i : Int} (h : Boundary U b) (e : b.timestamp = some i) : b.isOpen = false ∧ b.unknown = false := by
  rcases h with ⟨h1, h2, -⟩ | ⟨-, -, h⟩ | ⟨-, -, h⟩
  · exact ⟨h1, h2⟩
  · rw [h.2.1] at e; cases e
  · rw [h.2.1] at e; cases e

theorem first_same {s s' : Str} {d e : EDTFDate} (h : parseString s = .ok d) (h' : parseString s' = .ok e) {i : Int} (hp : FirstOf s (some i))
    (hp' : FirstOf s' (some i)) : SameStart d e := by
  obtain ⟨d1, _, _, _, q, b1⟩ := hp
  obtain ⟨d2, _, _, _, q', b2⟩ := hp'
  rw [h] at q; rw [h'] at q'
  cases q; cases q'
  obtain ⟨_, _, _, _, _, _, k1, k2, B, -⟩ := C31_wellformed (f := U) dayCount_unixDay h
  obtain ⟨_, _, _, _, _, _, k1', k2', B', -⟩ := C31_wellformed (f := U) dayCount_unixDay h'
  obtain ⟨_, _, _, _, _, _, g1, -, t, -⟩ := b1
  obtain ⟨_, _, _, _, _, _, g1', -, t', -⟩ := b2
  rw [g1] at k1; rw [g1'] at k1'
  cases k1; cases k1'
  obtain ⟨f1, f2⟩ := boundary_flags B t
  obtain ⟨f1', f2'⟩ := boundary_flags B' t'
  exact ⟨_, _, ⟨_, g1, rfl⟩, ⟨_, g1', rfl⟩, t.trans t'.symm, f1.trans f1'.symm, f2.trans f2'.symm⟩

theorem last_same {s s' : Str} {d e : EDTFDate} (h : parseString s = .ok d) (h' : parseString s' = .ok e) {i : Int} (hp : LastOf s (some i))
    (hp' : LastOf s' (some i)) : SameStop d e := by
  obtain ⟨d1, _, _, _, q, b1⟩ := hp
  obtain ⟨d2, _, _, _, q', b2⟩ := hp'
  rw [h] at q; rw [h'] at q'
  cases q; cases q'
  obtain ⟨_, _, _, _, _, _, k1, k2, -, -, -, B⟩ := C31_wellformed (f := U) dayCount_unixDay h
  obtain ⟨_, _, _, _, _, _, k1', k2', -, -, -, B'⟩ := C31_wellformed (f := U) dayCount_unixDay h'
  obtain ⟨_, _, _, _, _, _, -, g1, -, -, -, t⟩ := b1
  obtain ⟨_, _, _, _, _, _, -, g1', -, -, -, t'⟩ := b2
  rw [g1] at k2; rw [g1'] at k2'
  cases k2; cases k2'
  obtain ⟨f1, f2⟩ := boundary_flags B t
  obtain ⟨f1', f2'⟩ := boundary_flags B' t'
  exact ⟨_, _, ⟨_, g1, rfl⟩, ⟨_, g1', rfl⟩, t.trans t'.symm, f1.trans f1'.symm, f2.trans f2'.symm⟩

/-- The first character of a text without a first second. -/
theorem noLower_head {s : Str} (h : NoLower s) : s = [] ∨ ∃ c r, s = c :: r ∧ c ∈ c! "./[{" := by
  cases h with
  | unknown => exact .inl rfl
  | opened => exact .inr ⟨_, _, rfl, by decide⟩
  | startless l hl x hx =>
    rcases hl with rfl | rfl
    · exact .inr ⟨_, _, rfl, by decide⟩
    · exact .inr ⟨_, _, rfl, by decide⟩
  | set o c hb cs hc hm h =>
    refine .inr ⟨_, _, rfl, ?_⟩
    rcases hb.1 with rfl | rfl <;> decide

theorem lead_head (neg : Bool) (n : Nat) (u : Str) : ∃ c r, signed neg (pad4 n) ++ u = c :: r ∧ (isDig c = true ∨ c = '-') := by
  obtain ⟨a, _, t, e, h, -⟩ := pad4_head n
  cases neg
  · exact ⟨a, _, by rw [e]; rfl, .inl h⟩
  · exact ⟨'-', _, rfl, .inr rfl⟩

theorem lead_lower {neg : Bool} {n : Nat} {u : Str} {p : Option Int} (h : FirstOf (signed neg (pad4 n) ++ u) p) : ∃ i, p = some i := by
  cases p with
  | some i => exact ⟨i, rfl⟩
  | none =>
    exfalso
    obtain ⟨d, a, b, c, q, k⟩ := h
    have k := (C68_lower dayCount_unixDay _).1 ⟨d, a, b, c, q, k⟩
    obtain ⟨x, r, e, hx⟩ := lead_head neg n u
    rw [e] at k
    rcases noLower_head k with k | ⟨x', r', k, hx'⟩
    · cases k
    · cases k
      rcases hx with hx | rfl
      · simp only [List.mem_cons, List.not_mem_nil, or_false] at hx'
        rcases hx' with rfl | rfl | rfl | rfl <;> cases hx
      · revert hx'; decide

theorem lead_upper {neg : Bool} {n : Nat} (hn : n < 10000) {u : Str} {p : Option Int} (h : LastOf (signed neg (pad4 n) ++ u) p) (hu : u.head? ≠ some '/') : ∃ i, p = some i := by
  cases p with
  | some i => exact ⟨i, rfl⟩
  | none =>
    exfalso
    obtain ⟨d, a, b, c, q, k⟩ := h
    have k := (C68_upper dayCount_unixDay _).1 ⟨d, a, b, c, q, k⟩
    obtain ⟨x, r, e, hx⟩ := lead_head neg n u
    generalize es : signed neg (pad4 n) ++ u = s at *
    cases k with
    | unknown => cases e
    | opened => cases e; rcases hx with hx | hx <;> revert hx <;> decide
    | endless neg' n' hn' r' hr' =>
      have te : (⟨neg', n', .none⟩ : Date0).text = signed neg' (pad4 n') ++ [] := by cases neg' <;> simp [signed, Date0.text, Date0.qtext, Deco.text]
      rw [te, List.append_assoc] at es
      have := (signed_cut hn hn' es).2.2
      subst this
      exact hu rfl
    | set o c hb cs hc hm h1 h2 =>
      cases e
      rcases hb.1 with rfl | rfl <;> rcases hx with hx | hx <;> revert hx <;> decide

theorem ten_lead {s : Str} (h : TenDays s) : ∃ n u, n < 10000 ∧ s = signed false (pad4 n) ++ '-' :: u := by
  obtain ⟨n, m, k, hn, -, -, -, rfl⟩ := h
  exact ⟨n, _, hn, rfl⟩

/-- The first and the last second of an interval, beside those of its sides. -/
theorem interval_ends {l r : Str} {d e g : EDTFDate} (hl : parseString l = .ok d) (hr : parseString r = .ok e) (h : parseString (l ++ '/' :: r) = .ok g)
    {p q p' q' : Option Int} (h1 : FirstOf l p) (h2 : LastOf r q) (h3 : FirstOf (l ++ '/' :: r) p') (h4 : LastOf (l ++ '/' :: r) q') :
    (p' = p ↔ ¬ TenDays l ∧ ¬ DayEnded l r) ∧ (q' = q ↔ ¬ EarlyDays r ∧ ¬ MonthEnded l r) := by
  obtain ⟨k1, k2⟩ := C91_interval hl hr h
  constructor
  · constructor
    · rintro rfl
      by_cases hd : TenDays l ∨ DayEnded l r
      · exfalso
        have : ∃ i, p' = some i := by
          rcases hd with hd | ⟨-, neg, n, m, k, -, -, -, e⟩
          · obtain ⟨n, u, -, e⟩ := ten_lead hd
            rw [e] at h1
            exact lead_lower h1
          · rw [e] at h1
            exact lead_lower h1
        obtain ⟨i, rfl⟩ := this
        have := k1.1 (first_same hl h h1 h3)
        exact hd.elim this.1 this.2
      · exact ⟨fun k => hd (.inl k), fun k => hd (.inr k)⟩
    · exact fun k => (same_first hl h (k1.2 k) h1 h3).symm
  · constructor
    · rintro rfl
      refine ⟨fun k => ?_, fun k => ?_⟩
      · obtain ⟨n, u, hn, e⟩ := ten_lead (early_ten k)
        have h2' := h2
        rw [e] at h2'
        obtain ⟨i, rfl⟩ := lead_upper hn h2' (by simp)
        exact (k2.1 (last_same hr h h2 h4)).1 k
      · obtain ⟨ht, neg, n, m, u, hn, e⟩ := id k
        have h4' := h4
        rw [e, List.append_assoc] at h4'
        obtain ⟨i, rfl⟩ := lead_upper hn h4' (by simp)
        exact (k2.1 (last_same hr h h2 h4)).2 k
    · exact fun k => (same_last hr h (k2.2 k) h2 h4).symm

theorem slash_not_open {l r : Str} : l ++ '/' :: r ≠ c! ".." := by
  intro e
  have : '/' ∈ c! ".." := by rw [← e]; simp
  revert this
  decide

/-- **C99.** An interval is before a date exactly if its right side is, and after a date exactly
if its left side is; a date is before it exactly if it is before its left side, and after it
exactly if it is after its right side.  The exceptions are those texts of which the time alone is
not the time within the interval, and "..", which is before and after nothing, while the interval
gives an error. -/
theorem C99_interval {l r : Str} {d e g : EDTFDate} (hl : parseString l = .ok d) (hr : parseString r = .ok e) (h : parseString (l ++ '/' :: r) = .ok g) :
    ((∀ t, isBefore (l ++ '/' :: r) t = isBefore r t) ↔ r ≠ c! ".." ∧ ¬ EarlyDays r ∧ ¬ MonthEnded l r) ∧
    ((∀ t, isAfter (l ++ '/' :: r) t = isAfter l t) ↔ l ≠ c! ".." ∧ ¬ TenDays l ∧ ¬ DayEnded l r) ∧
    ((∀ t, isBefore t (l ++ '/' :: r) = isBefore t l) ↔ ¬ TenDays l ∧ ¬ DayEnded l r) ∧
    ((∀ t, isAfter t (l ++ '/' :: r) = isAfter t r) ↔ ¬ EarlyDays r ∧ ¬ MonthEnded l r) := by
  obtain ⟨p, -, h1, -⟩ := ends_of hl
  obtain ⟨-, q, -, h2⟩ := ends_of hr
  obtain ⟨p', q', h3, h4⟩ := ends_of h
  obtain ⟨k1, k2⟩ := interval_ends hl hr h h1 h2 h3 h4
  rw [C99_first_before h4 h2, C99_first_after h3 h1, C99_second_before h3 h1, C99_second_after h4 h2, k1, k2]
  simp [slash_not_open]

/-- "1985-04/1986" and "1987". -/
example : isBefore (c! "1985-04/1986") (c! "1987") = .ok true ∧ isBefore (c! "1986") (c! "1987") = .ok true ∧
    isAfter (c! "1985-04/1986") (c! "1985-03") = .ok true ∧ isAfter (c! "1985-04") (c! "1985-03") = .ok true :=
  ⟨by decide +kernel, by decide +kernel, by decide +kernel, by decide +kernel⟩

/-- The right side of "1985-04-1X/1985-04-1X" ends on the 19th, that text alone with the month. -/
example : isBefore (c! "1985-04-1X/1985-04-1X") (c! "1985-04-20") = .ok true ∧ isBefore (c! "1985-04-1X") (c! "1985-04-20") = .ok false :=
  ⟨by decide +kernel, by decide +kernel⟩

/-- "1985/.." gives an error where ".." gives an answer. -/
example : isBefore (c! "1985/..") (c! "1980") = .err noBound ∧ isBefore (c! "..") (c! "1980") = .ok false :=
  ⟨by decide +kernel, by decide +kernel⟩

/-- **C99.** A date is between two others exactly if it is neither before nor after the interval
that they make, with the same exceptions. -/
theorem C99_between {l r : Str} {d e g : EDTFDate} (hl : parseString l = .ok d) (hr : parseString r = .ok e) (h : parseString (l ++ '/' :: r) = .ok g)
    (h1 : ¬ TenDays l) (h2 : ¬ EarlyDays r) (h3 : r ≠ c! "..") (h4 : r ≠ []) (t : Str) :
    isBetween t l r = .ok true ↔ isBefore t (l ++ '/' :: r) = .ok false ∧ isAfter t (l ++ '/' :: r) = .ok false := by
  have n1 : ¬ DayEnded l r := fun k => k.1.elim h4 h3
  have n2 : ¬ MonthEnded l r := fun k => k.1.elim h4 h3
  obtain ⟨-, -, k1, k2⟩ := C99_interval hl hr h
  rw [k1.2 ⟨h1, n1⟩ t, k2.2 ⟨h2, n2⟩ t]
  unfold isBetween
  have h3 : r ≠ OPEN := h3
  cases isBefore t l with
  | err x => simp [wrapErr, Bind.bind, Res.bind]
  | panic => simp [wrapErr, Bind.bind, Res.bind]
  | ok b =>
    cases b with
    | true => simp [wrapErr, Bind.bind, Res.bind]
    | false =>
      cases isAfter t r with
      | err x => simp [wrapErr, Bind.bind, Res.bind, h3]
      | panic => simp [wrapErr, Bind.bind, Res.bind, h3]
      | ok b => cases b <;> simp [wrapErr, Bind.bind, Res.bind, h3]

example : isBetween (c! "1985-22") (c! "1985-04") (c! "1986") = .ok true ∧ isBefore (c! "1985-22") (c! "1985-04/1986") = .ok false ∧
    isAfter (c! "1985-22") (c! "1985-04/1986") = .ok false :=
  ⟨by decide +kernel, by decide +kernel, by decide +kernel⟩

/-- With an open end, a date is between, though the interval gives an error. -/
example : isBetween (c! "1985-22") (c! "1985") (c! "..") = .ok true ∧ isAfter (c! "1985-22") (c! "1985/..") = .err noBound :=
  ⟨by decide +kernel, by decide +kernel⟩

/-! ### Sets -/

theorem member_not_open {cs : List Chunk} {t : Str} (h : t ∈ cs.flatMap Chunk.members) : t ≠ c! ".." := by
  rintro rfl
  obtain ⟨x, -, hx⟩ := List.mem_flatMap.1 h
  have nd : ∀ r, '.' ∉ runText r := fun r => runText_not_mem r (by decide) (by decide)
  have ne : ∀ r, c! ".." ≠ runText r := fun r e => nd r (by rw [← e]; decide)
  cases x <;> simp [Chunk.members, ne] at hx

theorem brackets_not_open {o c : Char} (hb : Brackets o c) {x : Str} : o :: (x ++ [c]) ≠ c! ".." := by
  intro e
  injection e with e _
  rcases hb.1 with rfl | rfl <;> revert e <;> decide

/-- **C99.** A set that is not open at its start is after a date exactly if its least member is,
and a date is before it exactly if it is before its least member; a set that is not open at its
end is before a date exactly if its greatest member is, and a date is after it exactly if it is
after its greatest member. -/
theorem C99_set {o c : Char} (hb : Brackets o c) {cs : List Chunk} (hc : ChunksOk cs) {g : EDTFDate}
    (h : parseString (o :: (commaJoin (cs.map Chunk.text) ++ [c])) = .ok g) :
    ∃ a b, Extremes (cs.flatMap Chunk.members) a b ∧
      (cs.any Chunk.opensStart = false → ∀ t, isAfter (o :: (commaJoin (cs.map Chunk.text) ++ [c])) t = isAfter a t ∧
        isBefore t (o :: (commaJoin (cs.map Chunk.text) ++ [c])) = isBefore t a) ∧
      (cs.any Chunk.opensEnd = false → ∀ t, isBefore (o :: (commaJoin (cs.map Chunk.text) ++ [c])) t = isBefore b t ∧
        isAfter t (o :: (commaJoin (cs.map Chunk.text) ++ [c])) = isAfter t b) := by
  obtain ⟨a, b, d, e, w, hx, ha, hb', -, h1, h2⟩ := C91_set hb hc h
  refine ⟨a, b, hx, fun k t => ?_, fun k t => ?_⟩
  · rw [k, if_neg (by decide)] at h1
    obtain ⟨p, -, f1, -⟩ := ends_of ha
    obtain ⟨p', -, f2, -⟩ := ends_of h
    have := same_first ha h h1 f1 f2
    exact ⟨(C99_first_after f2 f1).2 ⟨iff_of_false (brackets_not_open hb) (member_not_open hx.1), this.symm⟩ t,
      (C99_second_before f2 f1).2 this.symm t⟩
  · rw [k, Bool.false_and, if_neg (by decide)] at h2
    obtain ⟨-, p, -, f1⟩ := ends_of hb'
    obtain ⟨-, p', -, f2⟩ := ends_of h
    have := same_last hb' h h2 f1 f2
    exact ⟨(C99_first_before f2 f1).2 ⟨iff_of_false (brackets_not_open hb) (member_not_open hx.2.1), this.symm⟩ t,
      (C99_second_after f2 f1).2 this.symm t⟩

/-- "{1985,1987-04}" is before "1988" as "1987-04" is, and "1984" is before it as before "1985". -/
example : isBefore (c! "{1985,1987-04}") (c! "1988") = .ok true ∧ isBefore (c! "1987-04") (c! "1988") = .ok true ∧
    isBefore (c! "1984") (c! "{1985,1987-04}") = .ok true ∧ isBefore (c! "1984") (c! "1985") = .ok true :=
  ⟨by decide +kernel, by decide +kernel, by decide +kernel, by decide +kernel⟩

end EDTF
