/-
C64: the exported function `DateSpanFromEDTF` on every text.
-/
import Verif.SpecDirect
import Verif.PropsFail
import Verif.PropsDenote
namespace EDTF
open Spec
variable {f : Int → Nat → Nat → Int}

theorem spanOf_noSlash {t : Str} {S E : DateRange} (h : SpanOf f t S E) : '/' ∉ t := by
  cases h with
  | date e h => exact (e_bare h).1

theorem sideOf_noSlash {t : Str} {R : DateRange} (h : SideOf f t R) : '/' ∉ t := by
  cases h with
  | range h => exact (range_form h).1.1
  | opened => decide

theorem spanText_ok (hf : DayCount f) {t : Str} {S E : DateRange} (h : SpanText f t S E) : dateSpanFromEDTF t = .ok ⟨some S, some E⟩ := by
  cases h with
  | one h =>
    rw [dateSpanFromEDTF_noSlash (spanOf_noSlash h)]
    exact spanOf_ok hf h
  | two hS hE =>
    cases hS with
    | range hS =>
      cases hE with
      | range hE => exact two_ok hf (range_form hS).1 (range_form hE).1 hS hE
      | opened => exact two_right hf hS
    | opened =>
      cases hE with
      | range hE => exact two_left hf hE
      | opened => rfl

theorem side_exists (f : Int → Nat → Nat → Int) {t : Str} (h : t = [] ∨ t = c! ".." ∨ Reads t) : ∃ R, SideOf f t R := by
  rcases h with rfl | rfl | h
  · exact ⟨_, .range .absent⟩
  · exact ⟨_, .opened⟩
  · obtain ⟨R, hR⟩ := reads_range f h
    exact ⟨R, .range hR⟩

theorem slash_cases (s : Str) :
    '/' ∉ s ∨ (∃ t u, '/' ∉ t ∧ '/' ∉ u ∧ s = t ++ '/' :: u) ∨ ∃ t u v, s = t ++ '/' :: (u ++ '/' :: v) := by
  have one : ∀ s : Str, '/' ∈ s → ∃ t u, '/' ∉ t ∧ s = t ++ '/' :: u := by
    intro s
    induction s with
    | nil => intro h; cases h
    | cons x xs ih =>
      intro h
      by_cases hx : x = '/'
      · exact ⟨[], xs, by simp, by rw [hx]; rfl⟩
      · rcases List.mem_cons.1 h with h | h
        · exact absurd h.symm hx
        · obtain ⟨t, u, ht, e⟩ := ih h
          refine ⟨x :: t, u, ?_, by rw [e]; rfl⟩
          intro hm
          rcases List.mem_cons.1 hm with hm | hm
          · exact hx hm.symm
          · exact ht hm
  by_cases h1 : '/' ∈ s
  · obtain ⟨t, u, ht, rfl⟩ := one s h1
    by_cases h2 : '/' ∈ u
    · obtain ⟨u', v, -, rfl⟩ := one u h2
      exact .inr (.inr ⟨t, u', v, rfl⟩)
    · exact .inr (.inl ⟨t, u, ht, h2, rfl⟩)
  · exact .inl h1

theorem many_err (t u v : Str) :
    dateSpanFromEDTF (t ++ '/' :: (u ++ '/' :: v)) = .err (.invalid (c! "date span") (t ++ '/' :: (u ++ '/' :: v))) := by
  unfold dateSpanFromEDTF
  split
  · rename_i l r h
    obtain ⟨e, h1, h2⟩ := splitChar_inv2 h
    exfalso
    have c := congrArg (List.count '/') e
    simp only [List.count_append, List.count_cons_self, List.count_eq_zero.2 h1, List.count_eq_zero.2 h2] at c
    omega
  · rename_i l h
    exact absurd (show '/' ∈ t ++ '/' :: (u ++ '/' :: v) by simp) (splitChar_inv1 h).2
  · rfl

theorem spanFails_err {s : Str} {e : Err} (h : SpanFails s e) : dateSpanFromEDTF s = .err e := by
  cases h with
  | one _ ht _ h => rw [dateSpanFromEDTF_noSlash ht, date_err_iff]; exact h
  | left t u ht hu h1 e h => exact (two_err ht hu).2 (.inl ⟨h1.1, h1.2, h⟩)
  | right t u ht hu h1 h2 e h => exact (two_err ht hu).2 (.inr ⟨h1, h2.1, h2.2, h⟩)
  | many t u v => exact many_err t u v

/-- C64: the errors of `DateSpanFromEDTF`, for every text. -/
theorem C64_error (s : Str) (e : Err) : dateSpanFromEDTF s = .err e ↔ SpanFails s e := by
  refine ⟨fun h => ?_, spanFails_err⟩
  rcases slash_cases s with k | ⟨t, u, ht, hu, rfl⟩ | ⟨t, u, v, rfl⟩
  · rw [dateSpanFromEDTF_noSlash k, date_err_iff] at h
    exact .one s k e h
  · rcases (two_err ht hu).1 h with ⟨a, b, c⟩ | ⟨a, b, c, d⟩
    · exact .left t u ht hu ⟨a, b⟩ e c
    · exact .right t u ht hu a ⟨b, c⟩ e d
  · rw [many_err] at h
    injection h with h
    subst h
    exact .many t u v

/-- C64: the span of every text that has one. -/
theorem C64_span (hf : DayCount f) (s : Str) (sp : DateSpan) : dateSpanFromEDTF s = .ok sp ↔ ∃ S E, SpanText f s S E ∧ sp = ⟨some S, some E⟩ := by
  constructor
  · intro h
    have key : ∃ S E, SpanText f s S E := by
      rcases slash_cases s with k | ⟨t, u, ht, hu, rfl⟩ | ⟨t, u, v, rfl⟩
      · rw [dateSpanFromEDTF_noSlash k] at h
        obtain ⟨S, E, k⟩ := reads_span f (reads_iff.1 ⟨sp, h⟩)
        exact ⟨S, E, .one k⟩
      · rw [dateSpanFromEDTF_slash ht hu, Res.bind_eq_ok] at h
        obtain ⟨a, ha, h⟩ := h
        rw [Res.bind_eq_ok] at h
        obtain ⟨b, hb, -⟩ := h
        obtain ⟨S, hS⟩ := side_exists f (half_ok.1 ⟨a, ha⟩)
        obtain ⟨E, hE⟩ := side_exists f (half_ok.1 ⟨b, hb⟩)
        exact ⟨S, E, .two hS hE⟩
      · rw [many_err] at h
        cases h
    obtain ⟨S, E, k⟩ := key
    have := spanText_ok hf k
    rw [h] at this
    injection this with this
    exact ⟨S, E, k, this⟩
  · rintro ⟨S, E, h, rfl⟩
    exact spanText_ok hf h

example : (∃ sp, dateSpanFromEDTF (c! "1985-04/..") = .ok sp) ∧ ∃ e, dateSpanFromEDTF (c! "1985-04/../1986") = .err e := ⟨⟨_, rfl⟩, _, rfl⟩

/-- C64: it never panics. -/
theorem C64_total (s : Str) : dateSpanFromEDTF s ≠ .panic := dateSpanFromEDTF_safe s

/-- C64: a text has one span at most, and no error then. -/
theorem C64_unique (hf : DayCount f) {s : Str} {S E : DateRange} (h : SpanText f s S E) :
    (∀ S' E', SpanText f s S' E' → S' = S ∧ E' = E) ∧ ∀ e, ¬ SpanFails s e := by
  have k := spanText_ok hf h
  refine ⟨fun S' E' h' => ?_, fun e h' => ?_⟩
  · rw [spanText_ok hf h'] at k
    injection k with k
    injection k with k1 k2
    injection k1 with k1
    injection k2 with k2
    exact ⟨k1, k2⟩
  · rw [spanFails_err h'] at k
    cases k

/-- Both sides open; more than two sides; a side that is not a date. -/
example : SpanText U (c! "../..") (openRange (c! "..")) (openRange (c! "..")) := .two .opened .opened
example : SpanFails (c! "1985/1986/1987") (.invalid (c! "date span") (c! "1985/1986/1987")) := .many (c! "1985") (c! "1986") (c! "1987")
example : SpanFails (c! "/-199X") .plain :=
  .right [] (c! "-199X") (by decide) (by decide) (.inl rfl) (by decide) .plain
    (.negative ⟨⟨true, c! "199X", .none⟩, .none, .none, .none⟩ ⟨⟨by unfold XDate.ok XDigit; decide, rfl, rfl, rfl, by decide⟩, trivial⟩ rfl '1' '9' '9' rfl)
/-- A qualified day and an unknown end. -/
example : ∃ S E, SpanText U (c! "?1985-04-~12/") S E := by
  obtain ⟨S, E, h, -⟩ := (C64_span dayCount_unixDay _ _).1 (show dateSpanFromEDTF (c! "?1985-04-~12/") = .ok _ from rfl)
  exact ⟨S, E, h⟩

end EDTF
