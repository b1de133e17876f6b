/-
C66: `Matches`, of the package `parser` and of the three levels, on every string.
-/
import Verif.PropsDirect
namespace EDTF
open Spec

theorem first_map {α β : Type} (g : α → β) {d a : α} {l : List (Prop × α)} (h : First d l a) : First (g d) (l.map fun x => (x.1, g x.2)) (g a) := by
  induction h with
  | none => exact .none
  | here h => exact .here h
  | next h _ ih => exact .next h ih

/-! ### The levels -/

/-- C66: the labels of Level 0. -/
theorem C66_level0 (s : Str) :
    First (.err (.invalid (c! "Invalid Level 0 string") s)) ((labels0 s).map fun x => (x.1, Res.ok x.2)) (L0.matchesStr s) := by
  unfold L0.matchesStr
  exact first_ite (C58_date s) (first_ite (C58_time s) (first_ite (C58_interval s) .none))

/-- C66: the labels of Level 1. -/
theorem C66_level1 (s : Str) :
    First (.err (.invalid (c! "Invalid Level 1 string") s)) ((labels1 s).map fun x => (x.1, Res.ok x.2)) (L1.matchesStr s) := by
  unfold L1.matchesStr
  simp only [isExtendedInterval_true, Bool.true_and]
  exact first_ite (C59_letter s) (first_ite season_form (first_ite (C59_qualified s) (first_ite (C59_unspecified s) (first_ite (C59_negative s)
    (first_ite start_form (first_ite end_form .none))))))

/-- C66: the labels of Level 2. -/
theorem C66_level2 (s : Str) :
    First (.err (.invalid (c! "Invalid or unsupported Level 2 string") s)) ((labels2 s).map fun x => (x.1, Res.ok x.2)) (L2.matchesStr s) := by
  unfold L2.matchesStr
  exact first_ite (C60_exponential s) (first_ite (C60_significant s) (first_ite (C60_subyear s) (first_ite (C50_exact_partial s) (first_ite (C60_group s)
    (first_ite (C60_individual s) (first_ite (C60_digit s) (first_ite (C60_interval s) .none)))))))

/-! ### The parser -/

theorem first_answers {level : Int} {e : Err} {l : List (Prop × Str)} {r : Res Str}
    (h : First (.err e) (l.map fun x => (x.1, Res.ok x.2)) r) : First (.err e) (answers level l) (r.bind fun f => Res.ok (level, f)) := by
  have := first_map (fun r : Res Str => r.bind fun f => Res.ok (level, f)) h
  rw [List.map_map] at this
  exact this

/-- C66: `Matches` takes the lowest level that has the form, and there the first label. -/
theorem C66_matches (s : Str) :
    (Level0Form s → First (.err (.invalid (c! "Invalid Level 0 string") s)) (answers 0 (labels0 s)) (matchesStr s)) ∧
    (¬ Level0Form s → Level1Form s → First (.err (.invalid (c! "Invalid Level 1 string") s)) (answers 1 (labels1 s)) (matchesStr s)) ∧
    (¬ Level0Form s → ¬ Level1Form s → Level2Start s →
      First (.err (.invalid (c! "Invalid or unsupported Level 2 string") s)) (answers 2 (labels2 s)) (matchesStr s)) ∧
    (¬ Level0Form s → ¬ Level1Form s → ¬ Level2Start s → matchesStr s = .err (.unrecognized (c! "Invalid or unsupported EDTF string") s)) := by
  unfold matchesStr
  refine ⟨fun h => ?_, fun h0 h => ?_, fun h0 h1 h => ?_, fun h0 h1 h => ?_⟩
  · rw [if_pos (level0_form.2 h)]
    exact first_answers (C66_level0 s)
  · rw [if_neg (by rw [level0_form]; exact h0), if_pos (level1_form.2 h)]
    exact first_answers (C66_level1 s)
  · rw [if_neg (by rw [level0_form]; exact h0), if_neg (by rw [level1_form]; exact h1), if_pos (level2_start.2 h)]
    exact first_answers (C66_level2 s)
  · rw [if_neg (by rw [level0_form]; exact h0), if_neg (by rw [level1_form]; exact h1), if_neg (by rw [level2_start]; exact h)]
    rfl

example : matchesStr (c! "1985-04-12") = .ok (0, c! "Date") ∧ matchesStr (c! "1985-04-12?") = .ok (1, c! "Seasons") ∧
    matchesStr (c! "Y17E7") = .ok (2, c! "Exponential year") ∧ matchesStr (c! "1985 was") = .err (.invalid (c! "Invalid or unsupported Level 2 string") (c! "1985 was")) := by
  decide +kernel

theorem first_err {α : Type} {e e' : Err} {l : List (Prop × Res α)} (hl : ∀ x ∈ l, ∃ a, x.2 = .ok a) {r : Res α} (h : First (.err e) l r) :
    r = .err e' ↔ e' = e ∧ ∀ x ∈ l, ¬ x.1 := by
  induction h with
  | none =>
    constructor
    · intro h; injection h with h; exact ⟨h.symm, by simp⟩
    · rintro ⟨rfl, -⟩; rfl
  | @here p a l h =>
    obtain ⟨b, hb⟩ := hl _ (List.mem_cons_self ..)
    simp only at hb
    subst hb
    constructor
    · intro h; cases h
    · rintro ⟨-, k⟩; exact absurd h (k _ (List.mem_cons_self ..))
  | @next p a b l h _ ih =>
    rw [ih fun x hx => hl x (List.mem_cons_of_mem _ hx)]
    constructor
    · rintro ⟨rfl, k⟩
      refine ⟨rfl, fun x hx => ?_⟩
      rcases List.mem_cons.1 hx with rfl | hx
      · exact h
      · exact k x hx
    · rintro ⟨rfl, k⟩
      exact ⟨rfl, fun x hx => k x (List.mem_cons_of_mem _ hx)⟩

theorem first_safe {level : Int} {e : Err} {l : List (Prop × Str)} {r : Res (Int × Str)} (h : First (.err e) (answers level l) r) : r ≠ .panic := by
  induction l with
  | nil => cases h; intro h; cases h
  | cons x l ih =>
    cases h with
    | here h => intro h; cases h
    | next h k => exact ih k

theorem answers_err {level : Int} {e e' : Err} {l : List (Prop × Str)} {r : Res (Int × Str)} (h : First (.err e) (answers level l) r) :
    r = .err e' ↔ e' = e ∧ ∀ x ∈ l, ¬ x.1 := by
  rw [first_err (fun x hx => ?_) h]
  · constructor
    · rintro ⟨a, b⟩
      exact ⟨a, fun x hx => b (x.1, .ok (level, x.2)) (List.mem_map_of_mem hx)⟩
    · rintro ⟨a, b⟩
      refine ⟨a, fun x hx => ?_⟩
      obtain ⟨y, hy, rfl⟩ := List.mem_map.1 hx
      exact b y hy
  · obtain ⟨y, -, rfl⟩ := List.mem_map.1 hx
    exact ⟨_, rfl⟩

theorem small_only {s : Str} (h : UnspecifiedForm (c! "Xx") s) (h1 : ¬ UnspecifiedForm (c! "X") s) (h2 : ¬ SeasonStart s) :
    ∀ x ∈ labels1 s, ¬ x.1 := by
  have nm : ∀ {c : Char}, c ∉ c! "0123456789-Xx" → c ∉ s := fun hc hm => hc (unspec_chars h hm)
  intro x hx
  simp only [labels1, List.mem_cons, List.not_mem_nil, or_false] at hx
  rcases hx with rfl | rfl | rfl | rfl | rfl | rfl | rfl
  · rintro ⟨y, hy, neg, ds, -, rfl⟩
    exact nm (c := y) ((by decide : ∀ y ∈ c! "Y", y ∉ c! "0123456789-Xx") y hy) (by simp)
  · rintro (k | ⟨pre, _, ⟨w, t1, t2, z, n, -, -, -, -, rfl⟩, rfl⟩)
    · exact h2 k
    · exact nm (c := ',') (by decide) (by simp)
  · rintro ⟨d, -, q, hq, rfl⟩
    exact nm (c := q) ((by decide : ∀ y ∈ c! "?~%", y ∉ c! "0123456789-Xx") q hq) (by simp)
  · exact h1
  · rintro ⟨neg, n, -, rfl⟩
    obtain ⟨y, t, ⟨hl, hy⟩, e, -⟩ := h
    obtain ⟨c, y, rfl⟩ := List.exists_cons_of_ne_nil (l := y) (by rintro rfl; cases hl)
    injection e with e _
    exact absurd (hy c (by simp)) (by rw [← e]; decide)
  · rintro ⟨l, d, -, -, rfl⟩
    exact nm (c := '/') (by decide) (by simp)
  · rintro ⟨l, d, -, -, rfl⟩
    exact nm (c := '/') (by decide) (by simp)

/-- C66: `Matches` has three errors: a small `x`, something after a form of Level 2,
and no form at all. -/
theorem C66_error (s : Str) (e : Err) : matchesStr s = .err e ↔
    (UnspecifiedForm (c! "Xx") s ∧ ¬ UnspecifiedForm (c! "X") s ∧ ¬ SeasonStart s ∧ ¬ Level0Form s ∧ e = .invalid (c! "Invalid Level 1 string") s) ∨
    (¬ Level0Form s ∧ ¬ Level1Form s ∧ Level2Start s ∧ ¬ Level2Form s ∧ e = .invalid (c! "Invalid or unsupported Level 2 string") s) ∨
    (¬ Level0Form s ∧ ¬ Level1Form s ∧ ¬ Level2Start s ∧ e = .unrecognized (c! "Invalid or unsupported EDTF string") s) := by
  obtain ⟨m0, m1, m2, m3⟩ := C66_matches s
  by_cases h0 : Level0Form s
  · rw [answers_err (m0 h0)]
    constructor
    · rintro ⟨-, k⟩
      exfalso
      rcases h0 with h | h | h
      · exact k _ (.head _) h
      · exact k _ (.tail _ (.head _)) h
      · exact k _ (.tail _ (.tail _ (.head _))) h
    · rintro (⟨-, -, -, h, -⟩ | ⟨h, -⟩ | ⟨h, -⟩) <;> exact absurd h0 h
  by_cases h1 : Level1Form s
  · rw [answers_err (m1 h0 h1)]
    constructor
    · rintro ⟨rfl, k⟩
      left
      have f1 : ∀ {p : Prop} {a : Str}, (p, a) ∈ labels1 s → ¬ p := fun {p a} hm => k (p, a) hm
      have ks : ¬ (SeasonStart s ∨ SeasonEnd s) := f1 (.tail _ (.head _))
      refine ⟨?_, f1 (.tail _ (.tail _ (.tail _ (.head _)))), fun h => ks (.inl h), h0, rfl⟩
      rcases h1 with h | h | h | h | h | h | h | h
      · exact absurd h (f1 (.head _))
      · obtain ⟨neg, n, m, hn, hm, rfl⟩ := h
        exact absurd (.inl ⟨neg, n, m, [], hn, hm, by simp⟩) ks
      · exact absurd (.inr ⟨[], s, h, rfl⟩) ks
      · exact absurd h (f1 (.tail _ (.tail _ (.head _))))
      · exact h
      · exact absurd h (f1 (.tail _ (.tail _ (.tail _ (.tail _ (.tail _ (.head _)))))))
      · exact absurd h (f1 (.tail _ (.tail _ (.tail _ (.tail _ (.tail _ (.tail _ (.head _))))))))
      · exact absurd h (f1 (.tail _ (.tail _ (.tail _ (.tail _ (.head _))))))
    · rintro (⟨h, h', h'', -, rfl⟩ | ⟨-, h, -⟩ | ⟨-, h, -⟩)
      · exact ⟨rfl, small_only h h' h''⟩
      · exact absurd h1 h
      · exact absurd h1 h
  have nu : ¬ UnspecifiedForm (c! "Xx") s := fun h => h1 (.inr (.inr (.inr (.inr (.inl h)))))
  by_cases h2 : Level2Start s
  · rw [answers_err (m2 h0 h1 h2)]
    constructor
    · rintro ⟨rfl, k⟩
      refine .inr (.inl ⟨h0, h1, h2, ?_, rfl⟩)
      have f1 : ∀ {p : Prop} {a : Str}, (p, a) ∈ labels2 s → ¬ p := fun {p a} hm => k (p, a) hm
      rintro (h | h | h | h | h | h | h | h)
      · exact f1 (.head _) h
      · exact f1 (.tail _ (.head _)) h
      · exact f1 (.tail _ (.tail _ (.head _))) h
      · exact f1 (.tail _ (.tail _ (.tail _ (.head _)))) h
      · exact f1 (.tail _ (.tail _ (.tail _ (.tail _ (.head _))))) h
      · exact f1 (.tail _ (.tail _ (.tail _ (.tail _ (.tail _ (.head _)))))) h
      · exact f1 (.tail _ (.tail _ (.tail _ (.tail _ (.tail _ (.tail _ (.head _))))))) h
      · exact f1 (.tail _ (.tail _ (.tail _ (.tail _ (.tail _ (.tail _ (.tail _ (.head _)))))))) h
    · rintro (⟨h, -⟩ | ⟨-, -, -, h, rfl⟩ | ⟨-, -, h, -⟩)
      · exact absurd h nu
      · refine ⟨rfl, fun x hx => ?_⟩
        unfold Level2Form at h
        simp only [not_or] at h
        obtain ⟨a1, a2, a3, a4, a5, a6, a7, a8⟩ := h
        simp only [labels2, List.mem_cons, List.not_mem_nil, or_false] at hx
        rcases hx with rfl | rfl | rfl | rfl | rfl | rfl | rfl | rfl <;> assumption
      · exact absurd h2 h
  · rw [m3 h0 h1 h2]
    constructor
    · intro h
      injection h with h
      exact .inr (.inr ⟨h0, h1, h2, h.symm⟩)
    · rintro (⟨h, -⟩ | ⟨-, -, h, -⟩ | ⟨-, -, -, rfl⟩)
      · exact absurd h nu
      · exact absurd h h2
      · rfl

/-- C66: so it never panics. -/
theorem C66_total (s : Str) : matchesStr s ≠ .panic := by
  obtain ⟨m0, m1, m2, m3⟩ := C66_matches s
  by_cases h0 : Level0Form s
  · exact first_safe (m0 h0)
  by_cases h1 : Level1Form s
  · exact first_safe (m1 h0 h1)
  by_cases h2 : Level2Start s
  · exact first_safe (m2 h0 h1 h2)
  · rw [m3 h0 h1 h2]
    intro h
    cases h

/-- "2004-x1" is a Level 1 string without a label; "2004-06-xx" is a season;
"2004-06-XX" too, and not a date with unspecified digits. -/
example : UnspecifiedForm (c! "Xx") (c! "2004-x1") ∧ matchesStr (c! "2004-x1") = .err (.invalid (c! "Invalid Level 1 string") (c! "2004-x1")) :=
  ⟨⟨c! "2004", c! "-x1", by unfold Places; decide, rfl, .inr ⟨c! "x1", [], ⟨'x', '1', rfl, .inl (by decide)⟩, rfl, .inl rfl⟩⟩, rfl⟩
example : matchesStr (c! "2004-06-xx") = .ok (1, c! "Seasons") ∧ matchesStr (c! "2004-06-XX") = .ok (1, c! "Seasons") := ⟨rfl, rfl⟩
example : matchesStr (c! "2001-29") = .ok (2, c! "Sub-year groupings") ∧ L2.matchesStr (c! "2001-21") = .ok (c! "Sub-year groupings") ∧
    matchesStr (c! "2001-21") = .ok (1, c! "Seasons") := ⟨rfl, rfl, rfl⟩
example : Level2Start (c! "2004 or so") ∧ ¬ Level0Form (c! "2004 or so") ∧
    matchesStr (c! "2004 or so") = .err (.invalid (c! "Invalid or unsupported Level 2 string") (c! "2004 or so")) := by
  refine ⟨level2_start.1 (by decide +kernel), fun h => ?_, rfl⟩
  exact absurd (level0_form.2 h) (by decide +kernel)

end EDTF
