/-
C76: the matcher of the model finds the match that Go's regexp package
promises (leftmost, and among those the preferred one), with the texts of the
groups, for every expression and every text.
-/
import Verif.LemmasWay
import Verif.LemmasFlat
namespace EDTF
open Spec

theorem first_of_head {r : Re} (ha : Ascii r) {b : Bool} {s : Str} {st : St} (h : (r.run ⟨b, s, []⟩).head? = some st) :
    ∃ w cs p, s = w ++ st.rest ∧ st = ⟨b && w.isEmpty, st.rest, cs.reverse⟩ ∧ Way r b w st.rest p cs ∧
      ∀ w' rest' p' cs', w' ++ rest' = s → Way r b w' rest' p' cs' → p' = p ∨ Preferred p p' := by
  rw [run_ways] at h
  have o := ways_order r b s
  cases e : ways r b s with
  | nil => rw [e] at h; cases h
  | cons x l =>
    rw [e] at h o
    have hx : x ∈ ways r b s := by rw [e]; exact List.mem_cons_self
    simp only [List.map_cons, List.head?_cons, Option.some.injEq] at h
    subst h
    refine ⟨x.w, x.cs, x.p, ways_split r b s x hx, by simp [Wy.st], ways_sound r ha b s x hx, ?_⟩
    intro w' rest' p' cs' e' k
    have := ways_complete r ha _ _ _ _ _ k
    rw [e', e] at this
    rcases List.mem_cons.1 this with k | k
    · exact .inl (by rw [← k])
    · exact .inr ((List.pairwise_cons.1 o).1 _ k)

theorem none_of_head {r : Re} (ha : Ascii r) {b : Bool} {s : Str} (h : (r.run ⟨b, s, []⟩).head? = none) :
    ∀ w rest p cs, w ++ rest = s → ¬ Way r b w rest p cs := by
  intro w rest p cs e k
  have := ways_complete r ha _ _ _ _ _ k
  rw [e] at this
  rw [run_ways] at h
  cases e2 : ways r b s with
  | nil => rw [e2] at this; cases this
  | cons x l => rw [e2] at h; cases h

theorem search_none (r : Re) (ha : Ascii r) : ∀ (s : Str) (b : Bool), r.search b s = none →
    ∀ u w rest p cs, u ++ (w ++ rest) = s → ¬ Way r (b && u.isEmpty) w rest p cs := by
  intro s
  induction s with
  | nil =>
    intro b h u w rest p cs e
    obtain rfl : u = [] := by cases u <;> simp_all
    rw [List.nil_append] at e
    rw [Re.search] at h
    simpa using none_of_head ha h w rest p cs e
  | cons c s ih =>
    intro b h u w rest p cs e
    rw [Re.search] at h
    cases e2 : (r.run ⟨b, c :: s, []⟩).head? with
    | some x => rw [e2] at h; cases h
    | none =>
      rw [e2] at h
      rcases u with _ | ⟨a, u⟩
      · simpa using none_of_head ha e2 w rest p cs e
      · have := ih false h u w rest p cs (List.cons.inj e).2
        simpa using this

theorem search_some (r : Re) (ha : Ascii r) : ∀ (s : Str) (b : Bool) (st : St), r.search b s = some st →
    ∃ u w cs p, s = u ++ (w ++ st.rest) ∧ st = ⟨b && u.isEmpty && w.isEmpty, st.rest, cs.reverse⟩ ∧ Way r (b && u.isEmpty) w st.rest p cs ∧
      (∀ w' rest' p' cs', w' ++ rest' = w ++ st.rest → Way r (b && u.isEmpty) w' rest' p' cs' → p' = p ∨ Preferred p p') ∧
      ∀ u' w' rest' p' cs', u' ++ (w' ++ rest') = s → u'.length < u.length → ¬ Way r (b && u'.isEmpty) w' rest' p' cs' := by
  have here : ∀ (s : Str) (b : Bool) (st : St), (r.run ⟨b, s, []⟩).head? = some st →
      ∃ u w cs p, s = u ++ (w ++ st.rest) ∧ st = ⟨b && u.isEmpty && w.isEmpty, st.rest, cs.reverse⟩ ∧ Way r (b && u.isEmpty) w st.rest p cs ∧
      (∀ w' rest' p' cs', w' ++ rest' = w ++ st.rest → Way r (b && u.isEmpty) w' rest' p' cs' → p' = p ∨ Preferred p p') ∧
      ∀ u' w' rest' p' cs', u' ++ (w' ++ rest') = s → u'.length < u.length → ¬ Way r (b && u'.isEmpty) w' rest' p' cs' := by
    intro s b st h
    obtain ⟨w, cs, p, h1, h2, h3, h4⟩ := first_of_head ha h
    refine ⟨[], w, cs, p, h1, by simpa using h2, by simpa using h3, ?_, ?_⟩
    · intro w' rest' p' cs' e k
      exact h4 w' rest' p' cs' (by rw [e, ← h1]) (by simpa using k)
    · intro u' _ _ _ _ _ k; cases k
  intro s
  induction s with
  | nil => intro b st h; rw [Re.search] at h; exact here [] b st h
  | cons c s ih =>
    intro b st h
    rw [Re.search] at h
    cases e2 : (r.run ⟨b, c :: s, []⟩).head? with
    | some x =>
      rw [e2] at h
      injection h with h; subst h
      exact here _ b x e2
    | none =>
      rw [e2] at h
      obtain ⟨u, w, cs, p, h1, h2, h3, h4, h5⟩ := ih false st h
      refine ⟨c :: u, w, cs, p, by rw [h1]; rfl, by simpa using h2, by simpa using h3, by simpa using h4, ?_⟩
      intro u' w' rest' p' cs' e l
      rcases u' with _ | ⟨a, u'⟩
      · simpa using none_of_head ha e2 w' rest' p' cs' e
      · have := h5 u' w' rest' p' cs' (List.cons.inj e).2 (by simp at l; omega)
        simpa using this

/-- The choices determine the match. -/
theorem way_unique {r : Re} (ha : Ascii r) {b : Bool} {w w' rest rest' : Str} {p : Path} {cs cs' : List (Nat × Str)}
    (e : w ++ rest = w' ++ rest') (h : Way r b w rest p cs) (h' : Way r b w' rest' p cs') : w = w' ∧ rest = rest' ∧ cs = cs' := by
  have k := ways_complete r ha _ _ _ _ _ h
  have k' := ways_complete r ha _ _ _ _ _ h'
  rw [← e] at k'
  have o := ways_order r b (w ++ rest)
  generalize ways r b (w ++ rest) = l at k k' o
  induction l with
  | nil => cases k
  | cons x l ih =>
    obtain ⟨o1, o2⟩ := List.pairwise_cons.1 o
    rcases List.mem_cons.1 k with k | k <;> rcases List.mem_cons.1 k' with k' | k'
    · rw [← k] at k'
      injection k' with a1 a2 a3 a4
      exact ⟨a2.symm, a3.symm, a4.symm⟩
    · have := o1 _ k'
      rw [← k] at this
      exact absurd this (Preferred.irrefl p)
    · have := o1 _ k
      rw [← k'] at this
      exact absurd this (Preferred.irrefl p)
    · exact ih k k' o2

theorem Preferred.asymm {p q : Path} (h : Preferred p q) : ¬ Preferred q p := by
  rintro ⟨c', p', q', h1, h2⟩
  obtain ⟨c, a, b, rfl, rfl⟩ := h
  induction c generalizing c' with
  | nil =>
    rcases c' with _ | ⟨x, c'⟩
    · cases h1
    · injection h1 with e1 _; injection h2 with e2 _; rw [← e1] at e2; cases e2
  | cons y c ih =>
    rcases c' with _ | ⟨x, c'⟩
    · injection h1 with e1 _; injection h2 with e2 _; rw [e1] at e2; cases e2
    · injection h1 with _ e1; injection h2 with _ e2; exact ih c' e2 e1

/-- C76: there is at most one match that counts. -/
theorem C76_unique {r : Re} (ha : Ascii r) {u w rest u' w' rest' : Str} {cs cs' : List (Nat × Str)}
    (e : u ++ (w ++ rest) = u' ++ (w' ++ rest')) (h : Finds r u w rest cs) (h' : Finds r u' w' rest' cs') :
    u = u' ∧ w = w' ∧ rest = rest' ∧ cs = cs' := by
  obtain ⟨a1, p, a2, a3⟩ := h
  obtain ⟨b1, p', b2, b3⟩ := h'
  have l : u.length = u'.length := by
    rcases Nat.lt_trichotomy u.length u'.length with k | k | k
    · exact absurd a2 (b1 u w rest p cs e k)
    · exact k
    · exact absurd b2 (a1 u' w' rest' p' cs' e.symm k)
  obtain ⟨rfl, e'⟩ := List.append_inj e l
  have k : p' = p := by
    rcases a3 w' rest' p' cs' e'.symm b2 with k | k
    · exact k
    · rcases b3 w rest p cs e' a2 with k' | k'
      · exact k'.symm
      · exact absurd k' (Preferred.asymm k)
  subst k
  obtain ⟨rfl, rfl, rfl⟩ := way_unique ha e' a2 b2
  exact ⟨rfl, rfl, rfl, rfl⟩

/-- C76: what the search returns on every text. -/
theorem C76_search {r : Re} (ha : Ascii r) (s : Str) (st : St) :
    r.search true s = some st ↔
      ∃ u w cs, s = u ++ (w ++ st.rest) ∧ Finds r u w st.rest cs ∧ st.caps = cs.reverse ∧ st.beg = (u.isEmpty && w.isEmpty) := by
  have to : ∀ st, r.search true s = some st →
      ∃ u w cs, s = u ++ (w ++ st.rest) ∧ Finds r u w st.rest cs ∧ st.caps = cs.reverse ∧ st.beg = (u.isEmpty && w.isEmpty) := by
    intro st h
    obtain ⟨u, w, cs, p, h1, h2, h3, h4, h5⟩ := search_some r ha s true st h
    simp only [Bool.true_and] at h2 h3 h4 h5
    refine ⟨u, w, cs, h1, ⟨fun u' w' rest' p' cs' e l => h5 u' w' rest' p' cs' (by rw [e, ← h1]) l, p, h3, h4⟩, ?_, ?_⟩
    · exact congrArg St.caps h2
    · exact congrArg St.beg h2
  refine ⟨to st, ?_⟩
  rintro ⟨u, w, cs, h1, h2, h3, h4⟩
  cases e : r.search true s with
  | none =>
    obtain ⟨-, p, k, -⟩ := h2
    exact absurd (by simpa using k) (search_none r ha s true e u w st.rest p cs h1.symm)
  | some st' =>
    obtain ⟨u', w', cs', k1, k2, k3, k4⟩ := to st' e
    obtain ⟨rfl, rfl, e3, rfl⟩ := C76_unique ha (h1.symm.trans k1) h2 k2
    congr 1
    cases st; cases st'
    simp_all

/-- C76: MatchString says whether there is any way to match anywhere in the text. -/
theorem C76_match {r : Re} (ha : Ascii r) (s : Str) :
    r.matchString s = true ↔ ∃ u w rest p cs, s = u ++ (w ++ rest) ∧ Way r u.isEmpty w rest p cs := by
  unfold Re.matchString
  constructor
  · intro h
    obtain ⟨st, e⟩ := Option.isSome_iff_exists.1 h
    obtain ⟨u, w, cs, h1, ⟨-, p, k, -⟩, -⟩ := (C76_search ha s st).1 e
    exact ⟨u, w, st.rest, p, cs, h1, k⟩
  · rintro ⟨u, w, rest, p, cs, h1, k⟩
    cases e : r.search true s with
    | some _ => rfl
    | none => exact absurd (by simpa using k) (search_none r ha s true e u w rest p cs h1.symm)

theorem groupIs_iff (cs : List (Nat × Str)) (i : Nat) (t : Str) : capOf cs.reverse i = t ↔ GroupIs cs i t := by
  unfold capOf GroupIs
  have key : ∀ l : List (Nat × Str), (l.lookup i).getD [] = t ↔
      (∃ before after, l = before ++ (i, t) :: after ∧ ∀ x ∈ before, x.1 ≠ i) ∨ (t = [] ∧ ∀ x ∈ l, x.1 ≠ i) := by
    intro l
    induction l with
    | nil =>
      simp only [List.lookup_nil, Option.getD_none]
      constructor
      · rintro rfl; exact .inr ⟨rfl, fun x hx => by cases hx⟩
      · rintro (⟨a, b, h, -⟩ | ⟨h, -⟩)
        · cases a <;> cases h
        · exact h.symm
    | cons y l ih =>
      obtain ⟨j, v⟩ := y
      rw [List.lookup_cons]
      by_cases hj : i = j
      · subst hj
        simp only [beq_self_eq_true, Option.getD_some]
        constructor
        · rintro rfl; exact .inl ⟨[], l, rfl, fun x hx => by cases hx⟩
        · rintro (⟨a, b, h, k⟩ | ⟨-, h⟩)
          · rcases a with _ | ⟨x, a⟩
            · injection h with h _; injection h
            · injection h with h _
              exact absurd (by rw [← h]) (k x List.mem_cons_self)
          · exact absurd rfl (h _ List.mem_cons_self)
      · have : (i == j) = false := by simpa using hj
        simp only [this]
        rw [ih]
        constructor
        · rintro (⟨a, b, rfl, k⟩ | ⟨h, k⟩)
          · exact .inl ⟨(j, v) :: a, b, rfl, fun x hx => (List.mem_cons.1 hx).elim (fun e => by rw [e]; exact fun e => hj e.symm) (k x)⟩
          · exact .inr ⟨h, fun x hx => (List.mem_cons.1 hx).elim (fun e => by rw [e]; exact fun e => hj e.symm) (k x)⟩
        · rintro (⟨a, b, h, k⟩ | ⟨h, k⟩)
          · rcases a with _ | ⟨x, a⟩
            · injection h with h _; injection h with h _; exact absurd h.symm hj
            · injection h with _ h; exact .inl ⟨a, b, h, fun x hx => k x (List.mem_cons_of_mem _ hx)⟩
          · exact .inr ⟨h, fun x hx => k x (List.mem_cons_of_mem _ hx)⟩
  rw [key]
  constructor
  · rintro (⟨a, b, h, k⟩ | ⟨h, k⟩)
    · exact .inl ⟨b.reverse, a.reverse, by rw [← List.reverse_reverse cs, h]; simp, fun x hx => k x (List.mem_reverse.1 hx)⟩
    · exact .inr ⟨h, fun x hx => k x (List.mem_reverse.2 hx)⟩
  · rintro (⟨a, b, h, k⟩ | ⟨h, k⟩)
    · exact .inl ⟨b.reverse, a.reverse, by rw [h]; simp, fun x hx => k x (List.mem_reverse.1 hx)⟩
    · exact .inr ⟨h, fun x hx => k x (List.mem_reverse.1 hx)⟩

/-- C76: FindStringSubmatch gives, for each group, the text of the match that counts. -/
theorem C76_submatch {r : Re} (ha : Ascii r) (s : Str) (m : Nat → Str) :
    r.submatch s = some m ↔ ∃ u w rest cs, s = u ++ (w ++ rest) ∧ Finds r u w rest cs ∧ ∀ i, GroupIs cs i (m i) := by
  unfold Re.submatch
  rw [Option.map_eq_some_iff]
  constructor
  · rintro ⟨st, h, rfl⟩
    obtain ⟨u, w, cs, h1, h2, h3, -⟩ := (C76_search ha s st).1 h
    exact ⟨u, w, st.rest, cs, h1, h2, fun i => (groupIs_iff cs i _).1 (by rw [h3])⟩
  · rintro ⟨u, w, rest, cs, h1, h2, h3⟩
    refine ⟨⟨u.isEmpty && w.isEmpty, rest, cs.reverse⟩, (C76_search ha s _).2 ⟨u, w, cs, h1, h2, rfl, rfl⟩, ?_⟩
    funext i
    exact (groupIs_iff cs i _).2 (h3 i)

/-- C76: the associativity of the tree does not matter: expressions that agree
up to it give the same matches (the patterns are compared with the trees in
`Patterns` in this way). -/
theorem C76_flat (r : Re) (st : St) : r.flat.run st = r.run st := by rw [run_flat]

/-- C76: the tree used for a pattern matches as the parsed pattern does. -/
theorem C76_compiled {p : Str} {r r' : Re} (h : Rx.Compiles p r) (k : Re.compile p = some r') (s : Str) :
    r.matchString s = r'.matchString s ∧ r.submatch s = r'.submatch s := by
  unfold Rx.Compiles at h
  rw [k, Option.map_some, Option.some.injEq] at h
  have e : r.run = r'.run := by rw [← run_flat r, ← run_flat r', h]
  unfold Re.matchString Re.submatch
  rw [search_congr e true s]
  exact ⟨rfl, rfl⟩

example : ∃ r', Rx.Compiles (Pat.anchored Pat.YEAR) Rx.Year ∧ Re.compile (Pat.anchored Pat.YEAR) = some r' := ⟨_, Rx.compiles_Year, by rfl⟩

instance decAscii : (r : Re) → Decidable (Ascii r)
  | .eps | .bos | .eos => isTrue trivial
  | .cls _ rs => (inferInstance : Decidable (∀ x ∈ rs, x.2.toNat < 128))
  | .cat a b => @instDecidableAnd _ _ (decAscii a) (decAscii b)
  | .alt a b => @instDecidableAnd _ _ (decAscii a) (decAscii b)
  | .opt a | .star a | .plus a | .grp _ a => decAscii a

/-- C76 applies to all patterns of the library. -/
theorem C76_ascii : ∀ r ∈ [Rx.Year, Rx.YMD, Rx.QualifiedIndividual, Rx.QualifiedGroup, Rx.Date, Rx.DateAndTime, Rx.TimeInterval, Rx.Level0,
    Rx.LetterPrefixedCalendarYear, Rx.Season, Rx.QualifiedDate, Rx.UnspecifiedDigits, Rx.IntervalStart, Rx.IntervalEnd, Rx.NegativeYear,
    Rx.Level1, Rx.ExponentialYear, Rx.SignificantDigits, Rx.SubYearGrouping, Rx.SetRepresentations, Rx.GroupQualification,
    Rx.IndividualQualification, Rx.UnspecifiedDigit, Rx.Interval, Rx.Level2], Ascii r := by decide +kernel

/-! `(a|ab)(c|bcd)?` on `zabcd`: the left alternative is preferred although the
right one would leave nothing over as well, and the search starts at `a`. -/

private def demo : Re :=
  .cat (.grp 1 (.alt (Rx.lit 'a') (.cat (Rx.lit 'a') (Rx.lit 'b')))) (.opt (.grp 2 (.alt (Rx.lit 'c') (.cat (Rx.lit 'b') (.cat (Rx.lit 'c') (Rx.lit 'd'))))))

example : Ascii demo := by decide +kernel
example : demo.search true (c! "zabcd") = some ⟨false, [], [(2, c! "bcd"), (1, c! "a")]⟩ := by decide +kernel
/-- It is preferred to the way with the right alternative. -/
example : Preferred [true, true, false] [false, true, true] := ⟨[], _, _, rfl, rfl⟩
example : ∃ u w cs, c! "zabcd" = u ++ (w ++ []) ∧ Finds demo u w [] cs ∧ GroupIs cs 1 (c! "a") ∧ GroupIs cs 2 (c! "bcd") ∧ GroupIs cs 3 [] := by
  obtain ⟨u, w, cs, h1, h2, h3, -⟩ := (C76_search (r := demo) (by decide +kernel) (c! "zabcd") ⟨false, [], [(2, c! "bcd"), (1, c! "a")]⟩).1 (by decide +kernel)
  have e : cs = [(1, c! "a"), (2, c! "bcd")] := by rw [← List.reverse_reverse cs, ← h3]; rfl
  subst e
  exact ⟨u, w, _, h1, h2, (groupIs_iff _ 1 _).1 (by decide +kernel), (groupIs_iff _ 2 _).1 (by decide +kernel), (groupIs_iff _ 3 _).1 (by decide +kernel)⟩
/-- The unanchored alternatives of the season pattern: text after the number is ignored. -/
example : Rx.Season.matchString (c! "2001-21xyz") = true := by decide +kernel
example : Rx.Season.matchString (c! "x2001-21") = false := by decide +kernel
example : InClass true [('s', 's')] '\u017f' := ⟨'s', 's', 's', by simp, by decide, by decide, .inr ⟨rfl, by decide⟩⟩
/-- The way with the left alternative, written out. -/
example : Way demo false (c! "abcd") [] [true, true, false] [(1, c! "a"), (2, c! "bcd")] :=
  .cat (w := c! "a") (v := c! "bcd") (cs := [(1, c! "a")]) (ds := [(2, c! "bcd")]) (p := [true]) (q := [true, false])
    (.grp (cs := []) (.left (.cls ⟨'a', 'a', 'a', by simp, by decide, by decide, .inl rfl⟩)))
    (.take (.grp (cs := []) (.right (.cat (w := c! "b") (v := c! "cd") (cs := []) (ds := []) (p := []) (q := [])
      (.cls ⟨'b', 'b', 'b', by simp, by decide, by decide, .inl rfl⟩)
      (.cat (w := c! "c") (v := c! "d") (cs := []) (ds := []) (p := []) (q := [])
        (.cls ⟨'c', 'c', 'c', by simp, by decide, by decide, .inl rfl⟩)
        (.cls ⟨'d', 'd', 'd', by simp, by decide, by decide, .inl rfl⟩))))))

end EDTF
