/- What the capture groups contain. -/
import Verif.LemmasWf
namespace EDTF
open Spec

/-- The group numbers in a pattern. -/
def Re.grps : Re → List Nat
  | .grp i a => i :: a.grps
  | .cat a b => a.grps ++ b.grps
  | .alt a b => a.grps ++ b.grps
  | .opt a => a.grps
  | .star a => a.grps
  | .plus a => a.grps
  | _ => []

theorem capOk_grps (r : Re) (i : Nat) (x : Str) (h : CapOk r i x) : i ∈ r.grps := by
  induction r with
  | grp j a ih =>
    rcases h with ⟨rfl, -⟩ | h
    · simp [Re.grps]
    · simp [Re.grps, ih h]
  | cat a b iha ihb => rcases h with h | h <;> simp [Re.grps, iha, ihb, h]
  | alt a b iha ihb => rcases h with h | h <;> simp [Re.grps, iha, ihb, h]
  | opt a ih => exact ih h
  | star a ih => exact ih h
  | plus a ih => exact ih h
  | eps => exact h.elim
  | cls _ _ => exact h.elim
  | bos => exact h.elim
  | eos => exact h.elim

theorem capOf_append_skip {cs caps : List (Nat × Str)} {i : Nat} (h : ∀ p ∈ cs, p.1 ≠ i) : capOf (cs ++ caps) i = capOf caps i := by
  induction cs with
  | nil => rfl
  | cons p cs ih =>
    obtain ⟨j, x⟩ := p
    have hj : (i == j) = false := by
      have := h (j, x) (by simp)
      simpa using fun e => this e.symm
    have := ih (fun p hp => h p (by simp [hp]))
    unfold capOf at this ⊢
    rw [List.cons_append, List.lookup_cons, hj]
    exact this

/-- A match consumes a word and leaves groups outside the pattern alone. -/
theorem run_skip {r : Re} {st st' : St} (h : st' ∈ r.run st) :
    ∃ w, st.rest = w ++ st'.rest ∧ Lang r w ∧ ∀ i, i ∉ r.grps → capOf st'.caps i = capOf st.caps i := by
  obtain ⟨w, e, l, cs, c, hc⟩ := run_sound r st st' h
  refine ⟨w, e, l, fun i hi => ?_⟩
  rw [c, capOf_append_skip]
  intro p hp e
  subst e
  exact hi (capOk_grps r _ _ (hc p hp))

/-- A group captures the word it consumes. -/
theorem run_cap {i : Nat} {r : Re} {st st' : St} (h : st' ∈ (Re.grp i r).run st) :
    ∃ w, st.rest = w ++ st'.rest ∧ Lang r w ∧ capOf st'.caps i = w ∧
      ∀ j, j ≠ i → j ∉ r.grps → capOf st'.caps j = capOf st.caps j := by
  simp only [Re.run, List.mem_map] at h
  obtain ⟨s1, h1, h2⟩ := h
  obtain ⟨w, e, l, c⟩ := run_skip h1
  subst h2
  refine ⟨w, e, l, ?_, fun j hj hr => ?_⟩
  · simp [capOf, e]
  · have : (j == i) = false := by simpa using hj
    rw [← c j hr]
    unfold capOf
    simp [List.lookup_cons, this]

/-! ### Letter-prefixed years -/

theorem letter_caps {s : Str} {m : Nat → Str} (h : Rx.LetterPrefixedCalendarYear.submatch s = some m) :
    s = 'Y' :: m 1 ∧ Lang (.opt (Rx.lit '-') ⬝ .plus Rx.digit) (m 1) := by
  obtain ⟨st', h1, h2, rfl⟩ := submatch_anch_some h
  obtain ⟨s1, h3, h4⟩ := mem_cat.1 h1
  obtain ⟨u, e, l, -⟩ := run_skip h3
  obtain ⟨w, e', l', c, -⟩ := run_cap h4
  rw [lang_lit] at l
  subst l
  rw [h2, List.append_nil] at e'
  simp only at e
  rw [c, e, e']
  exact ⟨rfl, l'⟩

/-! ### Sub-year groupings -/

theorem subYear_caps {s : Str} {m : Nat → Str} (h : Rx.SubYearGrouping.submatch s = some m) :
    s = m 1 ++ '-' :: m 2 ∧ Lang (Re.rep Rx.digit 4) (m 1) := by
  obtain ⟨st', h1, h2, rfl⟩ := submatch_anch_some h
  obtain ⟨s1, h3, h4⟩ := mem_cat.1 h1
  obtain ⟨s2, h5, h6⟩ := mem_cat.1 h4
  obtain ⟨u, e, l, c, -⟩ := run_cap h3
  obtain ⟨v, e', l', c'⟩ := run_skip h5
  obtain ⟨w, e'', l'', c'', k''⟩ := run_cap h6
  rw [lang_lit] at l'
  subst l'
  rw [h2, List.append_nil] at e''
  simp only at e
  rw [c'', k'' 1 (by decide) (by decide), c' 1 (by decide), c, e, e', e'']
  exact ⟨rfl, l⟩

/-! ### Exponential years -/

theorem exponential_caps {s : Str} {m : Nat → Str} (h : Rx.ExponentialYear.submatch s = some m) :
    ∃ c, clsHas true [('Y', 'Y')] c = true ∧ s = c :: m 1 ∧
      Lang (.opt (Rx.lit '-') ⬝ .plus Rx.digit ⬝ Rx.lit 'E' ⬝ .plus Rx.digit).ci (m 1) := by
  obtain ⟨st', h1, h2, rfl⟩ := submatch_anch_some h
  obtain ⟨s1, h3, h4⟩ := mem_cat.1 h1
  obtain ⟨u, e, l, -⟩ := run_skip h3
  obtain ⟨w, e', l', c, -⟩ := run_cap (show st' ∈ (Re.grp 1 _).run s1 from h4)
  obtain ⟨y, rfl, hy⟩ := l
  rw [h2, List.append_nil] at e'
  simp only at e
  refine ⟨y, hy, ?_, ?_⟩
  · rw [c, e, e']; rfl
  · rw [c]; exact l'

/-! ### Sets -/

/-- The content of a set, between its brackets. -/
def setBody : Re := .opt Rx.dots ⬝ (.plus (Rx.date 3 ⬝ .opt (Rx.lit ',' ∥ Rx.dots)) ⬝ .opt Rx.dots)

theorem set_caps {s : Str} {m : Nat → Str} (h : Rx.SetRepresentations.submatch s = some m) :
    ∃ b b', (b = '[' ∨ b = '{') ∧ (b' = ']' ∨ b' = '}') ∧ m 1 = [b] ∧ s = b :: (m 2 ++ [b']) ∧ Lang setBody (m 2) := by
  obtain ⟨st', h1, h2, rfl⟩ := submatch_anch_some h
  obtain ⟨s1, h3, h4⟩ := mem_cat.1 h1
  obtain ⟨s2, h5, h6⟩ := mem_cat.1 h4
  obtain ⟨u, e, l, c, -⟩ := run_cap h3
  obtain ⟨w, e', l', c', k'⟩ := run_cap h5
  obtain ⟨v, e'', l'', c''⟩ := run_skip h6
  rw [h2, List.append_nil] at e''
  obtain ⟨b', rfl, hb'⟩ := l''
  simp only at e
  have g1 : capOf st'.caps 1 = u := by rw [c'' 1 (by decide), k' 1 (by decide) (by decide), c]
  have g2 : capOf st'.caps 2 = w := by rw [c'' 2 (by decide), c']
  have hb : b' = ']' ∨ b' = '}' := by
    simp [clsHas, inR_single] at hb'
    exact hb'.symm
  rw [lang_alt, lang_lit, lang_lit] at l
  rcases l with rfl | rfl
  · exact ⟨'[', b', .inl rfl, hb, g1, by rw [g2, e, e', e'']; rfl, by rw [g2]; exact l'⟩
  · exact ⟨'{', b', .inr rfl, hb, g1, by rw [g2, e, e', e'']; rfl, by rw [g2]; exact l'⟩

/-! ### Significant digits -/

theorem sig_caps {s : Str} {m : Nat → Str} (h : Rx.SignificantDigits.submatch s = some m) :
    Lang (.plus Rx.digit) (m 4) ∧
    ((Lang Rx.year4 (m 1) ∧ m 2 = [] ∧ m 3 = [] ∧ s = m 1 ++ 'S' :: m 4) ∨
     (m 1 = [] ∧ Lang (.opt (Rx.lit '-') ⬝ .plus Rx.digit) (m 2) ∧ m 3 = [] ∧ s = 'Y' :: (m 2 ++ 'S' :: m 4)) ∨
     (m 1 = [] ∧ m 2 = [] ∧ Lang (.opt (Rx.lit '-') ⬝ .plus Rx.digit ⬝ Rx.lit 'E' ⬝ .plus Rx.digit).ci (m 3) ∧
        ∃ c, clsHas true [('Y', 'Y')] c = true ∧ s = c :: (m 3 ++ 'S' :: m 4))) := by
  obtain ⟨st', h1, h2, rfl⟩ := submatch_anch_some h
  obtain ⟨s1, h3, h4⟩ := mem_cat.1 h1
  obtain ⟨s2, h5, h6⟩ := mem_cat.1 h4
  obtain ⟨v, e', l', c'⟩ := run_skip h5
  obtain ⟨w, e'', l'', c'', k''⟩ := run_cap h6
  rw [lang_lit] at l'
  subst l'
  rw [h2, List.append_nil] at e''
  have g : ∀ i, i ≠ 4 → capOf st'.caps i = capOf s1.caps i := fun i hi => by
    rw [k'' i hi (by simp [Re.grps, Rx.digit]), c' i (by simp [Re.grps, Rx.lit])]
  rw [c'', g 1 (by decide), g 2 (by decide), g 3 (by decide)]
  refine ⟨l'', ?_⟩
  rcases mem_alt.1 h3 with h3 | h3
  · obtain ⟨u, e, l, c, k⟩ := run_cap h3
    simp only at e
    refine .inl ⟨by rw [c]; exact l, by rw [k 2 (by decide) (by decide)]; rfl, by rw [k 3 (by decide) (by decide)]; rfl, ?_⟩
    rw [c, e, e', e'']; rfl
  · rcases mem_alt.1 h3 with h3 | h3
    · obtain ⟨s0, h7, h8⟩ := mem_cat.1 h3
      obtain ⟨u0, e0, l0, c0⟩ := run_skip h7
      obtain ⟨u, e, l, c, k⟩ := run_cap h8
      rw [lang_lit] at l0
      subst l0
      simp only at e0
      refine .inr (.inl ⟨by rw [k 1 (by decide) (by decide), c0 1 (by decide)]; rfl, by rw [c]; exact l,
        by rw [k 3 (by decide) (by decide), c0 3 (by decide)]; rfl, ?_⟩)
      rw [c, e0, e, e', e'']; simp
    · obtain ⟨s0, h7, h8⟩ := mem_cat.1 (show s1 ∈ (Re.cat _ _).run _ from h3)
      obtain ⟨u0, e0, l0, c0⟩ := run_skip h7
      obtain ⟨u, e, l, c, k⟩ := run_cap (show s1 ∈ (Re.grp 3 _).run s0 from h8)
      obtain ⟨y, rfl, hy⟩ := l0
      simp only at e0
      refine .inr (.inr ⟨by rw [k 1 (by decide) (by decide), c0 1 (by decide)]; rfl,
        by rw [k 2 (by decide) (by decide), c0 2 (by decide)]; rfl, by rw [c]; exact l, y, hy, ?_⟩)
      rw [c, e0, e, e', e'']; simp

/-! ### Seasons -/

theorem search_some_cons {r : Re} {b : Bool} {c : Char} {cs : Str} :
    r.search b (c :: cs) = match (r.run ⟨b, c :: cs, []⟩).head? with
      | some s => some s
      | none => r.search false cs := rfl

/-- The text season pattern matches somewhere: at a suffix. -/
theorem search_false {a b : Re} {s : Str} {st' : St} (h : ((Re.cat .bos a) ∥ b).search false s = some st') :
    ∃ u v, s = u ++ v ∧ st' ∈ b.run ⟨false, v, []⟩ := by
  induction s with
  | nil =>
    unfold Re.search at h
    have := List.mem_of_mem_head? h
    rcases mem_alt.1 this with h | h
    · rw [run_bos _ _ rfl] at h; cases h
    · exact ⟨[], [], rfl, h⟩
  | cons c cs ih =>
    rw [search_some_cons] at h
    split at h
    · rename_i s1 hs
      injection h with h
      subst h
      have := List.mem_of_mem_head? hs
      rcases mem_alt.1 this with h | h
      · rw [run_bos _ _ rfl] at h; cases h
      · exact ⟨[], c :: cs, rfl, h⟩
    · obtain ⟨u, v, e, h⟩ := ih h
      exact ⟨c :: u, v, by rw [e]; rfl, h⟩

/-- The months and season codes of PATTERN_SEASON. -/
def seasonCode : Re := (Rx.lit '0' ⬝ .cls false [('1', '9')]) ∥ (Rx.lit '1' ⬝ .cls false [('0', '2')]) ∥
     (Rx.lit '2' ⬝ .cls false [('1', '4')])

def seasonWord : Re := Rx.word (c! "spring") ∥ Rx.word (c! "summer") ∥ Rx.word (c! "fall") ∥ Rx.word (c! "winter")

theorem seasonText_run {b : Bool} {v : Str} {st' : St} (h : st' ∈ (Re.cat (Rx.seasonText 3) .eos).run ⟨b, v, []⟩) :
    capOf st'.caps 1 = [] ∧ Lang seasonWord (capOf st'.caps 3) ∧ Lang (Re.rep Rx.digit.ci 4) (capOf st'.caps 4) ∧
    ∃ s1 s2, Lang (.star Rx.sp.ci) s1 ∧ Lang (.star Rx.sp.ci) s2 ∧ ∃ c, clsHas true [(',', ',')] c = true ∧
      v = capOf st'.caps 3 ++ (s1 ++ c :: (s2 ++ capOf st'.caps 4)) := by
  obtain ⟨h, he⟩ := (run_eos_mem _ _ _).1 h
  obtain ⟨t1, h1, h⟩ := mem_cat.1 h
  obtain ⟨t2, h2, h⟩ := mem_cat.1 h
  obtain ⟨t3, h3, h⟩ := mem_cat.1 h
  obtain ⟨t4, h4, h5⟩ := mem_cat.1 h
  obtain ⟨w1, e1, l1, c1, k1⟩ := run_cap h1
  obtain ⟨w2, e2, l2, c2⟩ := run_skip h2
  obtain ⟨w3, e3, l3, c3⟩ := run_skip h3
  obtain ⟨w4, e4, l4, c4⟩ := run_skip h4
  obtain ⟨w5, e5, l5, c5, k5⟩ := run_cap h5
  rw [he, List.append_nil] at e5
  simp only at e1
  have g : ∀ i, i ≠ 4 → capOf st'.caps i = capOf t1.caps i := fun i hi => by
    rw [k5 i hi (by simp [Re.rep, Re.grps, Rx.digit, Re.ci]), c4 i (by simp [Re.grps, Rx.sp, Re.ci]),
      c3 i (by simp [Re.grps, Rx.lit, Re.ci]), c2 i (by simp [Re.grps, Rx.sp, Re.ci])]
  obtain ⟨x, rfl, hx⟩ := l3
  rw [g 1 (by decide), g 3 (by decide), k1 1 (by decide) (by decide), c1, c5]
  refine ⟨rfl, l1, l5, w2, w4, l2, l4, x, hx, ?_⟩
  rw [e1, e2, e3, e4, e5]; rfl

theorem seasonNum_run {b : Bool} {v : Str} {st' : St} (h : st' ∈ (Rx.seasonNum 1).run ⟨b, v, []⟩) :
    Lang Rx.year4 (capOf st'.caps 1) ∧ Lang seasonCode (capOf st'.caps 2) ∧
      ∃ rest, v = capOf st'.caps 1 ++ '-' :: (capOf st'.caps 2 ++ rest) := by
  obtain ⟨t1, h1, h⟩ := mem_cat.1 h
  obtain ⟨t2, h2, h3⟩ := mem_cat.1 h
  obtain ⟨w1, e1, l1, c1, k1⟩ := run_cap h1
  obtain ⟨w2, e2, l2, c2⟩ := run_skip h2
  obtain ⟨w3, e3, l3, c3, k3⟩ := run_cap h3
  rw [lang_lit] at l2
  subst l2
  simp only at e1
  rw [c3, k3 1 (by decide) (by decide), c2 1 (by decide), c1]
  exact ⟨l1, l3, _, by rw [e1, e2, e3]; rfl⟩

/-- `s` begins with a year, a dash and a month or season code. -/
def SeasonPrefix (s : Str) : Prop := ∃ y c rest, Lang Rx.year4 y ∧ Lang seasonCode c ∧ s = y ++ '-' :: (c ++ rest)

/-- `s` ends with a season in words. -/
def SeasonSuffix (s : Str) : Prop :=
  ∃ pre w s1 c s2 y, Lang seasonWord w ∧ Lang (.star Rx.sp.ci) s1 ∧ clsHas true [(',', ',')] c = true ∧
    Lang (.star Rx.sp.ci) s2 ∧ Lang (Re.rep Rx.digit.ci 4) y ∧ s = pre ++ (w ++ (s1 ++ c :: (s2 ++ y)))

theorem season_caps {s : Str} {m : Nat → Str} (h : Rx.Season.submatch s = some m) :
    (Lang Rx.year4 (m 1) ∧ Lang seasonCode (m 2) ∧ ∃ rest, s = m 1 ++ '-' :: (m 2 ++ rest)) ∨
    (¬ SeasonPrefix s ∧ m 1 = [] ∧ Lang seasonWord (m 3) ∧ Lang (Re.rep Rx.digit.ci 4) (m 4) ∧
      ∃ pre s1 c s2, Lang (.star Rx.sp.ci) s1 ∧ clsHas true [(',', ',')] c = true ∧ Lang (.star Rx.sp.ci) s2 ∧
        s = pre ++ (m 3 ++ (s1 ++ c :: (s2 ++ m 4)))) := by
  unfold Re.submatch at h
  obtain ⟨st', h', rfl⟩ := Option.map_eq_some_iff.1 h
  clear h
  have h := h'
  clear h'
  -- whether the numeric form matches at the beginning
  by_cases hp : SeasonPrefix s
  · obtain ⟨y, c, rest, hy, hc, rfl⟩ := hp
    have hl : Lang (Rx.seasonNum 1) (y ++ ('-' :: c)) := ⟨y, '-' :: c, rfl, hy, ['-'], c, rfl, lang_lit.2 rfl, hc⟩
    obtain ⟨t, ht, -⟩ := run_complete (Rx.seasonNum 1) (by decide) _ true rest [] hl
    have hne : (Rx.seasonNum 1).run ⟨true, y ++ '-' :: (c ++ rest), []⟩ ≠ [] := by
      intro e
      rw [List.append_assoc, List.cons_append, e] at ht
      cases ht
    have hhead : (Rx.Season.run ⟨true, y ++ '-' :: (c ++ rest), []⟩).head? =
        ((Rx.seasonNum 1).run ⟨true, y ++ '-' :: (c ++ rest), []⟩).head? := by
      show ((Re.cat .bos (Rx.seasonNum 1)).run _ ++ _).head? = _
      have : (Re.cat .bos (Rx.seasonNum 1)).run ⟨true, y ++ '-' :: (c ++ rest), []⟩ =
          (Rx.seasonNum 1).run ⟨true, y ++ '-' :: (c ++ rest), []⟩ := by simp [Re.run]
      rw [this, List.head?_append]
      cases hr : (Rx.seasonNum 1).run ⟨true, y ++ '-' :: (c ++ rest), []⟩ with
      | nil => exact absurd hr hne
      | cons a as => rfl
    have hmem : st' ∈ (Rx.seasonNum 1).run ⟨true, y ++ '-' :: (c ++ rest), []⟩ := by
      obtain ⟨a, as, e⟩ : ∃ a as, y ++ '-' :: (c ++ rest) = a :: as := by
        cases y with
        | nil => exact ⟨_, _, rfl⟩
        | cons a as => exact ⟨_, _, rfl⟩
      rw [e, search_some_cons, ← e, hhead] at h
      cases hr : ((Rx.seasonNum 1).run ⟨true, y ++ '-' :: (c ++ rest), []⟩).head? with
      | none => simp at hr; exact absurd hr hne
      | some a =>
        rw [hr] at h
        simp only [Option.some.injEq] at h
        subst h
        exact List.mem_of_mem_head? hr
    exact .inl (seasonNum_run hmem)
  · refine .inr ⟨hp, ?_⟩
    have fin : ∀ b pre v, s = pre ++ v → st' ∈ (Re.cat (Rx.seasonText 3) .eos).run ⟨b, v, []⟩ →
        capOf st'.caps 1 = [] ∧ Lang seasonWord (capOf st'.caps 3) ∧ Lang (Re.rep Rx.digit.ci 4) (capOf st'.caps 4) ∧
        ∃ pre s1 c s2, Lang (.star Rx.sp.ci) s1 ∧ clsHas true [(',', ',')] c = true ∧ Lang (.star Rx.sp.ci) s2 ∧
          s = pre ++ (capOf st'.caps 3 ++ (s1 ++ c :: (s2 ++ capOf st'.caps 4))) := by
      intro b pre v e hv
      obtain ⟨h1, h2, h3, s1, s2, l1, l2, c, hc, e'⟩ := seasonText_run hv
      exact ⟨h1, h2, h3, pre, s1, c, s2, l1, hc, l2, by rw [e]; congr 1⟩
    cases s with
    | nil =>
      have := List.mem_of_mem_head? (show (Rx.Season.run ⟨true, [], []⟩).head? = some st' from h)
      rcases mem_alt.1 this with h' | h'
      · exfalso
        have : st' ∈ (Rx.seasonNum 1).run ⟨true, [], []⟩ := by simpa [Re.run] using h'
        obtain ⟨a, b, r, e⟩ := seasonNum_run this
        simp at e
      · exact fin _ [] _ rfl h'
    | cons a as =>
      rw [search_some_cons] at h
      split at h
      · rename_i s1 hs
        injection h with h
        subst h
        rcases mem_alt.1 (List.mem_of_mem_head? hs) with h' | h'
        · exfalso
          have : s1 ∈ (Rx.seasonNum 1).run ⟨true, a :: as, []⟩ := by simpa [Re.run] using h'
          obtain ⟨l1, l2, r, e⟩ := seasonNum_run this
          exact hp ⟨_, _, r, l1, l2, e⟩
        · exact fin _ [] _ rfl h'
      · obtain ⟨u, v, e, h'⟩ := search_false h
        exact fin _ (a :: u) v (by rw [e]; rfl) h'

theorem search_complete {r : Re} {s pre v : Str} (b : Bool) (e : s = pre ++ v) (h : ∀ b, r.run ⟨b, v, []⟩ ≠ []) :
    (r.search b s).isSome = true := by
  induction pre generalizing s b with
  | nil =>
    simp only [List.nil_append] at e
    subst e
    have hb := h b
    cases s with
    | nil =>
      unfold Re.search
      cases hr : r.run ⟨b, [], []⟩ with
      | nil => exact absurd hr hb
      | cons a as => rfl
    | cons c cs =>
      rw [search_some_cons]
      cases hr : r.run ⟨b, c :: cs, []⟩ with
      | nil => exact absurd hr hb
      | cons a as => rfl
  | cons c cs ih =>
    subst e
    rw [List.cons_append, search_some_cons]
    split
    · rfl
    · exact ih false rfl

/-- The season test: a prefix of one kind or a suffix of the other. -/
theorem season_iff {s : Str} : L1.isSeason s = true ↔ SeasonPrefix s ∨ SeasonSuffix s := by
  unfold L1.isSeason
  rw [← isSome_submatch]
  constructor
  · intro h
    obtain ⟨m, hm⟩ := Option.isSome_iff_exists.1 h
    rcases season_caps hm with ⟨h1, h2, r, e⟩ | ⟨-, -, h3, h4, pre, s1, c, s2, l1, hc, l2, e⟩
    · exact .inl ⟨_, _, r, h1, h2, e⟩
    · exact .inr ⟨pre, _, s1, c, s2, _, h3, l1, hc, l2, h4, e⟩
  · intro h
    rw [isSome_submatch]
    rcases h with ⟨y, c, rest, hy, hc, rfl⟩ | ⟨pre, w, s1, c, s2, y, hw, l1, hc, l2, hy, e⟩
    · have hl : Lang (Rx.seasonNum 1) (y ++ ('-' :: c)) := ⟨y, '-' :: c, rfl, hy, ['-'], c, rfl, lang_lit.2 rfl, hc⟩
      obtain ⟨t, ht, -⟩ := run_complete (Rx.seasonNum 1) (by decide) _ true rest [] hl
      have hne : Rx.Season.run ⟨true, y ++ '-' :: (c ++ rest), []⟩ ≠ [] := by
        intro e
        have : t ∈ Rx.Season.run ⟨true, y ++ '-' :: (c ++ rest), []⟩ := by
          refine mem_alt.2 (.inl ?_)
          rw [List.append_assoc, List.cons_append] at ht
          simpa [Re.run] using ht
        rw [e] at this
        cases this
      unfold Re.matchString
      obtain ⟨a, as, e⟩ : ∃ a as, y ++ '-' :: (c ++ rest) = a :: as := by
        cases y with
        | nil => exact ⟨_, _, rfl⟩
        | cons a as => exact ⟨_, _, rfl⟩
      rw [e, search_some_cons, ← e]
      cases hr : Rx.Season.run ⟨true, y ++ '-' :: (c ++ rest), []⟩ with
      | nil => exact absurd hr hne
      | cons a as => rfl
    · refine search_complete true e (fun b hr => ?_)
      have hl : Lang (Rx.seasonText 3) (w ++ (s1 ++ c :: (s2 ++ y))) :=
        ⟨w, _, rfl, hw, s1, _, rfl, l1, [c], s2 ++ y, rfl, ⟨c, rfl, hc⟩, s2, y, rfl, l2, hy⟩
      obtain ⟨t, ht, ht2⟩ := run_complete (Rx.seasonText 3) (by decide) _ b [] [] hl
      have : t ∈ Rx.Season.run ⟨b, w ++ (s1 ++ c :: (s2 ++ y)), []⟩ := by
        refine mem_alt.2 (.inr ((run_eos_mem _ _ _).2 ⟨?_, ht2⟩))
        simpa using ht
      rw [hr] at this
      cases this

end EDTF
