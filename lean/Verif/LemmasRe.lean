/- General theory of the regex matcher: languages, soundness, completeness. -/
import Verif.Patterns
namespace EDTF

/-- Zero or more non-empty words of `P`. -/
inductive Star (P : Str → Prop) : Str → Prop
  | nil : Star P []
  | cons (u v : Str) : P u → u ≠ [] → Star P v → Star P (u ++ v)

/-- The language of a regex, ignoring anchors. -/
def Lang : Re → Str → Prop
  | .eps, w => w = []
  | .cls f rs, w => ∃ c, w = [c] ∧ clsHas f rs c = true
  | .bos, w => w = []
  | .eos, w => w = []
  | .cat a b, w => ∃ u v, w = u ++ v ∧ Lang a u ∧ Lang b v
  | .alt a b, w => Lang a w ∨ Lang b w
  | .opt a, w => w = [] ∨ Lang a w
  | .star a, w => Star (Lang a) w
  | .plus a, w => ∃ u v, w = u ++ v ∧ Lang a u ∧ Star (Lang a) v
  | .grp _ a, w => Lang a w

/-- `x` is a possible text for group `i` of `r`. -/
def CapOk : Re → Nat → Str → Prop
  | .cat a b, i, x => CapOk a i x ∨ CapOk b i x
  | .alt a b, i, x => CapOk a i x ∨ CapOk b i x
  | .opt a, i, x => CapOk a i x
  | .star a, i, x => CapOk a i x
  | .plus a, i, x => CapOk a i x
  | .grp j a, i, x => (i = j ∧ Lang a x) ∨ CapOk a i x
  | _, _, _ => False

/-- No anchors inside. -/
def Re.free : Re → Bool
  | .eps | .cls _ _ => true
  | .bos | .eos => false
  | .cat a b => a.free && b.free
  | .alt a b => a.free && b.free
  | .opt a => a.free
  | .star a => a.free
  | .plus a => a.free
  | .grp _ a => a.free

/-! ### Soundness -/

/-- What a successful step from `st` to `st'` over `r` means. -/
def Sound (L : Str → Prop) (C : Nat → Str → Prop) (st st' : St) : Prop :=
  ∃ w, st.rest = w ++ st'.rest ∧ L w ∧
    ∃ cs, st'.caps = cs ++ st.caps ∧ ∀ p ∈ cs, C p.1 p.2

theorem starRun_sound {L : Str → Prop} {C : Nat → Str → Prop} {f : St → List St}
    (hf : ∀ st st', st' ∈ f st → Sound L C st st') (n : Nat) (st st' : St) (h : st' ∈ starRun f n st) :
    Sound (Star L) C st st' := by
  induction n generalizing st with
  | zero =>
    simp only [starRun, List.mem_singleton] at h
    subst h
    exact ⟨[], rfl, .nil, [], rfl, by simp⟩
  | succ n ih =>
    simp only [starRun, List.mem_append, List.mem_flatMap, List.mem_filter, decide_eq_true_eq,
      List.mem_singleton] at h
    rcases h with ⟨s1, ⟨h1, h2⟩, h3⟩ | h
    · obtain ⟨w1, e1, l1, c1, d1, k1⟩ := hf _ _ h1
      obtain ⟨w2, e2, l2, c2, d2, k2⟩ := ih _ h3
      refine ⟨w1 ++ w2, by rw [e1, e2]; simp, .cons w1 w2 l1 ?_ l2, c2 ++ c1, by rw [d2, d1]; simp, ?_⟩
      · rintro rfl; simp only [List.nil_append] at e1; rw [e1] at h2; omega
      · intro p hp
        rcases List.mem_append.1 hp with hp | hp
        · exact k2 p hp
        · exact k1 p hp
    · subst h; exact ⟨[], rfl, .nil, [], rfl, by simp⟩

theorem run_sound (r : Re) (st st' : St) (h : st' ∈ r.run st) : Sound (Lang r) (CapOk r) st st' := by
  induction r generalizing st st' with
  | eps => simp only [Re.run, List.mem_singleton] at h; subst h; exact ⟨[], rfl, rfl, [], rfl, by simp⟩
  | cls f rs =>
    simp only [Re.run] at h
    split at h
    · simp at h
    · rename_i c cs hc
      split at h
      · simp only [List.mem_singleton] at h; subst h
        exact ⟨[c], by simp [hc], ⟨c, rfl, by assumption⟩, [], rfl, by simp⟩
      · simp at h
  | bos =>
    simp only [Re.run] at h
    split at h <;> simp at h
    subst h; exact ⟨[], rfl, rfl, [], rfl, by simp⟩
  | eos =>
    simp only [Re.run] at h
    split at h <;> simp at h
    subst h; exact ⟨[], rfl, rfl, [], rfl, by simp⟩
  | cat a b iha ihb =>
    simp only [Re.run, List.mem_flatMap] at h
    obtain ⟨s1, h1, h2⟩ := h
    obtain ⟨w1, e1, l1, c1, d1, k1⟩ := iha _ _ h1
    obtain ⟨w2, e2, l2, c2, d2, k2⟩ := ihb _ _ h2
    refine ⟨w1 ++ w2, by rw [e1, e2]; simp, ⟨w1, w2, rfl, l1, l2⟩, c2 ++ c1, by rw [d2, d1]; simp, ?_⟩
    intro p hp
    rcases List.mem_append.1 hp with hp | hp
    · exact Or.inr (k2 p hp)
    · exact Or.inl (k1 p hp)
  | alt a b iha ihb =>
    simp only [Re.run, List.mem_append] at h
    rcases h with h | h
    · obtain ⟨w, e, l, c, d, k⟩ := iha _ _ h
      exact ⟨w, e, Or.inl l, c, d, fun p hp => Or.inl (k p hp)⟩
    · obtain ⟨w, e, l, c, d, k⟩ := ihb _ _ h
      exact ⟨w, e, Or.inr l, c, d, fun p hp => Or.inr (k p hp)⟩
  | opt a iha =>
    simp only [Re.run, List.mem_append, List.mem_singleton] at h
    rcases h with h | h
    · obtain ⟨w, e, l, c, d, k⟩ := iha _ _ h
      exact ⟨w, e, Or.inr l, c, d, k⟩
    · subst h; exact ⟨[], rfl, Or.inl rfl, [], rfl, by simp⟩
  | star a iha =>
    simp only [Re.run] at h
    exact starRun_sound iha _ _ _ h
  | plus a iha =>
    simp only [Re.run, List.mem_flatMap] at h
    obtain ⟨s1, h1, h2⟩ := h
    obtain ⟨w1, e1, l1, c1, d1, k1⟩ := iha _ _ h1
    obtain ⟨w2, e2, l2, c2, d2, k2⟩ := starRun_sound iha _ _ _ h2
    refine ⟨w1 ++ w2, by rw [e1, e2]; simp, ⟨w1, w2, rfl, l1, l2⟩, c2 ++ c1, by rw [d2, d1]; simp, ?_⟩
    intro p hp
    rcases List.mem_append.1 hp with hp | hp
    · exact k2 p hp
    · exact k1 p hp
  | grp i a iha =>
    simp only [Re.run, List.mem_map] at h
    obtain ⟨s1, h1, h2⟩ := h
    obtain ⟨w, e, l, c, d, k⟩ := iha _ _ h1
    subst h2
    have ht : st.rest.take (st.rest.length - s1.rest.length) = w := by
      rw [e]; simp
    refine ⟨w, e, l, (i, w) :: c, by simp [d, ht], ?_⟩
    intro p hp
    rcases List.mem_cons.1 hp with hp | hp
    · subst hp; exact Or.inl ⟨rfl, l⟩
    · exact Or.inr (k p hp)

/-! ### Completeness -/

theorem starRun_complete {L : Str → Prop} {f : St → List St}
    (hf : ∀ w b rest caps, L w → ∃ st' ∈ f ⟨b, w ++ rest, caps⟩, st'.rest = rest)
    {w : Str} (hw : Star L w) (n : Nat) (hn : w.length ≤ n) (b : Bool) (rest : Str) (caps : List (Nat × Str)) :
    ∃ st' ∈ starRun f n ⟨b, w ++ rest, caps⟩, st'.rest = rest := by
  induction hw generalizing n b caps with
  | nil =>
    refine ⟨⟨b, rest, caps⟩, ?_, rfl⟩
    cases n <;> simp [starRun]
  | cons u v hu hne _ ih =>
    have hul : 1 ≤ u.length := by cases u with | nil => exact absurd rfl hne | cons => simp
    cases n with
    | zero => simp at hn; simp [hn.1] at hne
    | succ n =>
      obtain ⟨s1, h1, e1⟩ := hf u b (v ++ rest) caps hu
      obtain ⟨s2, h2, e2⟩ := ih n (by simp only [List.length_append] at hn; omega) s1.beg s1.caps
      refine ⟨s2, ?_, e2⟩
      simp only [starRun, List.mem_append, List.mem_flatMap, List.mem_filter, decide_eq_true_eq]
      left
      refine ⟨s1, ⟨?_, ?_⟩, ?_⟩
      · simpa using h1
      · rw [e1]; simp only [List.length_append]; omega
      · have : s1 = ⟨s1.beg, v ++ rest, s1.caps⟩ := by cases s1; simp_all
        rw [this]; exact h2

theorem run_complete (r : Re) (hr : r.free = true) (w : Str) (b : Bool) (rest : Str) (caps : List (Nat × Str))
    (h : Lang r w) : ∃ st' ∈ r.run ⟨b, w ++ rest, caps⟩, st'.rest = rest := by
  induction r generalizing w b rest caps with
  | eps => simp only [Lang] at h; subst h; exact ⟨⟨b, rest, caps⟩, by simp [Re.run], rfl⟩
  | cls f rs =>
    obtain ⟨c, rfl, hc⟩ := h
    exact ⟨⟨false, rest, caps⟩, by simp [Re.run, hc], rfl⟩
  | bos => simp [Re.free] at hr
  | eos => simp [Re.free] at hr
  | cat x y ihx ihy =>
    simp only [Re.free, Bool.and_eq_true] at hr
    obtain ⟨u, v, rfl, hu, hv⟩ := h
    obtain ⟨s1, h1, e1⟩ := ihx hr.1 u b (v ++ rest) caps hu
    obtain ⟨s2, h2, e2⟩ := ihy hr.2 v s1.beg rest s1.caps hv
    refine ⟨s2, ?_, e2⟩
    simp only [Re.run, List.mem_flatMap]
    refine ⟨s1, by simpa using h1, ?_⟩
    have : s1 = ⟨s1.beg, v ++ rest, s1.caps⟩ := by cases s1; simp_all
    rw [this]; exact h2
  | alt x y ihx ihy =>
    simp only [Re.free, Bool.and_eq_true] at hr
    rcases h with h | h
    · obtain ⟨s, hs, e⟩ := ihx hr.1 w b rest caps h
      exact ⟨s, by simp [Re.run, hs], e⟩
    · obtain ⟨s, hs, e⟩ := ihy hr.2 w b rest caps h
      exact ⟨s, by simp [Re.run, hs], e⟩
  | opt x ihx =>
    simp only [Re.free] at hr
    rcases h with h | h
    · subst h; exact ⟨⟨b, rest, caps⟩, by simp [Re.run], rfl⟩
    · obtain ⟨s, hs, e⟩ := ihx hr w b rest caps h
      exact ⟨s, by simp [Re.run, hs], e⟩
  | star x ihx =>
    simp only [Re.free] at hr
    simp only [Re.run]
    exact starRun_complete (fun w b rest caps h => ihx hr w b rest caps h) h _ (by simp) b rest caps
  | plus x ihx =>
    simp only [Re.free] at hr
    obtain ⟨u, v, rfl, hu, hv⟩ := h
    obtain ⟨s1, h1, e1⟩ := ihx hr u b (v ++ rest) caps hu
    obtain ⟨s2, h2, e2⟩ := starRun_complete (fun w b rest caps h => ihx hr w b rest caps h) hv
      (v ++ rest).length (by simp) s1.beg rest s1.caps
    refine ⟨s2, ?_, e2⟩
    simp only [Re.run, List.mem_flatMap]
    refine ⟨s1, by simpa using h1, ?_⟩
    have : s1 = ⟨s1.beg, v ++ rest, s1.caps⟩ := by cases s1; simp_all
    rw [this]; exact h2
  | grp i x ihx =>
    simp only [Re.free] at hr
    obtain ⟨s, hs, e⟩ := ihx hr w b rest caps h
    simp only [Re.run, List.mem_map]
    exact ⟨_, ⟨s, hs, rfl⟩, e⟩

/-! ### Searching -/

theorem run_bos (r : Re) (st : St) (h : st.beg = false) : (Re.cat .bos r).run st = [] := by
  simp [Re.run, h]

/-- A pattern starting with `^` is only tried at the beginning. -/
theorem search_bos (r : Re) (s : Str) :
    (Re.cat .bos r).search true s = (r.run ⟨true, s, []⟩).head? := by
  have none : ∀ s, (Re.cat .bos r).search false s = none := by
    intro s
    induction s with
    | nil => simp [Re.search, run_bos]
    | cons c cs ih => simp [Re.search, run_bos, ih]
  cases s with
  | nil => simp [Re.search, Re.run]
  | cons c cs =>
    simp only [Re.search, none]
    have : (Re.cat .bos r).run ⟨true, c :: cs, []⟩ = r.run ⟨true, c :: cs, []⟩ := by simp [Re.run]
    rw [this]
    cases (r.run ⟨true, c :: cs, []⟩).head? <;> rfl

theorem run_eos_mem (r : Re) (st st' : St) :
    st' ∈ (Re.cat r .eos).run st ↔ st' ∈ r.run st ∧ st'.rest = [] := by
  simp only [Re.run, List.mem_flatMap]
  constructor
  · rintro ⟨a, h1, h2⟩
    split at h2 <;> simp at h2
    subst h2
    rename_i h
    exact ⟨h1, List.isEmpty_iff.1 h⟩
  · rintro ⟨h1, h2⟩
    exact ⟨st', h1, by simp [h2]⟩

/-- MatchString of `^r$` is membership in the language. -/
theorem matchString_anch (r : Re) (hr : r.free = true) (s : Str) :
    (Rx.anch r).matchString s = true ↔ Lang r s := by
  unfold Re.matchString Rx.anch
  rw [search_bos]
  constructor
  · intro h
    rw [Option.isSome_iff_exists] at h
    obtain ⟨st', h⟩ := h
    have hm := List.mem_of_mem_head? h
    obtain ⟨h1, h2⟩ := (run_eos_mem _ _ _).1 hm
    obtain ⟨w, e, l, -⟩ := run_sound _ _ _ h1
    simp only [h2, List.append_nil] at e
    subst e; exact l
  · intro h
    obtain ⟨st', h1, h2⟩ := run_complete r hr s true [] [] h
    simp only [List.append_nil] at h1
    have := (run_eos_mem r _ _).2 ⟨h1, h2⟩
    cases hc : (Re.cat r .eos).run ⟨true, s, []⟩ with
    | nil => rw [hc] at this; simp at this
    | cons => simp

theorem matchString_anch_false (r : Re) (hr : r.free = true) (s : Str) :
    (Rx.anch r).matchString s = false ↔ ¬ Lang r s := by
  rw [← matchString_anch r hr s]; simp

/-- A submatch of `^r$`, as a state. -/
theorem submatch_anch_some {r : Re} {s : Str} {m : Nat → Str} (h : (Rx.anch r).submatch s = some m) :
    ∃ st', st' ∈ r.run ⟨true, s, []⟩ ∧ st'.rest = [] ∧ m = capOf st'.caps := by
  unfold Re.submatch Rx.anch at h
  rw [search_bos] at h
  rw [Option.map_eq_some_iff] at h
  obtain ⟨st', h1, h2⟩ := h
  have := (run_eos_mem _ _ _).1 (List.mem_of_mem_head? h1)
  exact ⟨st', this.1, this.2, h2.symm⟩

theorem submatch_anch_isSome (r : Re) (hr : r.free = true) (s : Str) :
    ((Rx.anch r).submatch s).isSome = true ↔ Lang r s := by
  rw [← matchString_anch r hr s]
  unfold Re.submatch Re.matchString
  rw [Option.isSome_map]

theorem submatch_anch_none (r : Re) (hr : r.free = true) (s : Str) :
    (Rx.anch r).submatch s = none ↔ ¬ Lang r s := by
  rw [← submatch_anch_isSome r hr s]
  cases (Rx.anch r).submatch s <;> simp

theorem isSome_submatch (r : Re) (s : Str) : (r.submatch s).isSome = r.matchString s := by
  unfold Re.submatch Re.matchString; rw [Option.isSome_map]

/-- The text of a group is empty or in the group's language. -/
theorem capOf_ok {C : Nat → Str → Prop} {cs : List (Nat × Str)} (h : ∀ p ∈ cs, C p.1 p.2) (i : Nat) :
    capOf cs i = [] ∨ C i (capOf cs i) := by
  unfold capOf
  cases hl : cs.lookup i with
  | none => simp
  | some x =>
    right
    simp only [Option.getD_some]
    have : (i, x) ∈ cs := by
      induction cs with
      | nil => simp at hl
      | cons p ps ih =>
        obtain ⟨a, b⟩ := p
        rw [List.lookup_cons] at hl
        split at hl
        · rename_i he
          simp only [Option.some.injEq] at hl
          have he := beq_iff_eq.1 he
          subst he; subst hl; simp
        · exact List.mem_cons_of_mem _ (ih (fun p hp => h p (List.mem_cons_of_mem _ hp)) hl)
    exact h _ this

theorem search_sound (r : Re) (b : Bool) (s : Str) (st' : St) (h : r.search b s = some st') :
    ∃ b' pre s', s = pre ++ s' ∧ st' ∈ r.run ⟨b', s', []⟩ := by
  induction s generalizing b with
  | nil =>
    simp only [Re.search] at h
    exact ⟨b, [], [], rfl, List.mem_of_mem_head? h⟩
  | cons c cs ih =>
    simp only [Re.search] at h
    split at h
    · rename_i s0 h0
      injection h with h; subst h
      exact ⟨b, [], c :: cs, rfl, List.mem_of_mem_head? h0⟩
    · obtain ⟨b', pre, s', e, hm⟩ := ih _ h
      exact ⟨b', c :: pre, s', by simp [e], hm⟩

/-- Groups of any successful match. -/
theorem submatch_ok {r : Re} {s : Str} {m : Nat → Str} (h : r.submatch s = some m) (i : Nat) :
    m i = [] ∨ CapOk r i (m i) := by
  unfold Re.submatch at h
  rw [Option.map_eq_some_iff] at h
  obtain ⟨st', h1, rfl⟩ := h
  obtain ⟨b', pre, s', -, hm⟩ := search_sound _ _ _ _ h1
  obtain ⟨-, -, -, cs, e, k⟩ := run_sound _ _ _ hm
  simp only [List.append_nil] at e
  rw [e]; exact capOf_ok k i

/-! ### Characters that can or must occur, and lengths -/

/-- Some class of `r` accepts `c`. -/
def Re.mayHave : Re → Char → Bool
  | .cls f rs, c => clsHas f rs c
  | .cat a b, c => a.mayHave c || b.mayHave c
  | .alt a b, c => a.mayHave c || b.mayHave c
  | .opt a, c => a.mayHave c
  | .star a, c => a.mayHave c
  | .plus a, c => a.mayHave c
  | .grp _ a, c => a.mayHave c
  | _, _ => false

theorem star_forall {P : Str → Prop} {Q : Char → Prop} (h : ∀ w, P w → ∀ c ∈ w, Q c) {w : Str} (hw : Star P w) :
    ∀ c ∈ w, Q c := by
  induction hw with
  | nil => simp
  | cons u v hu _ _ ih =>
    intro c hc
    rcases List.mem_append.1 hc with hc | hc
    · exact h u hu c hc
    · exact ih c hc

theorem lang_mayHave (r : Re) (w : Str) (h : Lang r w) : ∀ c ∈ w, r.mayHave c = true := by
  induction r generalizing w with
  | eps => simp only [Lang] at h; subst h; simp
  | bos => simp only [Lang] at h; subst h; simp
  | eos => simp only [Lang] at h; subst h; simp
  | cls f rs => obtain ⟨c, rfl, hc⟩ := h; simpa [Re.mayHave] using hc
  | cat a b iha ihb =>
    obtain ⟨u, v, rfl, hu, hv⟩ := h
    intro c hc
    simp only [Re.mayHave, Bool.or_eq_true]
    rcases List.mem_append.1 hc with hc | hc
    · exact Or.inl (iha u hu c hc)
    · exact Or.inr (ihb v hv c hc)
  | alt a b iha ihb =>
    intro c hc
    simp only [Re.mayHave, Bool.or_eq_true]
    rcases h with h | h
    · exact Or.inl (iha w h c hc)
    · exact Or.inr (ihb w h c hc)
  | opt a iha =>
    rcases h with h | h
    · subst h; simp
    · exact iha w h
  | star a iha => exact star_forall (Q := fun c => a.mayHave c = true) iha h
  | plus a iha =>
    obtain ⟨u, v, rfl, hu, hv⟩ := h
    intro c hc
    rcases List.mem_append.1 hc with hc | hc
    · exact iha u hu c hc
    · exact star_forall (Q := fun c => a.mayHave c = true) iha hv c hc
  | grp i a iha => exact iha w h

theorem not_lang_of_char {r : Re} {c : Char} (hr : r.mayHave c = false) {s : Str} (hc : c ∈ s) : ¬ Lang r s := by
  intro h; have := lang_mayHave r s h c hc; rw [hr] at this; cases this

/-- Every word of `r` contains one of the characters `cs`. -/
def Re.mustHave : Re → List Char → Bool
  | .cls f rs, cs => !f && rs.all (fun p => p.1 == p.2 && cs.contains p.1)
  | .cat a b, cs => a.mustHave cs || b.mustHave cs
  | .alt a b, cs => a.mustHave cs && b.mustHave cs
  | .plus a, cs => a.mustHave cs
  | .grp _ a, cs => a.mustHave cs
  | _, _ => false

theorem char_of_toNat {a b : Char} (h : a.toNat = b.toNat) : a = b := by
  rw [← Char.ofNat_toNat a, ← Char.ofNat_toNat b, h]

theorem clsHas_single {rs : List (Char × Char)} {c : Char} (h : clsHas false rs c = true)
    {cs : List Char} (hr : rs.all (fun p => p.1 == p.2 && cs.contains p.1) = true) : c ∈ cs := by
  simp only [clsHas, Bool.false_eq_true, if_false, List.any_eq_true] at h
  obtain ⟨p, hp, hi⟩ := h
  have := List.all_eq_true.1 hr p hp
  simp only [Bool.and_eq_true, beq_iff_eq, List.contains_iff_mem] at this
  simp only [inR, Bool.and_eq_true, Nat.ble_eq, ← this.1] at hi
  have e : c = p.1 := char_of_toNat (by omega)
  rw [e]; exact this.2

theorem lang_mustHave (r : Re) (cs : List Char) (hr : r.mustHave cs = true) (w : Str) (h : Lang r w) :
    ∃ c ∈ w, c ∈ cs := by
  induction r generalizing w with
  | eps => simp [Re.mustHave] at hr
  | bos => simp [Re.mustHave] at hr
  | eos => simp [Re.mustHave] at hr
  | cls f rs =>
    obtain ⟨c, rfl, hc⟩ := h
    simp only [Re.mustHave, Bool.and_eq_true, Bool.not_eq_true'] at hr
    rw [hr.1] at hc
    exact ⟨c, by simp, clsHas_single hc hr.2⟩
  | cat a b iha ihb =>
    obtain ⟨u, v, rfl, hu, hv⟩ := h
    simp only [Re.mustHave, Bool.or_eq_true] at hr
    rcases hr with hr | hr
    · obtain ⟨c, h1, h2⟩ := iha hr u hu; exact ⟨c, by simp [h1], h2⟩
    · obtain ⟨c, h1, h2⟩ := ihb hr v hv; exact ⟨c, by simp [h1], h2⟩
  | alt a b iha ihb =>
    simp only [Re.mustHave, Bool.and_eq_true] at hr
    rcases h with h | h
    · exact iha hr.1 w h
    · exact ihb hr.2 w h
  | opt a iha => simp [Re.mustHave] at hr
  | star a iha => simp [Re.mustHave] at hr
  | plus a iha =>
    obtain ⟨u, v, rfl, hu, hv⟩ := h
    obtain ⟨c, h1, h2⟩ := iha hr u hu; exact ⟨c, by simp [h1], h2⟩
  | grp i a iha => exact iha hr w h

theorem not_lang_of_must {r : Re} (cs : List Char) (hr : r.mustHave cs = true) {s : Str}
    (hc : ∀ c ∈ cs, c ∉ s) : ¬ Lang r s := by
  intro h
  obtain ⟨c, h1, h2⟩ := lang_mustHave r cs hr s h
  exact hc c h2 h1

/-- Possible lengths, for star-free `r`. -/
def Re.lens : Re → Option (List Nat)
  | .eps | .bos | .eos => some [0]
  | .cls _ _ => some [1]
  | .cat a b => do
    let la ← a.lens
    let lb ← b.lens
    return la.flatMap (fun x => lb.map (x + ·))
  | .alt a b => do return (← a.lens) ++ (← b.lens)
  | .opt a => do return 0 :: (← a.lens)
  | .grp _ a => a.lens
  | .star _ | .plus _ => none

theorem lang_lens (r : Re) (ls : List Nat) (hr : r.lens = some ls) (w : Str) (h : Lang r w) : w.length ∈ ls := by
  induction r generalizing w ls with
  | eps => simp only [Lang] at h; subst h; simp only [Re.lens, Option.some.injEq] at hr; subst hr; simp
  | bos => simp only [Lang] at h; subst h; simp only [Re.lens, Option.some.injEq] at hr; subst hr; simp
  | eos => simp only [Lang] at h; subst h; simp only [Re.lens, Option.some.injEq] at hr; subst hr; simp
  | cls f rs =>
    obtain ⟨c, rfl, -⟩ := h; simp only [Re.lens, Option.some.injEq] at hr; subst hr; simp
  | cat a b iha ihb =>
    obtain ⟨u, v, rfl, hu, hv⟩ := h
    simp only [Re.lens] at hr
    cases ha : a.lens with
    | none => rw [ha] at hr; simp at hr
    | some la =>
      cases hb : b.lens with
      | none => rw [ha, hb] at hr; simp at hr
      | some lb =>
        rw [ha, hb] at hr
        simp at hr
        subst hr
        simp only [List.length_append, List.mem_flatMap, List.mem_map]
        exact ⟨_, iha _ ha u hu, _, ihb _ hb v hv, rfl⟩
  | alt a b iha ihb =>
    simp only [Re.lens] at hr
    cases ha : a.lens with
    | none => rw [ha] at hr; simp at hr
    | some la =>
      cases hb : b.lens with
      | none => rw [ha, hb] at hr; simp at hr
      | some lb =>
        rw [ha, hb] at hr
        simp at hr
        subst hr
        rcases h with h | h
        · exact List.mem_append_left _ (iha _ ha w h)
        · exact List.mem_append_right _ (ihb _ hb w h)
  | opt a iha =>
    simp only [Re.lens] at hr
    cases ha : a.lens with
    | none => rw [ha] at hr; simp at hr
    | some la =>
      rw [ha] at hr
      simp at hr
      subst hr
      rcases h with h | h
      · subst h; simp
      · exact List.mem_cons_of_mem _ (iha _ ha w h)
  | grp i a iha => exact iha _ hr w h
  | star a => simp [Re.lens] at hr
  | plus a => simp [Re.lens] at hr

/-! ### Case folding -/

/-- All ranges of all classes satisfy `p`. -/
def Re.allR (p : Char × Char → Bool) : Re → Bool
  | .cls _ rs => rs.all p
  | .cat a b => a.allR p && b.allR p
  | .alt a b => a.allR p && b.allR p
  | .opt a => a.allR p
  | .star a => a.allR p
  | .plus a => a.allR p
  | .grp _ a => a.allR p
  | _ => true

/-- Folding does not change whether `c` is in the range `p`. -/
def okFold (c : Char) (p : Char × Char) : Bool := (orbit c).any (fun d => inR d p) == inR c p

theorem clsHas_fold {rs : List (Char × Char)} {c : Char} (h : ∀ p ∈ rs, okFold c p = true) :
    clsHas true rs c = clsHas false rs c := by
  simp only [clsHas, Bool.false_eq_true, if_false, if_true]
  rw [Bool.eq_iff_iff]
  simp only [List.any_eq_true]
  constructor
  · rintro ⟨d, hd, p, hp, hi⟩
    have := h p hp
    simp only [okFold, beq_iff_eq] at this
    exact ⟨p, hp, by rw [← this]; exact List.any_eq_true.2 ⟨d, hd, hi⟩⟩
  · rintro ⟨p, hp, hi⟩
    have := h p hp
    simp only [okFold, beq_iff_eq] at this
    rw [← this] at hi
    obtain ⟨d, hd, hi⟩ := List.any_eq_true.1 hi
    exact ⟨d, hd, p, hp, hi⟩

theorem star_congr {P Q : Str → Prop} {X : Char → Prop}
    (h : ∀ w, (∀ c ∈ w, X c) → (P w ↔ Q w)) {w : Str} (hx : ∀ c ∈ w, X c) : Star P w ↔ Star Q w := by
  have aux : ∀ {P Q : Str → Prop}, (∀ w, (∀ c ∈ w, X c) → (P w → Q w)) → ∀ {w : Str}, Star P w →
      (∀ c ∈ w, X c) → Star Q w := by
    intro P Q h w hw
    induction hw with
    | nil => intro _; exact .nil
    | cons u v hu hne _ ih =>
      intro hx
      exact .cons u v (h u (fun c hc => hx c (by simp [hc])) hu) hne (ih (fun c hc => hx c (by simp [hc])))
  exact ⟨fun hw => aux (fun w hx => (h w hx).1) hw hx, fun hw => aux (fun w hx => (h w hx).2) hw hx⟩

/-- Languages with and without case folding agree on words whose characters
are unaffected by folding. -/
theorem lang_ci (r : Re) (X : Char → Prop) (q : Char × Char → Bool)
    (hq : ∀ c p, X c → q p = true → okFold c p = true) (hr : r.allR q = true) (w : Str) (hx : ∀ c ∈ w, X c) :
    Lang r.ci w ↔ Lang r w := by
  induction r generalizing w with
  | eps => rfl
  | bos => rfl
  | eos => rfl
  | cls f rs =>
    cases f with
    | true => rfl
    | false =>
      simp only [Re.ci, Lang]
      constructor
      · rintro ⟨c, rfl, hc⟩
        refine ⟨c, rfl, ?_⟩
        rwa [clsHas_fold (fun p hp => hq c p (hx c (by simp)) (List.all_eq_true.1 hr p hp))] at hc
      · rintro ⟨c, rfl, hc⟩
        refine ⟨c, rfl, ?_⟩
        rwa [clsHas_fold (fun p hp => hq c p (hx c (by simp)) (List.all_eq_true.1 hr p hp))]
  | cat a b iha ihb =>
    simp only [Re.allR, Bool.and_eq_true] at hr
    simp only [Re.ci, Lang]
    constructor
    · rintro ⟨u, v, rfl, hu, hv⟩
      exact ⟨u, v, rfl, (iha hr.1 u (fun c hc => hx c (by simp [hc]))).1 hu,
        (ihb hr.2 v (fun c hc => hx c (by simp [hc]))).1 hv⟩
    · rintro ⟨u, v, rfl, hu, hv⟩
      exact ⟨u, v, rfl, (iha hr.1 u (fun c hc => hx c (by simp [hc]))).2 hu,
        (ihb hr.2 v (fun c hc => hx c (by simp [hc]))).2 hv⟩
  | alt a b iha ihb =>
    simp only [Re.allR, Bool.and_eq_true] at hr
    simp only [Re.ci, Lang, iha hr.1 w hx, ihb hr.2 w hx]
  | opt a iha => simp only [Re.ci, Lang, iha hr w hx]
  | star a iha => exact star_congr (X := X) (iha hr) hx
  | plus a iha =>
    simp only [Re.ci, Lang]
    constructor
    · rintro ⟨u, v, rfl, hu, hv⟩
      exact ⟨u, v, rfl, (iha hr u (fun c hc => hx c (by simp [hc]))).1 hu,
        (star_congr (X := X) (iha hr) (fun c hc => hx c (by simp [hc]))).1 hv⟩
    · rintro ⟨u, v, rfl, hu, hv⟩
      exact ⟨u, v, rfl, (iha hr u (fun c hc => hx c (by simp [hc]))).2 hu,
        (star_congr (X := X) (iha hr) (fun c hc => hx c (by simp [hc]))).2 hv⟩
  | grp i a iha => exact iha hr w hx

/-- Ranges of ASCII characters that are not letters. -/
def noLetter (p : Char × Char) : Bool :=
  Nat.ble p.2.toNat 64 || (Nat.ble 91 p.1.toNat && Nat.ble p.2.toNat 96) || (Nat.ble 123 p.1.toNat && Nat.ble p.2.toNat 127)

/-- Ranges of ASCII characters that are not lower-case letters. -/
def noLower (p : Char × Char) : Bool :=
  Nat.ble p.2.toNat 96 || (Nat.ble 123 p.1.toNat && Nat.ble p.2.toNat 127)

/-- Characters without a lower-case reading. -/
def plainC (c : Char) : Bool := Nat.ble c.toNat 96 || (Nat.ble 123 c.toNat && Nat.ble c.toNat 127)

theorem ofNat_toNat_small {n : Nat} (h : n < 55296) : (Char.ofNat n).toNat = n := by
  have hv : n.isValidChar := Or.inl h
  simp only [Char.ofNat, dif_pos hv, Char.ofNatAux, Char.toNat]
  have : n < UInt32.size := by simp [UInt32.size]; omega
  simp [UInt32.toNat]

theorem okFold_noLetter (c : Char) (p : Char × Char) (h : noLetter p = true) : okFold c p = true := by
  simp only [noLetter, Bool.or_eq_true, Bool.and_eq_true, Nat.ble_eq] at h
  simp only [okFold, beq_iff_eq]
  unfold orbit
  split
  · rename_i hc
    simp only [Bool.and_eq_true, Nat.ble_eq] at hc
    have := ofNat_toNat_small (n := c.toNat - 32) (by omega)
    simp only [List.any_cons, List.any_nil, Bool.or_false]
    rw [Bool.eq_iff_iff]
    simp only [inR, this, Bool.or_eq_true, Bool.and_eq_true, Nat.ble_eq]
    omega
  · split
    · rename_i hc
      simp only [Bool.and_eq_true, Nat.ble_eq] at hc
      have := ofNat_toNat_small (n := c.toNat + 32) (by omega)
      simp only [List.any_cons, List.any_nil, Bool.or_false]
      rw [Bool.eq_iff_iff]
      simp only [inR, this, Bool.or_eq_true, Bool.and_eq_true, Nat.ble_eq]
      omega
    · split
      · rename_i hc
        subst hc
        simp only [List.any_cons, List.any_nil, Bool.or_false]
        rw [Bool.eq_iff_iff]
        simp only [inR, Bool.or_eq_true, Bool.and_eq_true, Nat.ble_eq]
        have e1 : ('s').toNat = 115 := rfl
        have e2 : ('S').toNat = 83 := rfl
        have e3 : ('\u017f').toNat = 383 := rfl
        rw [e1, e2, e3]; omega
      · split
        · rename_i hc
          subst hc
          simp only [List.any_cons, List.any_nil, Bool.or_false]
          rw [Bool.eq_iff_iff]
          simp only [inR, Bool.or_eq_true, Bool.and_eq_true, Nat.ble_eq]
          have e1 : ('k').toNat = 107 := rfl
          have e2 : ('K').toNat = 75 := rfl
          have e3 : ('\u212a').toNat = 8490 := rfl
          rw [e1, e2, e3]; omega
        · simp

theorem okFold_noLower (c : Char) (p : Char × Char) (hc : plainC c = true) (h : noLower p = true) :
    okFold c p = true := by
  simp only [noLower, Bool.or_eq_true, Bool.and_eq_true, Nat.ble_eq] at h
  simp only [plainC, Bool.or_eq_true, Bool.and_eq_true, Nat.ble_eq] at hc
  simp only [okFold, beq_iff_eq]
  unfold orbit
  split
  · rename_i hc'
    simp only [Bool.and_eq_true, Nat.ble_eq] at hc'
    omega
  · split
    · rename_i hc'
      simp only [Bool.and_eq_true, Nat.ble_eq] at hc'
      have := ofNat_toNat_small (n := c.toNat + 32) (by omega)
      simp only [List.any_cons, List.any_nil, Bool.or_false]
      rw [Bool.eq_iff_iff]
      simp only [inR, this, Bool.or_eq_true, Bool.and_eq_true, Nat.ble_eq]
      omega
    · split
      · rename_i hc'
        subst hc'
        have e3 : ('\u017f').toNat = 383 := rfl
        omega
      · split
        · rename_i hc'
          subst hc'
          have e3 : ('\u212a').toNat = 8490 := rfl
          omega
        · simp

/-- Patterns without letters are not affected by `(?i)`. -/
theorem lang_ci_noLetter {r : Re} (hr : r.allR noLetter = true) (w : Str) : Lang r.ci w ↔ Lang r w :=
  lang_ci r (fun _ => True) noLetter (fun c p _ h => okFold_noLetter c p h) hr w (fun _ _ => trivial)

/-- Patterns without lower-case letters are not affected by `(?i)` on words without them. -/
theorem lang_ci_noLower {r : Re} (hr : r.allR noLower = true) (w : Str) (hw : w.all plainC = true) :
    Lang r.ci w ↔ Lang r w :=
  lang_ci r (fun c => plainC c = true) noLower (fun c p h1 h2 => okFold_noLower c p h1 h2) hr w
    (fun c hc => List.all_eq_true.1 hw c hc)

end EDTF
