/-
The errors of sets.
-/
import Verif.LemmasFail2
namespace EDTF
open Spec

theorem setSpan_err_text {l : List Str} {so eo : Bool} {p : Prec} {e : Err} :
    L2.setSpan l so eo p = .err e ↔ dateSpanFromEDTF (L2.setString l (l.headD []) (l.getLastD []) so eo).1 = .err e := by
  have key := setSpan_text (l := l) (so := so) (eo := eo) (p := p)
  constructor
  · intro h
    have h' := h
    unfold L2.setSpan at h'
    rcases Res.bind_eq_err.1 h' with h' | ⟨sp, hs, -⟩
    · exact h'
    · obtain ⟨x, hx⟩ := key.2 ⟨sp, hs⟩
      rw [h] at hx
      cases hx
  · intro h
    unfold L2.setSpan
    exact Res.bind_eq_err.2 (.inl h)

theorem setSpan_err {l : List Str} {so eo : Bool} {p : Prec} (hl : l ≠ []) (hb : l.getLastD [] ≠ []) (h : ∀ t ∈ l, Bare t) {e : Err} :
    L2.setSpan l so eo p = .err e ↔
      (l.headD [] ≠ [] ∧ DateFails (l.headD []) e) ∨ ((l.headD [] = [] ∨ Reads (l.headD [])) ∧ DateFails (l.getLastD []) e) := by
  have hh : l.headD [] ∈ l := by cases l with | nil => exact absurd rfl hl | cons x xs => simp
  have ht : l.getLastD [] ∈ l := by
    rw [List.getLastD_eq_getLast?, List.getLast?_eq_some_getLast hl]
    exact List.getLast_mem hl
  have h1 := h _ hh
  have h2 := h _ ht
  have no : ∀ {t : Str}, Bare t → t ≠ c! ".." := by
    rintro t ht rfl
    exact ht.2 (by decide)
  have n1 := no h1
  have n2 := no h2
  rw [setSpan_err_text]
  have two : dateSpanFromEDTF (l.headD [] ++ c! "/" ++ l.getLastD []) = .err e ↔
      (l.headD [] ≠ [] ∧ DateFails (l.headD []) e) ∨ ((l.headD [] = [] ∨ Reads (l.headD [])) ∧ DateFails (l.getLastD []) e) := by
    rw [show l.headD [] ++ c! "/" ++ l.getLastD [] = l.headD [] ++ '/' :: l.getLastD [] by simp, two_err h1.1 h2.1]
    constructor
    · rintro (⟨a, -, b⟩ | ⟨a, -, -, b⟩)
      · exact .inl ⟨a, b⟩
      · exact .inr ⟨a.imp id fun a => a.resolve_left n1, b⟩
    · rintro (⟨a, b⟩ | ⟨a, b⟩)
      · exact .inl ⟨a, n1, b⟩
      · exact .inr ⟨a.imp id .inr, hb, n2, b⟩
  have same : l.headD [] = l.getLastD [] →
      ((l.headD [] ≠ [] ∧ DateFails (l.headD []) e) ∨ ((l.headD [] = [] ∨ Reads (l.headD [])) ∧ DateFails (l.getLastD []) e) ↔ DateFails (l.getLastD []) e) := by
    intro e1
    rw [e1]
    constructor
    · rintro (⟨-, h⟩ | ⟨-, h⟩) <;> exact h
    · exact fun h => .inl ⟨hb, h⟩
  unfold L2.setString
  simp only
  by_cases hp : ((so || eo) && decide (l.length > 1)) = true
  · rw [if_pos hp]
    exact two
  · rw [if_neg hp]
    simp only
    have one : (so = true ∨ eo = true) → l.headD [] = l.getLastD [] := by
      intro hs
      have : ¬ l.length > 1 := by
        intro hl
        apply hp
        rcases hs with rfl | rfl <;> simp [hl]
      match l, this with
      | [], _ => rfl
      | [x], _ => rfl
      | _ :: _ :: _, h => simp at h
    cases so
    · cases eo
      · rw [if_neg (by decide), if_neg (by decide)]
        by_cases e : l.headD [] ≠ l.getLastD []
        · rw [if_pos e]
          exact two
        · rw [if_neg e]
          have e : l.headD [] = l.getLastD [] := by simpa using e
          rw [same e, e, dateSpanFromEDTF_noSlash h2.1, date_err_iff]
      · rw [if_neg (by decide), if_pos rfl, show l.headD [] ++ c! "/.." = l.headD [] ++ '/' :: c! ".." by rfl, two_err h1.1 (by decide),
          same (one (.inr rfl)), one (.inr rfl)]
        constructor
        · rintro (⟨-, -, h⟩ | ⟨-, -, h, -⟩)
          · exact h
          · exact absurd rfl h
        · exact fun h => .inl ⟨hb, n2, h⟩
    · rw [if_pos rfl, show c! "../" ++ l.headD [] = c! ".." ++ '/' :: l.headD [] by rfl, two_err (by decide) h1.1, same (one (.inl rfl)), one (.inl rfl)]
      constructor
      · rintro (⟨-, h, -⟩ | ⟨-, -, -, h⟩)
        · exact absurd rfl h
        · exact h
      · exact fun h => .inr ⟨.inr (.inl rfl), hb, n2, h⟩

/-- The least member `a` and the greatest member `b`. -/
def Ends (ms : List Str) (a b : Str) : Prop := a ∈ ms ∧ b ∈ ms ∧ ∀ t ∈ ms, TextLe a t ∧ TextLe t b

theorem members_err {l : List Str} {so eo : Bool} {p : Prec} (hne : ∃ t ∈ l, t ≠ []) (h : ∀ t ∈ l, Bare t) {e : Err} :
    ∃ a b, Ends l a b ∧ (L2.setSpan (sortStrings l) so eo p = .err e ↔ (a ≠ [] ∧ DateFails a e) ∨ ((a = [] ∨ Reads a) ∧ DateFails b e)) := by
  have hl : sortStrings l ≠ [] := by
    obtain ⟨t, ht, -⟩ := hne
    intro h0
    have := mem_sortStrings.2 ht
    rw [h0] at this
    cases this
  obtain ⟨a1, a2⟩ := sorted_head (sorted_sortStrings l) hl
  obtain ⟨b1, b2⟩ := sorted_last (sorted_sortStrings l) hl
  have hb : (sortStrings l).getLastD [] ≠ [] := by
    obtain ⟨t, ht, h0⟩ := hne
    intro e
    have := b2 t (mem_sortStrings.2 ht)
    rw [e] at this
    cases t with
    | nil => exact h0 rfl
    | cons _ _ => cases this
  refine ⟨_, _, ⟨mem_sortStrings.1 a1, mem_sortStrings.1 b1,
    fun t ht => ⟨textLe_iff.2 (a2 t (mem_sortStrings.2 ht)), textLe_iff.2 (b2 t (mem_sortStrings.2 ht))⟩⟩, ?_⟩
  exact setSpan_err hl hb (fun t ht => h t (mem_sortStrings.1 ht))

theorem textLe_antisymm {a b : Str} (h1 : TextLe a b) (h2 : TextLe b a) : a = b := strLe_antisymm (textLe_iff.1 h1) (textLe_iff.1 h2)

theorem collect_errs {s : Str} {ps : List Str} {acc : L2.SetMembers} {e : Err} (h : L2.collectMembers s ps acc = .err e) :
    e = Invalid L2.SET_REPRESENTATIONS s ∧ ∃ p ∈ ps, 2 < (splitDots p).length := by
  induction ps generalizing acc with
  | nil => cases h
  | cons q qs ih =>
    have up : ∀ {acc}, L2.collectMembers s qs acc = .err e → e = Invalid L2.SET_REPRESENTATIONS s ∧ ∃ p ∈ q :: qs, 2 < (splitDots p).length := by
      intro acc h
      obtain ⟨h1, p, hp, h2⟩ := ih h
      exact ⟨h1, p, List.mem_cons_of_mem _ hp, h2⟩
    unfold L2.collectMembers at h
    split at h
    · exact up h
    · split at h
      · exact up h
      · split at h
        · exact up h
        · exact up h
    · rename_i n1 n2
      injection h with h
      refine ⟨h.symm, q, by simp, ?_⟩
      match hq : splitDots q with
      | [] => exact absurd hq (splitDots_ne_nil q)
      | [a] => exact absurd hq (n1 a)
      | [a, b] => exact absurd hq (n2 a b)
      | _ :: _ :: _ :: _ => simp

/-- The parser on any set. -/
theorem set_dispatch {s : Str} (h : SetForm s) : parseString s = L2.parseSetRepresentations s := by
  have hset := (C50_exact_partial s).2 h
  obtain ⟨o, ho, c, hc, l, m, r, -, -, -, e⟩ := h
  have hb : o = '[' ∨ o = '{' := by simpa using ho
  have ho : o ∈ s := by rw [e]; simp
  clear e
  have nc : ∀ r : Re, r.mayHave '[' = false → r.mayHave '{' = false → ¬ Lang r s := by
    intro r h1 h2
    rcases hb with rfl | rfl
    · exact not_lang_of_char h1 ho
    · exact not_lang_of_char h2 ho
  have l0 : L0.isLevel0 s = false := by
    rcases hb with rfl | rfl
    · exact not_level0_char ho (by decide)
    · exact not_level0_char ho (by decide)
  have l1 : L1.isLevel1 s = false := by
    rcases hb with rfl | rfl
    · exact not_level1_char ho (by decide)
    · exact not_level1_char ho (by decide)
  have e1 : L2.isExponentialYear s = false := by
    rw [← Bool.not_eq_true, isExponential_iff]; exact nc _ (by decide) (by decide)
  have e2 : L2.isSignificantDigits s = false := by
    rw [← Bool.not_eq_true, isSig_iff]; exact nc _ (by decide) (by decide)
  have e3 : L2.isSubYearGrouping s = false := by
    rw [← Bool.not_eq_true, isSubYear_iff]; exact nc _ (by decide) (by decide)
  rw [parse_level2 l0 l1 (isLevel2_of (.inr (.inr (.inr (.inl hset)))))]
  unfold L2.parseString
  rw [e1, e2, e3, hset]
  simp only [Bool.false_eq_true, if_false, if_true]

theorem chunks_form {o c : Char} (ho : o ∈ c! "[{") (hc : c ∈ c! "]}") {cs : List Chunk} (h : ChunksOk cs) :
    SetForm (o :: (commaJoin (cs.map Chunk.text) ++ [c])) := by
  rw [← lang_setForm]
  refine ⟨[o], _, rfl, ?_, _, [c], rfl, lang_chunks h, ⟨c, rfl, ?_⟩⟩
  · have hb : o = '[' ∨ o = '{' := by simpa using ho
    rcases hb with rfl | rfl
    · exact .inl (lang_lit.2 rfl)
    · exact .inr (lang_lit.2 rfl)
  · have hb : c = ']' ∨ c = '}' := by simpa using hc
    rcases hb with rfl | rfl <;> decide

theorem form_caps {s : Str} (h : SetForm s) : ∃ m, Rx.SetRepresentations.submatch s = some m := by
  have := (C50_exact_partial s).2 h
  unfold L2.isSetRepresentation at this
  rw [← isSome_submatch, Option.isSome_iff_exists] at this
  exact this

/-- The error of a set whose chunks are known. -/
theorem set_err {o c : Char} (ho : o ∈ c! "[{") (hc : c ∈ c! "]}") {cs : List Chunk} (hs : ChunksOk cs) {e : Err} :
    ∃ a b, Ends (cs.flatMap Chunk.members) a b ∧
      (parseString (o :: (commaJoin (cs.map Chunk.text) ++ [c])) = .err e ↔ (a ≠ [] ∧ DateFails a e) ∨ ((a = [] ∨ Reads a) ∧ DateFails b e)) := by
  have hF := chunks_form ho hc hs
  rw [set_dispatch hF]
  obtain ⟨m, hm⟩ := form_caps hF
  obtain ⟨b, b', hb, -, g1, g2, g3⟩ := set_caps hm
  injection g2 with g2 g4
  have em : m 2 = commaJoin (cs.map Chunk.text) := ((List.append_inj' g4 rfl).1).symm
  unfold L2.parseSetRepresentations
  rw [hm]
  simp only
  have hk : ∃ p, L2.setKind (o :: (commaJoin (cs.map Chunk.text) ++ [c])) (m 1) = .ok p := by
    rw [g1]
    rcases hb with rfl | rfl <;> exact ⟨_, rfl⟩
  obtain ⟨p, hp⟩ := hk
  rw [hp, Res.ok_bind]
  have hsplit : splitChar ',' (m 2) = cs.map Chunk.text := by
    rw [em]
    refine splitChar_commaJoin ?_ ?_
    · obtain ⟨-, ⟨c, hc, -⟩, -⟩ := hs
      intro h
      rw [List.map_eq_nil_iff] at h
      rw [h] at hc
      cases hc
    · intro x hx
      obtain ⟨p, -, rfl⟩ := List.mem_map.1 hx
      exact chunk_comma p
  obtain ⟨so, eo, hcol⟩ := collect_chunks (o :: (commaJoin (cs.map Chunk.text) ++ [c])) cs hs.1 ⟨[], false, false⟩
  rw [hsplit, hcol, Res.ok_bind]
  simp only [List.nil_append]
  have hne := chunks_ne_nil hs
  rw [if_neg (by
    obtain ⟨t, ht, -⟩ := hne
    rw [length_sortStrings]
    intro h
    rw [List.length_eq_zero_iff.1 h] at ht
    cases ht)]
  obtain ⟨a, b, hE, hi⟩ := members_err (so := so) (eo := eo) (p := p) (e := e) hne (fun t ht => by
    obtain ⟨c, -, hc⟩ := List.mem_flatMap.1 ht
    exact chunk_bare c t hc)
  exact ⟨a, b, hE, mk_err_iff.trans hi⟩

/-- The error of a set that cannot be cut into chunks. -/
theorem setDots_err {s : Str} (h : SetForm s) (hn : ¬ ∃ (o c : Char) (cs : List Chunk), ChunksOk cs ∧ s = o :: (commaJoin (cs.map Chunk.text) ++ [c])) :
    parseString s = .err (.invalid (c! "Set representation") s) := by
  rw [set_dispatch h]
  obtain ⟨m, hm⟩ := form_caps h
  obtain ⟨b, b', hb, -, g1, g2, g3⟩ := set_caps hm
  unfold L2.parseSetRepresentations
  rw [hm]
  simp only
  have hk : ∃ p, L2.setKind s (m 1) = .ok p := by
    rw [g1]
    rcases hb with rfl | rfl <;> exact ⟨_, rfl⟩
  obtain ⟨p, hp⟩ := hk
  rw [hp, Res.ok_bind]
  match hcol : L2.collectMembers s (splitChar ',' (m 2)) ⟨[], false, false⟩ with
  | .ok mem =>
    obtain ⟨cs, hc, e⟩ := chunks_of_body g3 (collect_pieces hcol)
    exact absurd ⟨b, b', cs, hc, by rw [← e]; exact g2⟩ hn
  | .err e => rw [(collect_errs hcol).1]; rfl
  | .panic => exact absurd hcol (collectMembers_safe _ _ _)

/-- Every failing set. -/
theorem fail_set {s : Str} {e : Err} (h : SetForm s) (he : parseString s = .err e) : Fails s e := by
  by_cases hn : ∃ (o c : Char) (cs : List Chunk), ChunksOk cs ∧ s = o :: (commaJoin (cs.map Chunk.text) ++ [c])
  · obtain ⟨o, c, cs, hs, rfl⟩ := hn
    obtain ⟨o', ho, c', hc, l, m, r, -, -, -, e2⟩ := h
    injection e2 with e2 e3
    subst e2
    rw [← List.append_assoc, ← List.append_assoc] at e3
    have e4 : c = c' := by simpa using (List.append_inj' e3 rfl).2
    subst e4
    obtain ⟨a, b, ⟨ha, hb, hl⟩, hi⟩ := set_err (e := e) ho hc hs
    rcases hi.1 he with ⟨h0, hd⟩ | ⟨h0, hd⟩
    · exact .setLeast o c ho hc cs hs a ha (fun t ht => (hl t ht).1) h0 e hd
    · exact .setGreatest o c ho hc cs hs a b ha hb hl h0 e hd
  · have := setDots_err h hn
    rw [he] at this
    injection this with this
    subst this
    exact .setDots s h hn

theorem least_err {o c : Char} (ho : o ∈ c! "[{") (hc : c ∈ c! "]}") {cs : List Chunk} (hs : ChunksOk cs) {a : Str}
    (ha : a ∈ cs.flatMap Chunk.members) (hl : ∀ t ∈ cs.flatMap Chunk.members, TextLe a t) (h0 : a ≠ []) {e : Err} (hd : DateFails a e) :
    parseString (o :: (commaJoin (cs.map Chunk.text) ++ [c])) = .err e := by
  obtain ⟨a', b, ⟨ha', hb, hl'⟩, hi⟩ := set_err (e := e) ho hc hs
  obtain rfl : a = a' := textLe_antisymm (hl a' ha') (hl' a ha).1
  exact hi.2 (.inl ⟨h0, hd⟩)

theorem greatest_err {o c : Char} (ho : o ∈ c! "[{") (hc : c ∈ c! "]}") {cs : List Chunk} (hs : ChunksOk cs) {a b : Str}
    (ha : a ∈ cs.flatMap Chunk.members) (hb : b ∈ cs.flatMap Chunk.members)
    (hl : ∀ t ∈ cs.flatMap Chunk.members, TextLe a t ∧ TextLe t b) (h0 : a = [] ∨ Reads a) {e : Err} (hd : DateFails b e) :
    parseString (o :: (commaJoin (cs.map Chunk.text) ++ [c])) = .err e := by
  obtain ⟨a', b', ⟨ha', hb', hl'⟩, hi⟩ := set_err (e := e) ho hc hs
  obtain rfl : a = a' := textLe_antisymm (hl a' ha').1 (hl' a ha).1
  obtain rfl : b = b' := textLe_antisymm (hl' b hb).2 (hl b' hb').2
  exact hi.2 (.inr ⟨h0, hd⟩)

end EDTF
