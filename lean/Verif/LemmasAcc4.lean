/-
The sets that are accepted.
-/
import Verif.LemmasAcc
import Verif.PropsSet
namespace EDTF
open Spec

/-! ### From the members to the span -/

/-- A member: digits and hyphens only. -/
def Bare (t : Str) : Prop := '/' ∉ t ∧ '.' ∉ t

theorem half_iff {t : Str} (h : Bare t) : (∃ sp, halfSpan t = .ok sp) ↔ t = [] ∨ Reads t := by
  unfold halfSpan
  by_cases h0 : t = []
  · subst h0
    exact ⟨fun _ => Or.inl rfl, fun _ => ⟨_, rfl⟩⟩
  · have h1 : t ≠ OPEN := by rintro rfl; exact h.2 (by decide)
    rw [if_neg (show ¬ t = UNKNOWN from h0), if_neg h1, reads_iff]
    exact ⟨Or.inr, fun h => h.resolve_left h0⟩

theorem two_iff {t u : Str} (h1 : Bare t ∨ t = c! "..") (h2 : Bare u ∨ u = c! "..") :
    (∃ sp, dateSpanFromEDTF (t ++ '/' :: u) = .ok sp) ↔ (∃ sp, halfSpan t = .ok sp) ∧ ∃ sp, halfSpan u = .ok sp := by
  have n1 : '/' ∉ t := by rcases h1 with h | rfl; exact h.1; decide
  have n2 : '/' ∉ u := by rcases h2 with h | rfl; exact h.1; decide
  rw [dateSpanFromEDTF_slash n1 n2]
  constructor
  · rintro ⟨sp, h⟩
    obtain ⟨l, hl, h⟩ := Res.bind_eq_ok.1 h
    obtain ⟨r, hr, h⟩ := Res.bind_eq_ok.1 h
    exact ⟨⟨l, hl⟩, ⟨r, hr⟩⟩
  · rintro ⟨⟨l, hl⟩, ⟨r, hr⟩⟩
    obtain ⟨_, _, al, au, bl, bu, e1, e2, -⟩ := halfForm_bd (halfSpan_inv hl)
    obtain ⟨_, _, al', au', bl', bu', e1', e2', -⟩ := halfForm_bd (halfSpan_inv hr)
    rw [hl, hr, Res.ok_bind, Res.ok_bind]
    obtain ⟨l1, l2⟩ := l
    obtain ⟨r1, r2⟩ := r
    simp only at e1 e2 e1' e2'
    subst e1 e2 e1' e2'
    exact ⟨_, rfl⟩

/-- Only reading the text can fail. -/
theorem setSpan_text {l : List Str} {so eo : Bool} {p : Prec} :
    (∃ sp, L2.setSpan l so eo p = .ok sp) ↔ ∃ sp, dateSpanFromEDTF (L2.setString l (l.headD []) (l.getLastD []) so eo).1 = .ok sp := by
  unfold L2.setSpan
  constructor
  · rintro ⟨sp, h⟩
    obtain ⟨sp', h', -⟩ := Res.bind_eq_ok.1 h
    exact ⟨sp', h'⟩
  · rintro ⟨sp, h⟩
    obtain ⟨_, _, al, au, bl, bu, e1, e2, -⟩ := dateSpanFromEDTF_bd h
    obtain ⟨s1, s2⟩ := sp
    simp only at e1 e2
    subst e1 e2
    simp only [h, Res.ok_bind]
    cases so <;> cases eo <;> cases (L2.setString l (l.headD []) (l.getLastD []) _ _).2 <;> exact ⟨_, rfl⟩

theorem setSpan_iff {l : List Str} {so eo : Bool} {p : Prec} (hl : l ≠ []) (hb : l.getLastD [] ≠ []) (h : ∀ t ∈ l, Bare t) :
    (∃ sp, L2.setSpan l so eo p = .ok sp) ↔ Reads (l.getLastD []) ∧ (l.headD [] = [] ∨ Reads (l.headD [])) := by
  have hh : l.headD [] ∈ l := by cases l with | nil => exact absurd rfl hl | cons x xs => simp
  have ht : l.getLastD [] ∈ l := by
    rw [List.getLastD_eq_getLast?, List.getLast?_eq_some_getLast hl]
    exact List.getLast_mem hl
  have h1 := h _ hh
  have h2 := h _ ht
  have hB : (∃ sp, halfSpan (l.getLastD []) = .ok sp) ↔ Reads (l.getLastD []) := by
    rw [half_iff h2]
    exact ⟨fun h => h.resolve_left hb, Or.inr⟩
  have hO : ∃ sp, halfSpan (c! "..") = .ok sp := ⟨_, rfl⟩
  have hA := half_iff h1
  rw [setSpan_text]
  have two : (∃ sp, dateSpanFromEDTF (l.headD [] ++ c! "/" ++ l.getLastD []) = .ok sp) ↔
      Reads (l.getLastD []) ∧ (l.headD [] = [] ∨ Reads (l.headD [])) := by
    rw [show l.headD [] ++ c! "/" ++ l.getLastD [] = l.headD [] ++ '/' :: l.getLastD [] by simp, two_iff (Or.inl h1) (Or.inl h2), hA, hB]
    exact And.comm
  unfold L2.setString
  simp only
  by_cases hp : ((so || eo) && decide (l.length > 1)) = true
  · rw [if_pos hp]
    exact two
  · rw [if_neg hp]
    simp only
    have one : (so = true ∨ eo = true) → l.headD [] = l.getLastD [] := by
      intro hs
      have : ¬ l.length > 1 := by
        intro hl
        apply hp
        rcases hs with rfl | rfl <;> simp [hl]
      match l, this with
      | [], _ => rfl
      | [x], _ => rfl
      | _ :: _ :: _, h => simp at h
    cases so
    · cases eo
      · rw [if_neg (by decide), if_neg (by decide)]
        by_cases e : l.headD [] ≠ l.getLastD []
        · rw [if_pos e]
          exact two
        · rw [if_neg e]
          have e : l.headD [] = l.getLastD [] := by simpa using e
          rw [e, dateSpanFromEDTF_noSlash h2.1, reads_iff]
          exact ⟨fun h => ⟨h, Or.inr h⟩, fun h => h.1⟩
      · rw [if_neg (by decide), if_pos rfl, show l.headD [] ++ c! "/.." = l.headD [] ++ '/' :: c! ".." by rfl, two_iff (Or.inl h1) (Or.inr rfl), one (Or.inr rfl), hB]
        exact ⟨fun h => ⟨h.1, Or.inr h.1⟩, fun h => ⟨h.1, hO⟩⟩
    · rw [if_pos rfl, show c! "../" ++ l.headD [] = c! ".." ++ '/' :: l.headD [] by rfl, two_iff (Or.inr rfl) (Or.inl h1), one (Or.inl rfl), hB]
      exact ⟨fun h => ⟨h.2, Or.inr h.2⟩, fun h => ⟨hO, h.1⟩⟩

/-! ### The order -/

theorem textLe_iff {a b : Str} : TextLe a b ↔ strLe a b = true := by
  constructor
  · intro h
    induction h with
    | nil t => cases t <;> rfl
    | lt a b s t h => unfold strLe; rw [if_pos h]
    | eq a s t h ih => unfold strLe; rw [if_neg (by omega), if_neg (by omega)]; exact ih
  · intro h
    induction a generalizing b with
    | nil => exact .nil b
    | cons x xs ih =>
      cases b with
      | nil => cases h
      | cons y ys =>
        unfold strLe at h
        by_cases h1 : x.toNat < y.toNat
        · exact .lt x y xs ys h1
        · rw [if_neg h1] at h
          by_cases h2 : y.toNat < x.toNat
          · rw [if_pos h2] at h; cases h
          · rw [if_neg h2] at h
            have : x = y := char_of_toNat (by omega)
            subst this
            exact .eq x xs ys (ih h)

theorem members_iff {l : List Str} {so eo : Bool} {p : Prec} (hne : ∃ t ∈ l, t ≠ []) (h : ∀ t ∈ l, Bare t) :
    (∃ sp, L2.setSpan (sortStrings l) so eo p = .ok sp) ↔ MembersOk l := by
  have hl : sortStrings l ≠ [] := by
    obtain ⟨t, ht, -⟩ := hne
    intro h0
    have := mem_sortStrings.2 ht
    rw [h0] at this
    cases this
  obtain ⟨a1, a2⟩ := sorted_head (sorted_sortStrings l) hl
  obtain ⟨b1, b2⟩ := sorted_last (sorted_sortStrings l) hl
  have hb : (sortStrings l).getLastD [] ≠ [] := by
    obtain ⟨t, ht, h0⟩ := hne
    intro e
    have := b2 t (mem_sortStrings.2 ht)
    rw [e] at this
    cases t with
    | nil => exact h0 rfl
    | cons _ _ => cases this
  rw [setSpan_iff hl hb (fun t ht => h t (mem_sortStrings.1 ht))]
  constructor
  · rintro ⟨h1, h2⟩
    exact ⟨_, _, mem_sortStrings.1 a1, mem_sortStrings.1 b1,
      fun t ht => ⟨textLe_iff.2 (a2 t (mem_sortStrings.2 ht)), textLe_iff.2 (b2 t (mem_sortStrings.2 ht))⟩, h1, h2⟩
  · rintro ⟨a, b, ha, hb', hle, hB, hA⟩
    have ea : a = (sortStrings l).headD [] :=
      strLe_antisymm (textLe_iff.1 (hle _ (mem_sortStrings.1 a1)).1) (a2 a (mem_sortStrings.2 ha))
    have eb : b = (sortStrings l).getLastD [] :=
      strLe_antisymm (b2 b (mem_sortStrings.2 hb')) (textLe_iff.1 (hle _ (mem_sortStrings.1 b1)).2)
    rw [← ea, ← eb]
    exact ⟨hB, hA⟩

/-! ### Chunks -/

theorem runText_not_mem (r : List Date0) {c : Char} (h1 : isDig c = false) (h2 : c ≠ '-') : c ∉ runText r := by
  induction r with
  | nil => simp [runText]
  | cons x xs ih =>
    simp only [runText, List.mem_append, not_or]
    exact ⟨date0_not_mem x h1 h2, ih⟩

theorem runText_ne_nil {r : List Date0} (h : RunOk r) : runText r ≠ [] := by
  obtain ⟨x, xs, rfl⟩ := List.exists_cons_of_ne_nil h.1
  simp [runText, date0_ne_nil]

theorem run_bare (r : List Date0) : Bare (runText r) := ⟨runText_not_mem r (by decide) (by decide), runText_not_mem r (by decide) (by decide)⟩

theorem chunk_comma (c : Chunk) : ',' ∉ c.text := by
  have h : ∀ r : List Date0, ',' ∉ runText r := fun r => runText_not_mem r (by decide) (by decide)
  cases c <;> simp [Chunk.text, h]

theorem chunk_bare (c : Chunk) : ∀ t ∈ c.members, Bare t := by
  have h0 : Bare [] := ⟨by simp, by simp⟩
  cases c <;> simp [Chunk.members, run_bare, h0]

theorem collect_chunks (s : Str) (cs : List Chunk) (hc : ∀ c ∈ cs, c.ok) (acc : L2.SetMembers) :
    ∃ so eo, L2.collectMembers s (cs.map Chunk.text) acc = .ok ⟨acc.possible ++ cs.flatMap Chunk.members, so, eo⟩ := by
  induction cs generalizing acc with
  | nil => exact ⟨_, _, by simp [L2.collectMembers]; rfl⟩
  | cons c cs ih =>
    have hd : ∀ r : List Date0, '.' ∉ runText r := fun r => runText_not_mem r (by decide) (by decide)
    have hk := hc c (by simp)
    have ih' := fun acc => ih (fun c h => hc c (List.mem_cons_of_mem _ h)) acc
    rw [List.map_cons]
    unfold L2.collectMembers
    cases c with
    | run r =>
      rw [show (Chunk.run r).text = runText r from rfl, splitDots_none (hd r)]
      simp only
      obtain ⟨so, eo, e⟩ := ih' { acc with possible := acc.possible ++ [runText r] }
      exact ⟨so, eo, by rw [e]; simp [Chunk.members]⟩
    | pair a b =>
      rw [show (Chunk.pair a b).text = runText a ++ '.' :: '.' :: runText b from rfl, splitDots_append (hd a), splitDots_none (hd b)]
      simp only
      rw [if_pos ⟨runText_ne_nil hk.1, runText_ne_nil hk.2⟩]
      obtain ⟨so, eo, e⟩ := ih' { acc with possible := acc.possible ++ [runText a, runText b] }
      exact ⟨so, eo, by rw [e]; simp [Chunk.members]⟩
    | upTo r =>
      rw [show (Chunk.upTo r).text = [] ++ '.' :: '.' :: runText r from rfl, splitDots_append (by simp), splitDots_none (hd r)]
      simp only
      rw [if_neg (by simp), if_pos trivial]
      obtain ⟨so, eo, e⟩ := ih' { acc with possible := acc.possible ++ [runText r], start_open := true }
      exact ⟨so, eo, by rw [e]; simp [Chunk.members]⟩
    | onFrom r =>
      rw [show (Chunk.onFrom r).text = runText r ++ '.' :: '.' :: [] from rfl, splitDots_append (hd r), splitDots_none (u := []) (by simp)]
      simp only
      rw [if_neg (by simp), if_neg (runText_ne_nil hk)]
      obtain ⟨so, eo, e⟩ := ih' { acc with possible := acc.possible ++ [runText r], end_open := true }
      exact ⟨so, eo, by rw [e]; simp [Chunk.members]⟩
    | blank =>
      rw [show Chunk.blank.text = [] from rfl, splitDots_none (u := []) (by simp)]
      simp only
      obtain ⟨so, eo, e⟩ := ih' { acc with possible := acc.possible ++ [[]] }
      exact ⟨so, eo, by rw [e]; simp [Chunk.members]⟩
    | dots =>
      rw [show Chunk.dots.text = [] ++ '.' :: '.' :: [] from rfl, splitDots_append (by simp), splitDots_none (u := []) (by simp)]
      simp only
      rw [if_neg (by simp), if_pos trivial]
      obtain ⟨so, eo, e⟩ := ih' { acc with possible := acc.possible ++ [[]], start_open := true }
      exact ⟨so, eo, by rw [e]; simp [Chunk.members]⟩

/-- The members of a set cannot have three pieces. -/
theorem collect_pieces {s : Str} {ps : List Str} {acc m : L2.SetMembers} (h : L2.collectMembers s ps acc = .ok m) :
    ∀ p ∈ ps, (splitDots p).length ≤ 2 := by
  induction ps generalizing acc with
  | nil => simp
  | cons q qs ih =>
    intro p hp
    unfold L2.collectMembers at h
    rcases List.mem_cons.1 hp with rfl | hp
    · split at h
      · rename_i e; rw [e]; simp
      · rename_i e; rw [e]; simp
      · cases h
    · split at h
      · exact ih h p hp
      · split at h
        · exact ih h p hp
        · split at h
          · exact ih h p hp
          · exact ih h p hp
      · cases h

/-! ### Chunks from the pattern -/

theorem splitDots_ne_nil (p : Str) : splitDots p ≠ [] := by
  match p with
  | [] => simp [splitDots]
  | [c] => simp [splitDots]
  | c :: d :: cs =>
    rw [splitDots_cons2]
    split
    · simp
    · split <;> simp

theorem splitDots_cons {c : Char} (h : c ≠ '.') (p : Str) : (splitDots (c :: p)).length = (splitDots p).length := by
  cases p with
  | nil => rfl
  | cons d cs =>
    rw [splitDots_cons2, if_neg (fun e => h e.1)]
    split
    · rename_i e; exact absurd e (splitDots_ne_nil _)
    · rename_i e; rw [e]; rfl

theorem splitDots_prepend {u : Str} (h : '.' ∉ u) (p : Str) : (splitDots (u ++ p)).length = (splitDots p).length := by
  induction u with
  | nil => rfl
  | cons c cs ih =>
    rw [List.mem_cons, not_or] at h
    rw [List.cons_append, splitDots_cons (fun e => h.1 e.symm), ih h.2]

theorem splitChar_prepend {sep : Char} {u : Str} (h : sep ∉ u) {v p : Str} {ps : List Str} (e : splitChar sep v = p :: ps) :
    splitChar sep (u ++ v) = (u ++ p) :: ps := by
  induction u with
  | nil => exact e
  | cons c cs ih =>
    rw [List.mem_cons, not_or] at h
    rw [List.cons_append]
    unfold splitChar
    rw [if_neg (fun e => h.1 e.symm), ih h.2]
    rfl

/-- No chunk has three pieces. -/
def TwoPieces (w : Str) : Prop := ∀ p ∈ splitChar ',' w, (splitDots p).length ≤ 2

theorem two_prepend {u w : Str} (hc : ',' ∉ u) (h : TwoPieces (u ++ w)) (hl : ∀ p : Str, (splitDots p).length ≤ (splitDots (u ++ p)).length) :
    TwoPieces w := by
  obtain ⟨p, ps, e⟩ := List.exists_cons_of_ne_nil (splitChar_ne_nil ',' w)
  unfold TwoPieces at h ⊢
  rw [splitChar_prepend hc e] at h
  rw [e]
  intro q hq
  rcases List.mem_cons.1 hq with rfl | hq
  · exact Nat.le_trans (hl q) (h _ (by simp))
  · exact h q (List.mem_cons_of_mem _ hq)

/-- A chunk list before the first chunk has been looked at. -/
def Loose (cs : List Chunk) : Prop :=
  (∀ c ∈ cs, c.ok) ∧ (∀ c ∈ cs, c.later = true) ∧ (∀ c ∈ cs.dropLast, c.inner = true)

theorem lang_step {u : Str} (h : Lang setStep u) : ∃ x : Date0, x.shaped ∧ (u = x.text ∨ u = x.text ++ [','] ∨ u = x.text ++ c! "..") := by
  obtain ⟨a, b, rfl, h1, h2⟩ := lang_cat.1 h
  obtain ⟨x, e1, e2, rfl⟩ := lang_date.1 h1
  refine ⟨x, ⟨e1, e2⟩, ?_⟩
  rcases lang_opt.1 h2 with rfl | h2
  · exact Or.inl (by simp)
  · rcases lang_alt.1 h2 with h2 | h2
    · rw [lang_lit.1 h2]; exact Or.inr (Or.inl rfl)
    · rw [lang_dots.1 h2]; exact Or.inr (Or.inr rfl)

theorem commaJoin_cons (x : Str) {l : List Str} (hl : l ≠ []) : commaJoin (x :: l) = x ++ ',' :: commaJoin l := by
  obtain ⟨y, ys, rfl⟩ := List.exists_cons_of_ne_nil hl
  rfl

/-- Replacing the first chunk. -/
theorem commaJoin_head {u : Str} {c c' : Chunk} (e : c'.text = u ++ c.text) (cs : List Chunk) :
    commaJoin ((c' :: cs).map Chunk.text) = u ++ commaJoin ((c :: cs).map Chunk.text) := by
  cases cs with
  | nil => exact e
  | cons d ds =>
    show c'.text ++ ',' :: _ = u ++ (c.text ++ ',' :: _)
    rw [e, List.append_assoc]

theorem loose_head {c c' : Chunk} {cs : List Chunk} (h : Loose (c :: cs)) (h1 : c'.ok) (h2 : c'.later = true) (h3 : c.inner = true → c'.inner = true) :
    Loose (c' :: cs) := by
  refine ⟨?_, ?_, ?_⟩
  · intro d hd
    rcases List.mem_cons.1 hd with rfl | hd
    · exact h1
    · exact h.1 d (List.mem_cons_of_mem _ hd)
  · intro d hd
    rcases List.mem_cons.1 hd with rfl | hd
    · exact h2
    · exact h.2.1 d (List.mem_cons_of_mem _ hd)
  · intro d hd
    cases cs with
    | nil => simp at hd
    | cons e es =>
      rw [List.dropLast_cons_cons] at hd
      rcases List.mem_cons.1 hd with rfl | hd
      · exact h3 (h.2.2 c (by rw [List.dropLast_cons_cons]; simp))
      · exact h.2.2 d (by rw [List.dropLast_cons_cons]; exact List.mem_cons_of_mem _ hd)

theorem three_pieces {u w : Str} {c : Chunk} {cs : List Chunk} (hw : w = u ++ commaJoin ((c :: cs).map Chunk.text)) (hu : ',' ∉ u) (h : TwoPieces w)  :
    (splitDots (u ++ c.text)).length ≤ 2 := by
  subst hw
  have e := splitChar_commaJoin (l := (c :: cs).map Chunk.text) (by simp) (by
    intro x hx
    obtain ⟨p, -, rfl⟩ := List.mem_map.1 hx
    exact chunk_comma p)
  have := splitChar_prepend hu e
  unfold TwoPieces at h
  rw [this] at h
  exact h _ (by simp)

theorem chunks_of_star {t : Str} (ht : t = [] ∨ t = c! "..") {w : Str} (hs : Star (Lang setStep) w) (h2 : TwoPieces (w ++ t)) :
    ∃ c cs, w ++ t = commaJoin ((c :: cs).map Chunk.text) ∧ Loose (c :: cs) ∧ (w ≠ [] → c.first = true) := by
  induction hs with
  | nil =>
    rcases ht with rfl | rfl
    · exact ⟨.blank, [], rfl, ⟨by simp [Chunk.ok], by simp [Chunk.later], by simp⟩, fun h => absurd rfl h⟩
    · exact ⟨.dots, [], rfl, ⟨by simp [Chunk.ok], by simp [Chunk.later], by simp⟩, fun h => absurd rfl h⟩
  | cons u v hu hn hv ih =>
    obtain ⟨x, hx, hu⟩ := lang_step hu
    have hd : '.' ∉ x.text := date0_not_mem x (by decide) (by decide)
    have hcm : ',' ∉ x.text := date0_not_mem x (by decide) (by decide)
    have hr : RunOk [x] := ⟨by simp, by simpa using hx⟩
    rw [List.append_assoc] at h2 ⊢
    rcases hu with rfl | rfl | rfl
    · obtain ⟨c, cs, e, hL, hf⟩ := ih (two_prepend hcm h2 (fun p => by rw [splitDots_prepend hd]; exact Nat.le_refl _))
      have hok := hL.1 c (by simp)
      have hla := hL.2.1 c (by simp)
      have cons : ∀ {r}, RunOk r → RunOk (x :: r) := by
        intro r h
        refine ⟨by simp, ?_⟩
        intro y hy
        rcases List.mem_cons.1 hy with rfl | hy
        · exact hx
        · exact h.2 y hy
      have fin : ∀ c' : Chunk, c'.text = x.text ++ c.text → c'.ok → c'.later = true → (c.inner = true → c'.inner = true) → c'.first = true →
          ∃ c cs, x.text ++ (v ++ t) = commaJoin ((c :: cs).map Chunk.text) ∧ Loose (c :: cs) ∧ (x.text ++ v ≠ [] → c.first = true) :=
        fun c' e1 k1 k2 k3 k4 => ⟨c', cs, by rw [commaJoin_head e1, ← e], loose_head hL k1 k2 k3, fun _ => k4⟩
      cases c with
      | run r => exact fin (.run (x :: r)) rfl (cons hok) rfl id rfl
      | pair a b => exact fin (.pair (x :: a) b) (by simp [Chunk.text, runText]) ⟨cons hok.1, hok.2⟩ rfl id rfl
      | upTo r => cases hla
      | onFrom r => exact fin (.onFrom (x :: r)) (by simp [Chunk.text, runText]) (cons hok) rfl id rfl
      | blank => exact fin (.run [x]) rfl hr rfl (by simp [Chunk.inner]) rfl
      | dots => exact fin (.onFrom [x]) (by simp [Chunk.text, runText]) hr rfl (by simp [Chunk.inner]) rfl
    · have h2' : TwoPieces (v ++ t) := by
        unfold TwoPieces at h2 ⊢
        rw [show x.text ++ [','] ++ (v ++ t) = x.text ++ ',' :: (v ++ t) by simp, splitChar_append hcm] at h2
        exact fun p hp => h2 p (List.mem_cons_of_mem _ hp)
      obtain ⟨c, cs, e, hL, hf⟩ := ih h2'
      refine ⟨.run [x], c :: cs, ?_, ⟨?_, ?_, ?_⟩, fun _ => rfl⟩
      · rw [List.map_cons, commaJoin_cons _ (by simp), ← e]
        simp [Chunk.text, runText]
      · intro d hd
        rcases List.mem_cons.1 hd with rfl | hd
        · exact hr
        · exact hL.1 d hd
      · intro d hd
        rcases List.mem_cons.1 hd with rfl | hd
        · rfl
        · exact hL.2.1 d hd
      · intro d hd
        rw [List.dropLast_cons_cons] at hd
        rcases List.mem_cons.1 hd with rfl | hd
        · rfl
        · exact hL.2.2 d hd
    · have hcm2 : ',' ∉ x.text ++ c! ".." := by simp [hcm]
      have dd : ∀ p, splitDots (x.text ++ c! ".." ++ p) = x.text :: splitDots p := by
        intro p
        rw [show x.text ++ c! ".." ++ p = x.text ++ '.' :: '.' :: p by simp, splitDots_append hd]
      obtain ⟨c, cs, e, hL, hf⟩ := ih (two_prepend hcm2 h2 (fun p => by rw [dd]; simp))
      have h3 := three_pieces (by rw [e]) hcm2 h2
      rw [dd, List.length_cons] at h3
      have hok := hL.1 c (by simp)
      have hla := hL.2.1 c (by simp)
      have fin : ∀ c' : Chunk, c'.text = x.text ++ c! ".." ++ c.text → c'.ok → c'.later = true → (c.inner = true → c'.inner = true) → c'.first = true →
          ∃ d ds, x.text ++ c! ".." ++ (v ++ t) = commaJoin ((d :: ds).map Chunk.text) ∧ Loose (d :: ds) ∧ (x.text ++ c! ".." ++ v ≠ [] → d.first = true) :=
        fun c' e1 k1 k2 k3 k4 => ⟨c', cs, by rw [commaJoin_head e1, ← e], loose_head hL k1 k2 k3, fun _ => k4⟩
      have rd : ∀ r : List Date0, '.' ∉ runText r := fun r => runText_not_mem r (by decide) (by decide)
      cases c with
      | run r => exact fin (.pair [x] r) (by simp [Chunk.text, runText]) ⟨hr, hok⟩ rfl (fun _ => rfl) rfl
      | blank => exact fin (.onFrom [x]) (by simp [Chunk.text, runText]) hr rfl (by simp [Chunk.inner]) rfl
      | upTo r => cases hla
      | pair a b =>
        exfalso
        rw [show (Chunk.pair a b).text = runText a ++ '.' :: '.' :: runText b from rfl, splitDots_append (rd a), splitDots_none (rd b)] at h3
        simp at h3
      | onFrom r =>
        exfalso
        rw [show (Chunk.onFrom r).text = runText r ++ '.' :: '.' :: [] from rfl, splitDots_append (rd r), splitDots_none (u := []) (by simp)] at h3
        simp at h3
      | dots =>
        exfalso
        rw [show Chunk.dots.text = [] ++ '.' :: '.' :: [] from rfl, splitDots_append (by simp), splitDots_none (u := []) (by simp)] at h3
        simp at h3

theorem lang_setBody_inv {w : Str} (h : Lang setBody w) : ∃ l v t, w = l ++ (v ++ t) ∧ (l = [] ∨ l = c! "..") ∧ Star (Lang setStep) v ∧ v ≠ [] ∧ (t = [] ∨ t = c! "..") := by
  obtain ⟨l, w, rfl, h1, h2⟩ := lang_cat.1 h
  obtain ⟨v, t, rfl, hv, ht⟩ := lang_cat.1 h2
  have hd : ∀ {u}, Lang (.opt Rx.dots) u → u = [] ∨ u = c! ".." := by
    intro u hu
    rcases lang_opt.1 hu with h | h
    · exact Or.inl h
    · exact Or.inr (lang_dots.1 h)
  refine ⟨l, v, t, rfl, hd h1, ?_, ?_, hd ht⟩
  · obtain ⟨a, b, rfl, ha, hb⟩ := hv
    exact star_append ha hb
  · obtain ⟨a, b, rfl, ha, hb⟩ := hv
    obtain ⟨x, -, h⟩ := lang_step ha
    have := date0_ne_nil x
    rcases h with rfl | rfl | rfl <;> simp [this]

theorem chunks_of_body {w : Str} (h : Lang setBody w) (h2 : TwoPieces w) : ∃ cs, ChunksOk cs ∧ w = commaJoin (cs.map Chunk.text) := by
  obtain ⟨l, v, t, rfl, hl, hv, hn, ht⟩ := lang_setBody_inv h
  have ok : ∀ {c cs}, Loose (c :: cs) → c.first = true → ChunksOk (c :: cs) := fun {c cs} hL hf =>
    ⟨hL.1, ⟨c, rfl, hf⟩, fun d hd => hL.2.1 d (List.mem_cons_of_mem _ hd), hL.2.2⟩
  rcases hl with rfl | rfl
  · obtain ⟨c, cs, e, hL, hf⟩ := chunks_of_star ht hv h2
    exact ⟨c :: cs, ok hL (hf hn), e⟩
  · have dd : ∀ p, splitDots (c! ".." ++ p) = [] :: splitDots p := by
      intro p
      rw [show c! ".." ++ p = [] ++ '.' :: '.' :: p from rfl, splitDots_append (by simp)]
    obtain ⟨c, cs, e, hL, hf⟩ := chunks_of_star ht hv (two_prepend (by decide) h2 (fun p => by rw [dd]; simp))
    have h3 := three_pieces (u := c! "..") (by rw [e]) (by decide) h2
    rw [dd, List.length_cons] at h3
    have hok := hL.1 c (by simp)
    have hla := hL.2.1 c (by simp)
    have hfi := hf hn
    have rd : ∀ r : List Date0, '.' ∉ runText r := fun r => runText_not_mem r (by decide) (by decide)
    cases c with
    | run r =>
      refine ⟨.upTo r :: cs, ⟨?_, ⟨_, rfl, rfl⟩, fun d hd => hL.2.1 d (List.mem_cons_of_mem _ hd), ?_⟩, ?_⟩
      · intro d hd
        rcases List.mem_cons.1 hd with rfl | hd
        · exact hok
        · exact hL.1 d (List.mem_cons_of_mem _ hd)
      · intro d hd
        cases cs with
        | nil => simp at hd
        | cons e es =>
          rw [List.dropLast_cons_cons] at hd
          rcases List.mem_cons.1 hd with rfl | hd
          · rfl
          · exact hL.2.2 d (by rw [List.dropLast_cons_cons]; exact List.mem_cons_of_mem _ hd)
      · rw [e, commaJoin_head (c := .run r) (c' := .upTo r) (u := c! "..") rfl]
    | upTo r => cases hla
    | blank => cases hfi
    | dots => cases hfi
    | pair a b =>
      exfalso
      rw [show (Chunk.pair a b).text = runText a ++ '.' :: '.' :: runText b from rfl, splitDots_append (rd a), splitDots_none (rd b)] at h3
      simp at h3
    | onFrom r =>
      exfalso
      rw [show (Chunk.onFrom r).text = runText r ++ '.' :: '.' :: [] from rfl, splitDots_append (rd r), splitDots_none (u := []) (by simp)] at h3
      simp at h3

/-! ### The pattern from chunks -/

theorem star_run {r : List Date0} (h : RunOk r) {sep v : Str} (hs : sep = [] ∨ sep = [','] ∨ sep = c! "..") (hv : Star (Lang setStep) v) :
    Star (Lang setStep) (runText r ++ (sep ++ v)) := by
  obtain ⟨h0, h⟩ := h
  induction r with
  | nil => exact absurd rfl h0
  | cons x xs ih =>
    have hx : Shape x := h x (by simp)
    by_cases hn : xs = []
    · subst hn
      rw [show runText [x] ++ (sep ++ v) = (x.text ++ sep) ++ v by simp [runText]]
      refine star_append ?_ hv
      rcases hs with rfl | rfl | rfl
      · rw [List.append_nil]; exact step_plain hx
      · exact step_comma hx
      · exact step_dots hx
    · rw [show runText (x :: xs) ++ (sep ++ v) = x.text ++ (runText xs ++ (sep ++ v)) by simp [runText]]
      exact star_append (step_plain hx) (ih hn (fun y hy => h y (List.mem_cons_of_mem _ hy)))

theorem star_of_chunks {cs : List Chunk} (h : Loose cs) : ∃ w t, commaJoin (cs.map Chunk.text) = w ++ t ∧ Star (Lang setStep) w ∧ (t = [] ∨ t = c! "..") ∧
    (∀ c, cs.head? = some c → c.first = true → w ≠ []) := by
  induction cs with
  | nil => exact ⟨[], [], rfl, .nil, Or.inl rfl, by simp⟩
  | cons c cs ih =>
    have hok := h.1 c (by simp)
    have hla := h.2.1 c (by simp)
    cases cs with
    | nil =>
      show ∃ w t, c.text = w ++ t ∧ _
      cases c with
      | run r =>
        refine ⟨runText r, [], by simp [Chunk.text], ?_, Or.inl rfl, fun _ _ _ => runText_ne_nil hok⟩
        simpa using star_run hok (Or.inl rfl) .nil
      | pair a b =>
        refine ⟨runText a ++ (c! ".." ++ runText b), [], by simp [Chunk.text], ?_, Or.inl rfl, fun _ _ _ => by simp⟩
        refine star_run hok.1 (Or.inr (Or.inr rfl)) ?_
        simpa using star_run hok.2 (Or.inl rfl) .nil
      | upTo r => cases hla
      | onFrom r =>
        refine ⟨runText r ++ c! "..", [], by simp [Chunk.text], ?_, Or.inl rfl, fun _ _ _ => by simp⟩
        simpa using star_run hok (Or.inr (Or.inr rfl)) .nil
      | blank => exact ⟨[], [], rfl, .nil, Or.inl rfl, by intro c hc hf; injection hc with hc; subst hc; cases hf⟩
      | dots => exact ⟨[], c! "..", rfl, .nil, Or.inr rfl, by intro c hc hf; injection hc with hc; subst hc; cases hf⟩
    | cons d ds =>
      have hin := h.2.2 c (by rw [List.dropLast_cons_cons]; simp)
      obtain ⟨w, t, e, hw, ht, -⟩ := ih ⟨fun x hx => h.1 x (List.mem_cons_of_mem _ hx), fun x hx => h.2.1 x (List.mem_cons_of_mem _ hx),
        fun x hx => h.2.2 x (by rw [List.dropLast_cons_cons]; exact List.mem_cons_of_mem _ hx)⟩
      rw [List.map_cons, commaJoin_cons _ (by simp), e]
      cases c with
      | run r =>
        refine ⟨runText r ++ ([','] ++ w), t, by simp [Chunk.text], star_run hok (Or.inr (Or.inl rfl)) hw, ht, fun _ _ _ => by simp⟩
      | pair a b =>
        refine ⟨runText a ++ (c! ".." ++ (runText b ++ ([','] ++ w))), t, by simp [Chunk.text],
          star_run hok.1 (Or.inr (Or.inr rfl)) (star_run hok.2 (Or.inr (Or.inl rfl)) hw), ht, fun _ _ _ => by simp⟩
      | upTo r => cases hla
      | onFrom r => cases hin
      | blank => cases hin
      | dots => cases hin

theorem lang_chunks {cs : List Chunk} (h : ChunksOk cs) : Lang setBody (commaJoin (cs.map Chunk.text)) := by
  obtain ⟨h1, ⟨c, hc, hf⟩, h3, h4⟩ := h
  obtain ⟨c', cs, rfl⟩ : ∃ c' cs', cs = c' :: cs' := by
    cases cs with
    | nil => cases hc
    | cons a b => exact ⟨a, b, rfl⟩
  injection hc with hc
  subst hc
  have ho : ∀ {t}, (t = [] ∨ t = c! "..") → Lang (.opt Rx.dots) t := by
    rintro t (rfl | rfl)
    · exact lang_opt.2 (Or.inl rfl)
    · exact lang_opt.2 (Or.inr (lang_dots.2 rfl))
  have body : ∀ {l w t : Str}, (l = [] ∨ l = c! "..") → Star (Lang setStep) w → w ≠ [] → (t = [] ∨ t = c! "..") → Lang setBody (l ++ (w ++ t)) :=
    fun {l w t} a1 a2 a3 a4 => lang_cat.2 ⟨l, _, rfl, ho a1, lang_cat.2 ⟨w, t, rfl, plus_of_star a2 a3, ho a4⟩⟩
  by_cases hu : ∃ r, c' = .upTo r
  · obtain ⟨r, rfl⟩ := hu
    rw [commaJoin_head (c := .run r) (c' := .upTo r) (u := c! "..") rfl]
    have hL : Loose (.run r :: cs) := by
      refine ⟨?_, ?_, ?_⟩
      · intro d hd
        rcases List.mem_cons.1 hd with rfl | hd
        · exact h1 (.upTo r) (by simp)
        · exact h1 d (List.mem_cons_of_mem _ hd)
      · intro d hd
        rcases List.mem_cons.1 hd with rfl | hd
        · rfl
        · exact h3 d hd
      · intro d hd
        cases cs with
        | nil => simp at hd
        | cons e es =>
          rw [List.dropLast_cons_cons] at hd
          rcases List.mem_cons.1 hd with rfl | hd
          · rfl
          · exact h4 d (by rw [List.dropLast_cons_cons]; exact List.mem_cons_of_mem _ hd)
    obtain ⟨w, t, e, hw, ht, hne⟩ := star_of_chunks hL
    rw [e]
    exact body (Or.inr rfl) hw (hne _ rfl rfl) ht
  · have hL : Loose (c' :: cs) := by
      refine ⟨h1, ?_, h4⟩
      intro d hd
      rcases List.mem_cons.1 hd with rfl | hd
      · cases d with
        | upTo r => exact absurd ⟨r, rfl⟩ hu
        | _ => rfl
      · exact h3 d hd
    obtain ⟨w, t, e, hw, ht, hne⟩ := star_of_chunks hL
    rw [e]
    exact body (l := []) (Or.inl rfl) hw (hne _ rfl hf) ht

/-! ### Accepted sets -/

theorem chunks_ne_nil {cs : List Chunk} (h : ChunksOk cs) : ∃ t ∈ cs.flatMap Chunk.members, t ≠ [] := by
  obtain ⟨h1, ⟨c, hc, hf⟩, -⟩ := h
  have hm : c ∈ cs := List.mem_of_mem_head? (by rw [hc]; rfl)
  have hok := h1 c hm
  cases c with
  | run r => exact ⟨runText r, List.mem_flatMap.2 ⟨_, hm, by simp [Chunk.members]⟩, runText_ne_nil hok⟩
  | pair a b => exact ⟨runText a, List.mem_flatMap.2 ⟨_, hm, by simp [Chunk.members]⟩, runText_ne_nil hok.1⟩
  | upTo r => exact ⟨runText r, List.mem_flatMap.2 ⟨_, hm, by simp [Chunk.members]⟩, runText_ne_nil hok⟩
  | onFrom r => exact ⟨runText r, List.mem_flatMap.2 ⟨_, hm, by simp [Chunk.members]⟩, runText_ne_nil hok⟩
  | blank => cases hf
  | dots => cases hf

/-- The parser on a set, once its content is known. -/
theorem set_parse {s : Str} {m : Nat → Str} (hm : Rx.SetRepresentations.submatch s = some m) :
    (∃ r, L2.parseSetRepresentations s = .ok r) ↔ ∃ cs, ChunksOk cs ∧ m 2 = commaJoin (cs.map Chunk.text) ∧ MembersOk (cs.flatMap Chunk.members) := by
  obtain ⟨b, b', hb, -, g1, g2, g3⟩ := set_caps hm
  unfold L2.parseSetRepresentations
  rw [hm]
  simp only
  have hk : ∃ p, L2.setKind s (m 1) = .ok p := by
    rw [g1]
    rcases hb with rfl | rfl <;> exact ⟨_, rfl⟩
  obtain ⟨p, hp⟩ := hk
  rw [hp, Res.ok_bind]
  have core : ∀ {cs}, ChunksOk cs → m 2 = commaJoin (cs.map Chunk.text) →
      ((∃ r, (do
        let mem ← L2.collectMembers s (splitChar ',' (m 2)) ⟨[], false, false⟩
        let possible := sortStrings mem.possible
        if possible.length = 0 then .err (Invalid L2.SET_REPRESENTATIONS s)
        else do
          let sp ← L2.setSpan possible mem.start_open mem.end_open p
          .ok (mkEDTF sp s 2 L2.SET_REPRESENTATIONS)) = Res.ok r) ↔ MembersOk (cs.flatMap Chunk.members)) := by
    intro cs hc e
    have hsplit : splitChar ',' (m 2) = cs.map Chunk.text := by
      rw [e]
      refine splitChar_commaJoin ?_ ?_
      · obtain ⟨-, ⟨c, hc, -⟩, -⟩ := hc
        intro h
        rw [List.map_eq_nil_iff] at h
        rw [h] at hc
        cases hc
      · intro x hx
        obtain ⟨p, -, rfl⟩ := List.mem_map.1 hx
        exact chunk_comma p
    obtain ⟨so, eo, hcol⟩ := collect_chunks s cs hc.1 ⟨[], false, false⟩
    rw [hsplit, hcol, Res.ok_bind]
    simp only [List.nil_append]
    have hne := chunks_ne_nil hc
    rw [if_neg (by
      obtain ⟨t, ht, -⟩ := hne
      rw [length_sortStrings]
      intro h
      rw [List.length_eq_zero_iff.1 h] at ht
      cases ht)]
    rw [← members_iff (so := so) (eo := eo) (p := p) hne (fun t ht => by
      obtain ⟨c, -, hc⟩ := List.mem_flatMap.1 ht
      exact chunk_bare c t hc)]
    constructor
    · rintro ⟨r, h⟩
      obtain ⟨sp, h, -⟩ := Res.bind_eq_ok.1 h
      exact ⟨sp, h⟩
    · rintro ⟨sp, h⟩
      rw [h]
      exact ⟨_, rfl⟩
  constructor
  · rintro ⟨r, h⟩
    obtain ⟨mem, hcol, -⟩ := Res.bind_eq_ok.1 h
    obtain ⟨cs, hc, e⟩ := chunks_of_body g3 (collect_pieces hcol)
    exact ⟨cs, hc, e, (core hc e).1 ⟨r, h⟩⟩
  · rintro ⟨cs, hc, e, hM⟩
    exact (core hc e).2 hM

theorem acc_set {s : Str} {r : EDTFDate} (h : L2.isSetRepresentation s = true) (hp : L2.parseSetRepresentations s = .ok r) : Accepted s := by
  unfold L2.isSetRepresentation at h
  rw [← isSome_submatch, Option.isSome_iff_exists] at h
  obtain ⟨m, hm⟩ := h
  obtain ⟨cs, hc, e, hM⟩ := (set_parse hm).1 ⟨r, hp⟩
  obtain ⟨b, b', hb, hb', -, g2, -⟩ := set_caps hm
  rw [g2, e]
  exact .set b b' ⟨hb, hb'⟩ cs hc hM

theorem set_ok {o c : Char} (hb : Brackets o c) {cs : List Chunk} (hc : ChunksOk cs) (hM : MembersOk (cs.flatMap Chunk.members)) :
    ∃ r, parseString (o :: (commaJoin (cs.map Chunk.text) ++ [c])) = .ok r := by
  have hl : Lang (Rx.setRepresentations 1) (o :: (commaJoin (cs.map Chunk.text) ++ [c])) := by
    refine ⟨[o], _, rfl, ?_, _, [c], rfl, lang_chunks hc, ⟨c, rfl, ?_⟩⟩
    · rcases hb.1 with rfl | rfl
      · exact .inl (lang_lit.2 rfl)
      · exact .inr (lang_lit.2 rfl)
    · rcases hb.2 with rfl | rfl <;> decide
  have hset := isSet_iff.2 hl
  have ho : o ∈ o :: (commaJoin (cs.map Chunk.text) ++ [c]) := by simp
  have hsome : (Rx.SetRepresentations.submatch (o :: (commaJoin (cs.map Chunk.text) ++ [c]))).isSome = true := by
    rw [isSome_submatch]; exact hset
  obtain ⟨m, hm⟩ := Option.isSome_iff_exists.1 hsome
  have key : ∃ r, L2.parseSetRepresentations (o :: (commaJoin (cs.map Chunk.text) ++ [c])) = .ok r := by
    obtain ⟨b, b', -, -, -, g2, -⟩ := set_caps hm
    injection g2 with g2 g3
    exact (set_parse hm).2 ⟨cs, hc, ((List.append_inj' g3 rfl).1).symm, hM⟩
  generalize o :: (commaJoin (cs.map Chunk.text) ++ [c]) = s at *
  have nc : ∀ r : Re, r.mayHave '[' = false → r.mayHave '{' = false → ¬ Lang r s := by
    intro r h1 h2
    rcases hb.1 with rfl | rfl
    · exact not_lang_of_char h1 ho
    · exact not_lang_of_char h2 ho
  have l0 : L0.isLevel0 s = false := by
    rcases hb.1 with rfl | rfl
    · exact not_level0_char ho (by decide)
    · exact not_level0_char ho (by decide)
  have l1 : L1.isLevel1 s = false := by
    rcases hb.1 with rfl | rfl
    · exact not_level1_char ho (by decide)
    · exact not_level1_char ho (by decide)
  have e1 : L2.isExponentialYear s = false := by
    rw [← Bool.not_eq_true, isExponential_iff]; exact nc _ (by decide) (by decide)
  have e2 : L2.isSignificantDigits s = false := by
    rw [← Bool.not_eq_true, isSig_iff]; exact nc _ (by decide) (by decide)
  have e3 : L2.isSubYearGrouping s = false := by
    rw [← Bool.not_eq_true, isSubYear_iff]; exact nc _ (by decide) (by decide)
  rw [parse_level2 l0 l1 (isLevel2_of (.inr (.inr (.inr (.inl hset)))))]
  unfold L2.parseString
  rw [e1, e2, e3, hset]
  simp only [Bool.false_eq_true, if_false, if_true]
  exact key

end EDTF
