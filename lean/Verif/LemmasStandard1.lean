/- For C87: intervals of Level 1. -/
import Verif.LemmasStandard
namespace EDTF
open Spec
variable {f : Int → Nat → Nat → Int}

/-! ### No qualifier at the end of a side -/

/-- A text that does not end with a qualifier. -/
def EndsPlain (t : Str) : Prop := ∀ u c, t = u ++ [c] → isQ c = false

theorem endsPlain_nil : EndsPlain [] := by
  intro u c h
  cases u <;> simp at h

theorem endsPlain_snoc {u : Str} {c : Char} (h : isQ c = false) : EndsPlain (u ++ [c]) := by
  intro u' c' e
  obtain ⟨-, e⟩ := List.append_inj' e rfl
  injection e with e
  rw [← e]; exact h

theorem endsPlain_append {u t : Str} (h : EndsPlain t) (ht : t ≠ []) : EndsPlain (u ++ t) := by
  intro u' c e
  have : t.getLast? = some c := by
    have := congrArg List.getLast? e
    simp only [List.getLast?_append, List.getLast?_singleton, Option.some_or] at this
    cases hl : t.getLast? with
    | none => exact absurd (List.getLast?_eq_none_iff.1 hl) ht
    | some k => rw [hl] at this; simpa using this
  obtain ⟨w, rfl⟩ := List.getLast?_eq_some_iff.1 this
  exact h w c rfl

theorem endsPlain_cons {k : Char} {t : Str} (h : EndsPlain t) (ht : t ≠ []) : EndsPlain (k :: t) := endsPlain_append (u := [k]) h ht

theorem isQ_dig (n : Nat) : isQ (dig (n % 10)) = false := by
  have h : n % 10 < 10 := Nat.mod_lt _ (by decide)
  generalize n % 10 = k at h
  revert k
  decide

theorem endsPlain_pad2 (n : Nat) : EndsPlain (pad2 n) := endsPlain_snoc (u := [dig (n / 10 % 10)]) (isQ_dig n)
theorem endsPlain_pad4 (n : Nat) : EndsPlain (pad4 n) := endsPlain_snoc (u := [dig (n / 1000 % 10), dig (n / 100 % 10), dig (n / 10 % 10)]) (isQ_dig n)
theorem endsPlain_dots : EndsPlain (c! "..") := endsPlain_snoc (u := ['.']) (by decide)
theorem endsPlain_signed (b : Bool) (n : Nat) : EndsPlain (signed b (pad4 n)) := by
  cases b
  · exact endsPlain_pad4 n
  · exact endsPlain_cons (endsPlain_pad4 n) (by simp [pad4])

theorem endsPlain_date (x : Date0) : EndsPlain x.text := by
  obtain ⟨b, n, t⟩ := x
  have e : ∀ t, (⟨b, n, t⟩ : Date0).text = signed b (pad4 n) ++ (match t with | .none => [] | .month m => '-' :: pad2 m | .day m d => '-' :: (pad2 m ++ '-' :: pad2 d)) := by
    intro t
    cases t <;> simp [Date0.text, Date0.qtext, Deco.text, signed]
  rw [e]
  cases t with
  | none => simpa using endsPlain_signed b n
  | month m => exact endsPlain_append (endsPlain_cons (endsPlain_pad2 m) (by simp [pad2])) (by simp)
  | day m d =>
    refine endsPlain_append (endsPlain_cons (endsPlain_append (endsPlain_cons (endsPlain_pad2 d) (by simp [pad2])) (by simp)) (by simp)) (by simp)

theorem endsPlain_chars {w : Str} (h : ∀ c ∈ w, XDigit c) : EndsPlain w := by
  intro u c e
  have := h c (by rw [e]; simp)
  rcases this with rfl | ⟨k, hk, rfl⟩
  · decide
  · have := isQ_dig k
    rwa [Nat.mod_eq_of_lt hk] at this

theorem endsPlain_deco {q : Deco} (hq : q.isRight (fun _ => true) = false) {w : Str} (h : EndsPlain w) (hw : w ≠ []) : EndsPlain (q.text w) := by
  cases q with
  | none => exact h
  | left c => exact endsPlain_cons h hw
  | right c => simp [Deco.isRight] at hq

theorem endsPlain_endpoint {e : Endpoint} (h : e.shape) (hr : noRight e.qy e.qm e.qd) : EndsPlain e.text := by
  obtain ⟨⟨b, y, t⟩, qy, qm, qd⟩ := e
  obtain ⟨⟨h1, h2, h3⟩, -⟩ := h
  simp only at h1 h2 h3 hr
  have ne : ∀ {w : Str} {k : Nat}, w.length = k + 1 → w ≠ [] := by
    intro w k hk e; rw [e] at hk; simp at hk
  have dne : ∀ {q : Deco} {w : Str}, w ≠ [] → q.text w ≠ [] := by
    intro q w hw
    cases q <;> simp [Deco.text, hw]
  unfold Endpoint.text
  simp only
  cases t with
  | none =>
    simp only [List.append_nil]
    refine endsPlain_deco (hr _ (by simp)) ?_ ?_
    · cases b
      · exact endsPlain_chars h2
      · exact endsPlain_cons (endsPlain_chars h2) (ne h1)
    · cases b
      · exact ne h1
      · simp
  | month m =>
    exact endsPlain_append (endsPlain_cons (endsPlain_deco (hr _ (by simp)) (endsPlain_chars h3.2) (ne h3.1)) (dne (ne h3.1))) (by simp)
  | day m d =>
    refine endsPlain_append (endsPlain_cons (endsPlain_append (endsPlain_cons ?_ (dne (ne h3.2.2.1))) (by simp)) (by simp)) (by simp)
    exact endsPlain_deco (hr _ (by simp)) (endsPlain_chars h3.2.2.2) (ne h3.2.2.1)

/-! ### The accepted texts with a slash -/

theorem run_noSlash (r : List Date0) : '/' ∉ runText r := by
  induction r with
  | nil => simp [runText]
  | cons x xs ih =>
    simp only [runText, List.mem_append, not_or]
    exact ⟨date0_slash x, ih⟩

theorem chunk_noSlash (c : Chunk) : '/' ∉ c.text := by
  cases c <;> simp [Chunk.text, run_noSlash]

theorem join_noSlash {l : List Str} (h : ∀ t ∈ l, '/' ∉ t) : '/' ∉ commaJoin l := by
  induction l with
  | nil => simp [commaJoin]
  | cons a l ih =>
    cases l with
    | nil => simpa [commaJoin] using h a (by simp)
    | cons b l =>
      simp only [commaJoin, List.mem_append, List.mem_cons, not_or]
      exact ⟨h a (by simp), by decide, ih (fun t ht => h t (by simp [ht]))⟩

theorem digs_noSlash (ds : List Nat) (h : ∀ d ∈ ds, d < 10) : '/' ∉ ds.map dig := by
  intro hm
  obtain ⟨k, hk, e⟩ := List.mem_map.1 hm
  have := h k hk
  revert e
  generalize k = j at this
  revert j
  decide

theorem pad_noSlash (n : Nat) : '/' ∉ pad4 n ∧ '/' ∉ pad2 n := by
  constructor
  · exact fun h => by have := List.all_eq_true.1 (pad4_all n) _ h; revert this; decide
  · exact fun h => by have := List.all_eq_true.1 (pad2_all n) _ h; revert this; decide

theorem signed_noSlash {b : Bool} {t : Str} (h : '/' ∉ t) : '/' ∉ signed b t := by
  cases b
  · exact h
  · simp [signed, h]

theorem folded_noSlash {v w : Str} (h : Folded v w) (hv : ∀ c ∈ v, c ≠ '/' ∧ Char.ofNat (c.toNat - 32) ≠ '/') : '/' ∉ w := by
  intro hm
  obtain ⟨hl, hz⟩ := h
  obtain ⟨i, hi, e⟩ := List.getElem_of_mem hm
  have hi' : i < v.length := by omega
  have hp : (v[i], w[i]) ∈ v.zip w := List.mem_iff_getElem.2 ⟨i, by simp; omega, by simp⟩
  have hlow := hv _ (List.getElem_mem hi')
  rcases hz _ hp with k | k | ⟨-, k⟩
  · exact hlow.1 (by rw [← e]; exact k.symm)
  · exact hlow.2 (by rw [← e]; exact k.symm)
  · simp only at k; rw [e] at k; revert k; decide

theorem blank_noSlash {t : Str} (h : Blank t) : '/' ∉ t := by
  intro hm
  have := h _ hm
  revert this
  decide

/-- A year, with a month, with a day. -/
def DigitDate (t : Str) : Prop :=
  ∃ neg n u, n < 10000 ∧ t = signed neg (pad4 n) ++ u ∧ (u = [] ∨
    (SeasonYear (if neg then -(n : Int) else n) ∧ ∃ m, 1 ≤ m ∧ m ≤ 12 ∧ (u = '-' :: pad2 m ∨ ∃ d, 1 ≤ d ∧ d ≤ 31 ∧ u = '-' :: (pad2 m ++ '-' :: pad2 d))))

/-- The sides of an accepted text with a slash. -/
def Sides (l r : Str) : Prop :=
  (∃ a b : Endpoint, a.Readable ∧ b.Readable ∧ noRight a.qy a.qm a.qd ∧ noRight b.qy b.qm b.qd ∧ l = a.text ∧ r = b.text) ∨
  ((l = [] ∨ l = c! "..") ∧ ∃ x : Date0, x.ok ∧ r = x.text) ∨
  ((r = [] ∨ r = c! "..") ∧ DigitDate l)

/-- An accepted text with a slash is a pair of dates, or has an open or unknown side. -/
theorem accepted_slash {l r : Str} (hl : '/' ∉ l) (h : Accepted (l ++ '/' :: r)) : Sides l r := by
  generalize hs : l ++ '/' :: r = s at h
  have hm : '/' ∈ s := by rw [← hs]; simp
  have hsp : ∀ {a b : Str}, '/' ∉ a → l ++ '/' :: r = a ++ '/' :: b → Sides a b → Sides l r := by
    intro a b ha e h1
    obtain ⟨rfl, rfl⟩ := slash_split hl ha e
    exact h1
  have hdots : ∀ {t : Str}, t = [] ∨ t = c! ".." → '/' ∉ t := by
    rintro t (rfl | rfl)
    · simp
    · decide
  cases h with
  | unknown => cases hm
  | opened => exact absurd hm (by decide)
  | date x h => exact absurd hm (date0_slash x)
  | time neg y m d hh mi ss z hy V k1 k2 k3 hz =>
    exfalso
    revert hm
    have hzz : '/' ∉ z.text := by
      cases z with
      | none => simp [Zone.text]
      | utc => simp [Zone.text]
      | hours b a =>
        simp only [Zone.text, List.mem_cons, not_or]
        exact ⟨by cases b <;> decide, (pad_noSlash a).2⟩
      | full b a c =>
        simp only [Zone.text, List.mem_cons, List.mem_append, not_or]
        exact ⟨by cases b <;> decide, (pad_noSlash a).2, by decide, (pad_noSlash c).2⟩
    unfold clockText hmsText
    cases neg <;> simp [pad_noSlash, hzz]
  | interval a b ha hb ra rb =>
    exact hsp (e_not_mem ha.1 (by decide) (by decide) (by decide)) hs (.inl ⟨a, b, ha, hb, ra, rb, rfl, rfl⟩)
  | startless t ht x h => exact hsp (hdots ht) hs (.inr (.inl ⟨ht, x, h, rfl⟩))
  | endless neg n h t ht => exact hsp (signed_noSlash (pad_noSlash n).1) hs (.inr (.inr ⟨ht, neg, n, [], h, by simp, .inl rfl⟩))
  | qualifiedYear neg n h q hq =>
    exfalso
    rcases List.mem_append.1 hm with k | k
    · exact signed_noSlash (pad_noSlash n).1 k
    · rcases q_cases hq with rfl | rfl | rfl <;> revert k <;> decide
  | single e h hn hq hx => exact absurd hm (e_not_mem h.1 (by decide) (by decide) (by decide))
  | month neg n m hn h1 h2 hy t ht =>
    have ns : ∀ {u : Str}, '/' ∉ u → '/' ∉ signed neg (pad4 n) ++ '-' :: (pad2 m ++ u) := by
      intro u hu
      simp only [List.mem_append, List.mem_cons, not_or]
      exact ⟨signed_noSlash (pad_noSlash n).1, by decide, (pad_noSlash m).2, hu⟩
    cases ht with
    | qualifier _ q hq =>
      exact absurd hm (ns (by rcases q_cases hq with rfl | rfl | rfl <;> decide))
    | dayQualifier _ d d1 d2 q hq =>
      refine absurd hm (ns ?_)
      simp only [List.mem_append, List.mem_cons, not_or]
      exact ⟨by decide, (pad_noSlash d).2, by rcases q_cases hq with rfl | rfl | rfl <;> decide⟩
    | ended _ t ht =>
      refine hsp (a := signed neg (pad4 n) ++ '-' :: pad2 m) ?_ (by rw [hs]; simp) (.inr (.inr ⟨ht, neg, n, _, hn, rfl, .inr ⟨hy, m, h1, h2, .inl rfl⟩⟩))
      have := ns (u := []) (by simp); simpa using this
    | dayEnded _ d d1 d2 t ht =>
      refine hsp (a := signed neg (pad4 n) ++ '-' :: (pad2 m ++ '-' :: pad2 d)) (ns ?_) (by rw [hs]; simp) (.inr (.inr ⟨ht, neg, n, _, hn, rfl, .inr ⟨hy, m, h1, h2, .inr ⟨d, d1, d2, rfl⟩⟩⟩))
      simp only [List.mem_cons, not_or]
      exact ⟨by decide, (pad_noSlash d).2⟩
    | loose a b h =>
      refine absurd hm (ns ?_)
      obtain ⟨h, -⟩ := h
      intro k
      simp only [List.mem_cons, List.not_mem_nil, or_false] at k
      rcases k with k | k | k
      · revert k; decide
      · subst k
        rcases h with ⟨h, -⟩ | ⟨h, -⟩ <;> (revert h; decide)
      · subst k
        rcases h with ⟨-, h⟩ | ⟨-, h⟩ <;> (revert h; decide)
  | season neg n hn z hy hz =>
    exfalso
    simp only [List.mem_append, List.mem_cons] at hm
    rcases hm with k | k | k
    · exact signed_noSlash (pad_noSlash n).1 k
    · revert k; decide
    · exact (pad_noSlash _).2 k
  | seasonName z w t1 t2 n hw h1 h2 hn hz =>
    exfalso
    simp only [List.mem_append, List.mem_cons] at hm
    rcases hm with k | k | k | k | k
    · exact folded_noSlash hw (by cases z <;> decide) k
    · exact blank_noSlash h1 k
    · revert k; decide
    · exact blank_noSlash h2 k
    · exact (pad_noSlash n).1 k
  | letter neg n h =>
    exfalso
    rcases List.mem_cons.1 hm with k | k
    · revert k; decide
    · exact signed_noSlash (pad_noSlash n).1 k
  | exponential yc ec hy he neg ms es hm' hes v hv h =>
    exfalso
    rcases List.mem_cons.1 hm with k | k
    · subst k; revert hy; decide
    · refine signed_noSlash ?_ k
      simp only [List.mem_append, List.mem_cons, not_or]
      exact ⟨digs_noSlash _ hm'.2, (by rintro rfl; revert he; decide), digs_noSlash _ hes.2⟩
  | significant t v h ds hd hk =>
    exfalso
    simp only [List.mem_append, List.mem_cons] at hm
    rcases hm with k | k | k
    · cases h with
      | date neg n h => exact signed_noSlash (pad_noSlash n).1 k
      | letter neg us hu hl =>
        rcases List.mem_cons.1 k with k | k
        · revert k; decide
        · exact signed_noSlash (digs_noSlash _ hu.2) k
      | exponential yc ec hy he neg ms es hm' hes _ hv =>
        rcases List.mem_cons.1 k with k | k
        · subst k; revert hy; decide
        · refine signed_noSlash ?_ k
          simp only [List.mem_append, List.mem_cons, not_or]
          exact ⟨digs_noSlash _ hm'.2, (by rintro rfl; revert he; decide), digs_noSlash _ hes.2⟩
    · revert k; decide
    · exact digs_noSlash _ hd.2 k
  | grouping n hn g hg =>
    exfalso
    simp only [List.mem_append, List.mem_cons] at hm
    rcases hm with k | k | k
    · exact (pad_noSlash n).1 k
    · revert k; decide
    · exact (pad_noSlash _).2 k
  | set o c hb cs hc hm' =>
    exfalso
    simp only [List.mem_cons, List.mem_append, List.not_mem_nil, or_false] at hm
    rcases hm with k | k | k
    · subst k
      rcases hb.1 with k | k <;> (revert k; decide)
    · refine join_noSlash ?_ k
      intro t ht
      obtain ⟨c, -, rfl⟩ := List.mem_map.1 ht
      exact chunk_noSlash c
    · subst k
      rcases hb.2 with k | k <;> (revert k; decide)

/-- No side of an accepted text with a slash ends with a qualifier. -/
theorem accepted_marks {l r : Str} (hl : '/' ∉ l) (h : Accepted (l ++ '/' :: r)) : EndsPlain l ∧ EndsPlain r := by
  have hdots : ∀ {t : Str}, t = [] ∨ t = c! ".." → EndsPlain t := by
    rintro t (rfl | rfl)
    · exact endsPlain_nil
    · exact endsPlain_dots
  rcases accepted_slash hl h with ⟨a, b, ha, hb, ra, rb, rfl, rfl⟩ | ⟨ht, x, -, rfl⟩ | ⟨ht, neg, n, u, -, rfl, hu⟩
  · exact ⟨endsPlain_endpoint ha.1 ra, endsPlain_endpoint hb.1 rb⟩
  · exact ⟨hdots ht, endsPlain_date x⟩
  · refine ⟨?_, hdots ht⟩
    rcases hu with rfl | ⟨-, m, -, -, rfl | ⟨d, -, -, rfl⟩⟩
    · rw [List.append_nil]; exact endsPlain_signed neg n
    · exact endsPlain_append (endsPlain_cons (endsPlain_pad2 m) (by simp [pad2])) (by simp)
    · exact endsPlain_append (endsPlain_cons (endsPlain_append (endsPlain_cons (endsPlain_pad2 d) (by simp [pad2])) (by simp)) (by simp)) (by simp)

/-- A side with a qualifier at its end is not taken. -/
theorem marks_refused {l r : Str} (hl : '/' ∉ l) {q : Char} (hq : q ∈ c! "?~%") (h : (∃ u, l = u ++ [q]) ∨ ∃ u, r = u ++ [q]) (d : EDTFDate) :
    parseString (l ++ '/' :: r) ≠ .ok d := by
  intro hd
  have := accepted_marks hl ((C54_language _).1 ⟨d, hd⟩)
  have hQ : isQ q = true := by rcases q_cases hq with rfl | rfl | rfl <;> decide
  rcases h with ⟨u, e⟩ | ⟨u, e⟩
  · rw [this.1 u q e] at hQ; cases hQ
  · rw [this.2 u q e] at hQ; cases hQ

theorem edge_noSlash {e : Edge} (h : e.ok) : '/' ∉ e.text := by
  cases e with
  | opened => decide
  | unknown => decide
  | date x q =>
    simp only [Edge.text, List.mem_append, not_or]
    refine ⟨date0_slash x, ?_⟩
    cases q with
    | none => simp
    | some c =>
      have := q_cases (h.2.2 c rfl)
      rcases this with rfl | rfl | rfl <;> decide

/-! ### Intervals of Level 1 -/

theorem is_openEnd : Limit.opened.Is openEnd := ⟨rfl, rfl, rfl⟩
theorem is_unknownEnd : Limit.unknown.Is unknownEnd := ⟨rfl, rfl, rfl⟩
theorem not_opened {f : Int → Nat → Nat → Int} {y : Int} {m d : Nat} {u a p : Prec} :
    ¬ Limit.opened.Is (dayEnd f y m d u a p) ∧ ¬ Limit.unknown.Is (dayEnd f y m d u a p) := by
  constructor
  · rintro ⟨h, -⟩; cases h
  · rintro ⟨-, h, -⟩; cases h

theorem whole_none (x : Date0) (p : Char → Bool) : x.whole p none = 0 := rfl

theorem start_side (hf : DayCount f) {e : Edge} (s : Side) (hs : s = .opened ∨ s = .unknown) (he : e.text = s.text)
    (hF : ∀ b, s.range f = ⟨s.text, some b, some b⟩ → (e.first f).Is b) {x : Date0} {q : Option Char} (h : (Edge.date x q).ok)
    (hT : ∀ q, (Term.extended e (.date x q)).Taken ↔ q = none) (hS : ∀ q, (Term.extended e (.date x q)).Supported ↔ q = none) :
    Verdict f (.extended e (.date x q)) := by
  have hsl : '/' ∉ e.text := by rw [he]; rcases hs with rfl | rfl <;> decide
  cases q with
  | none =>
    have hp := C17_start hf hs h.1
    have hx : (Term.extended e (.date x none)).text = s.text ++ '/' :: x.text := by
      show e.text ++ '/' :: (x.text ++ []) = _
      rw [he, List.append_nil]
    rw [← hx] at hp
    refine Or.inl ⟨_, hp, (hT _).2 rfl, ?_⟩
    · rw [hS]
      refine ⟨fun _ => rfl, fun _ => ?_⟩
      simp only [Term.Honoured]
      have hr : s.range f = ⟨s.text, some (if s = .opened then openEnd else unknownEnd), some (if s = .opened then openEnd else unknownEnd)⟩ := by
        rcases hs with rfl | rfl <;> rfl
      refine (honours_mk (S := s.range f) (E := x.range f x.text 0 0 Prec.YEAR) rfl rfl (lo := if s = .opened then openEnd else unknownEnd) (by rw [hr]) rfl).2 ⟨hF _ hr, ?_⟩
      simp only [Edge.last, whole_none]
      exact is_last.2 ⟨rfl, rfl, rfl, rfl⟩
  | some c =>
    refine Or.inr ⟨?_, ?_, ?_⟩
    · intro d hd
      exact marks_refused hsl (h.2.2 c rfl) (Or.inr ⟨x.text, rfl⟩) d hd
    · rw [hT]; simp
    · rw [hS]; simp

theorem end_side (hf : DayCount f) {e : Edge} (s : Side) (hs : s = .opened ∨ s = .unknown) (he : e.text = s.text)
    (hF : ∀ b, s.range f = ⟨s.text, some b, some b⟩ → (e.last f).Is b) (hN : ∀ y m d u a p, ¬ (e.last f).Is (dayEnd f y m d u a p))
    {x : Date0} {q : Option Char} (h : (Edge.date x q).ok)
    (hT : ∀ q, (Term.extended (.date x q) e).Taken ↔ q = none) (hS : ∀ q, (Term.extended (.date x q) e).Supported ↔ q = none ∧ x.tail = .none) :
    Verdict f (.extended (.date x q) e) := by
  cases q with
  | none =>
    have hx : (Term.extended (.date x none) e).text = x.text ++ '/' :: s.text := by
      show (x.text ++ []) ++ '/' :: e.text = _
      rw [he, List.append_nil]
    by_cases ht : x.tail = .none
    · have hp := C17_end_year_partial hf hs h.1 ht
      rw [← hx] at hp
      refine Or.inl ⟨_, hp, (hT _).2 rfl, ?_⟩
      · rw [hS]
        refine ⟨fun _ => ⟨rfl, ht⟩, fun _ => ?_⟩
        simp only [Term.Honoured]
        have hr : s.range f = ⟨s.text, some (if s = .opened then openEnd else unknownEnd), some (if s = .opened then openEnd else unknownEnd)⟩ := by
          rcases hs with rfl | rfl <;> rfl
        refine (honours_mk (S := x.range f x.text 0 0 Prec.YEAR) (E := s.range f) rfl rfl rfl (up := if s = .opened then openEnd else unknownEnd) (by rw [hr])).2 ⟨?_, hF _ hr⟩
        simp only [Edge.first, whole_none]
        exact is_first.2 ⟨rfl, rfl, rfl, rfl⟩
    · have hv : 0 ≤ x.value := by rw [nonneg_value h.2.1]; omega
      have hp := (C17_end_month_or_day_partial hf hs h.1 ht).1 (Or.inl hv)
      rw [← hx] at hp
      refine Or.inl ⟨_, hp, (hT _).2 rfl, ?_⟩
      · rw [hS]
        refine ⟨fun hh => ?_, fun k => absurd k.2 ht⟩
        simp only [Term.Honoured] at hh
        exact absurd ((honours_mk rfl rfl rfl rfl).1 hh).2 (hN _ _ _ _ _ _)
  | some c =>
    refine Or.inr ⟨?_, ?_, ?_⟩
    · intro d hd
      exact marks_refused (edge_noSlash h) (h.2.2 c rfl) (Or.inl ⟨x.text, rfl⟩) d hd
    · rw [hT]; simp
    · rw [hS]; simp

theorem verdict_extended (hf : DayCount f) {l r : Edge} (h : (Term.extended l r).ok) : Verdict f (.extended l r) := by
  obtain ⟨hl, hr, hd⟩ := h
  cases l with
  | opened =>
    cases r with
    | opened => simp [Edge.isDate] at hd
    | unknown => simp [Edge.isDate] at hd
    | date x q =>
      refine start_side hf .opened (Or.inl rfl) rfl ?_ hr (fun _ => Iff.rfl) (fun _ => Iff.rfl)
      intro b hb
      injection hb with _ hb _
      injection hb with hb
      rw [← hb]; exact is_openEnd
  | unknown =>
    cases r with
    | opened => simp [Edge.isDate] at hd
    | unknown => simp [Edge.isDate] at hd
    | date x q =>
      refine start_side hf .unknown (Or.inr rfl) rfl ?_ hr (fun _ => Iff.rfl) (fun _ => Iff.rfl)
      intro b hb
      injection hb with _ hb _
      injection hb with hb
      rw [← hb]; exact is_unknownEnd
  | date x q =>
    cases r with
    | opened =>
      refine end_side (e := .opened) hf .opened (Or.inl rfl) rfl ?_ (fun _ _ _ _ _ _ => not_opened.1) hl (fun _ => Iff.rfl) (fun _ => Iff.rfl)
      intro b hb
      injection hb with _ hb _
      injection hb with hb
      rw [← hb]; exact is_openEnd
    | unknown =>
      refine end_side (e := .unknown) hf .unknown (Or.inr rfl) rfl ?_ (fun _ _ _ _ _ _ => not_opened.2) hl (fun _ => Iff.rfl) (fun _ => Iff.rfl)
      intro b hb
      injection hb with _ hb _
      injection hb with hb
      rw [← hb]; exact is_unknownEnd
    | date y q' =>
      cases q with
      | some c =>
        refine Or.inr ⟨fun d hd => ?_, fun k => (nomatch k.1), fun k => (nomatch k.1)⟩
        exact marks_refused (edge_noSlash hl) (hl.2.2 c rfl) (Or.inl ⟨x.text, rfl⟩) d hd
      | none =>
        cases q' with
        | some c =>
          refine Or.inr ⟨fun d hd => ?_, fun k => (nomatch k.2), fun k => (nomatch k.2)⟩
          exact marks_refused (edge_noSlash hl) (hr.2.2 c rfl) (Or.inr ⟨y.text, rfl⟩) d hd
        | none =>
          have hp := C08_interval hf hl.1 hr.1
          have hx : (Term.extended (.date x none) (.date y none)).text = x.text ++ '/' :: y.text := by
            simp only [Term.text, Edge.text, Option.toList, List.append_nil]
          rw [← hx] at hp
          refine Or.inl ⟨_, hp, ⟨rfl, rfl⟩, ?_⟩
          · refine ⟨fun _ => ⟨rfl, rfl⟩, fun _ => ?_⟩
            simp only [Term.Honoured, Edge.first, Edge.last, whole_none]
            exact pair_honoured (e := x.text) (e' := y.text) (p := Prec.YEAR) (p' := Prec.YEAR) rfl rfl

end EDTF
