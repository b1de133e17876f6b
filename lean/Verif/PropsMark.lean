/-
C101: the marks of a text are those of its result.  Qualifiers, two dots at an end, a missing side
and brackets are neither lost nor invented, with the exceptions that are named.
-/
import Verif.SpecMark
import Verif.PropsWhole
namespace EDTF
open Spec

variable {f : Int → Nat → Nat → Int}

/-! ### The boundaries of ranges -/

/-- Both boundaries of a range have the property. -/
def Both (P : Date → Prop) (r : DateRange) : Prop := ∀ b, r.lower = some b ∨ r.upper = some b → P b

theorem both_mk {P : Date → Prop} {t : Str} {a b : Date} (ha : P a) (hb : P b) : Both P ⟨t, some a, some b⟩ := by
  rintro x (h | h)
  · cases h; exact ha
  · cases h; exact hb

theorem both_boundary {P : Date → Prop} {d : EDTFDate} {S E : DateRange} (h1 : d.start = some S) (h2 : d.stop = some E) (hS : Both P S) (hE : Both P E)
    {b : Date} (hb : BoundaryOf d b) : P b := by
  obtain ⟨r, h | h, k⟩ := hb
  · rw [h1] at h; cases h; exact hS b k
  · rw [h2] at h; cases h; exact hE b k

/-- DoubtsAre of a boundary. -/
def DoubtsAre (u a : Prec) (b : Date) : Prop := b.uncertain = u ∧ b.approximate = a

/-- The qualifiers of an endpoint. -/
def Endpoint.flags (e : Endpoint) : Date → Prop := DoubtsAre (marked saysUncertain e.qy e.qm e.qd) (marked saysApproximate e.qy e.qm e.qd)

theorem flags_dawn (e : Endpoint) (y : Int) (m d : Nat) : Endpoint.flags e (e.dawn f y m d) ∧ Endpoint.flags e (e.dusk f y m d) := ⟨⟨rfl, rfl⟩, rfl, rfl⟩

theorem span_flags {t : Str} {S E : DateRange} (h : SpanOf f t S E) : ∃ e : Endpoint, e.shape ∧ e.text = t ∧ Both (Endpoint.flags e) S ∧ Both (Endpoint.flags e) E := by
  cases h with
  | date e h y1 m1 d1 y2 m2 d2 hr =>
    refine ⟨e, h, rfl, both_mk (flags_dawn ..).1 ?_, both_mk ?_ (flags_dawn ..).2⟩
    · split
      · exact (flags_dawn ..).1
      · exact (flags_dawn ..).2
    · split
      · exact (flags_dawn ..).2
      · exact (flags_dawn ..).1

theorem range_flags {t : Str} {R : DateRange} (h : RangeOf f t R) :
    (t = [] ∧ Both (DoubtsAre 0 0) R) ∨ ∃ e : Endpoint, e.shape ∧ e.text = t ∧ Both (Endpoint.flags e) R := by
  cases h with
  | absent => exact .inl ⟨rfl, both_mk ⟨rfl, rfl⟩ ⟨rfl, rfl⟩⟩
  | date e h y1 m1 d1 y2 m2 d2 hr => exact .inr ⟨e, h, rfl, both_mk (flags_dawn ..).1 (flags_dawn ..).2⟩

theorem range_clear (x : Date0) (t : Str) (p : Prec) : Both (DoubtsAre 0 0) (x.range f t 0 0 p) := both_mk ⟨rfl, rfl⟩ ⟨rfl, rfl⟩

theorem flagged_flags {P : Date → Prop} {p : Prec} {R : DateRange} (hP : ∀ b : Date, P b → P { b with inclusivity := p }) (h : Both P R) : Both P (flagged p R) := by
  obtain ⟨t, l, u⟩ := R
  rintro b (k | k)
  · cases l with
    | none => cases k
    | some l => cases k; exact hP _ (h _ (.inl rfl))
  · cases u with
    | none => cases k
    | some u => cases k; exact hP _ (h _ (.inr rfl))

/-! ### Qualifiers in texts -/

/-- No qualifier. -/
def NoQ (s : Str) : Prop := ∀ c ∈ s, isQ c = false

theorem noQ_unm {s : Str} (h : Unmarked s) : NoQ s := by
  intro c hc
  cases e : isQ c with
  | false => rfl
  | true =>
    unfold isQ at e
    simp only [Bool.or_eq_true, beq_iff_eq] at e
    rcases e with (rfl | rfl) | rfl <;> exact absurd hc (h _ (by decide))

theorem noQ_append {s t : Str} (h : NoQ s) (k : NoQ t) : NoQ (s ++ t) := fun c hc => (List.mem_append.1 hc).elim (h c) (k c)

theorem noQ_cons {x : Char} {t : Str} (h : isQ x = false) (k : NoQ t) : NoQ (x :: t) := by
  intro c hc
  rcases List.mem_cons.1 hc with rfl | hc
  · exact h
  · exact k c hc

/-- The kinds of doubt. -/
def Kind (p : Char → Bool) : Prop := p = saysUncertain ∨ p = saysApproximate

theorem kind_q {p : Char → Bool} (hp : Kind p) {c : Char} (h : p c = true) : isQ c = true := by
  rcases hp with rfl | rfl
  · unfold saysUncertain at h
    simp only [Bool.or_eq_true, beq_iff_eq] at h
    rcases h with rfl | rfl <;> decide
  · unfold saysApproximate at h
    simp only [Bool.or_eq_true, beq_iff_eq] at h
    rcases h with rfl | rfl <;> decide

theorem deco_kind {p : Char → Bool} (hp : Kind p) {q : Deco} {w : Str} (hw : NoQ w) : (∃ c ∈ q.text w, p c = true) ↔ (q.isLeft p || q.isRight p) = true := by
  have no : ∀ c ∈ w, p c = true → False := by
    intro c hc h
    have := kind_q hp h
    rw [hw c hc] at this
    cases this
  cases q with
  | none =>
    constructor
    · rintro ⟨c, hc, h⟩; exact (no c hc h).elim
    · intro h; cases h
  | left q =>
    constructor
    · rintro ⟨c, hc, h⟩
      rcases List.mem_cons.1 hc with rfl | hc
      · simp [Deco.isLeft, h]
      · exact (no c hc h).elim
    · intro h
      exact ⟨q, List.mem_cons_self, by simpa [Deco.isLeft, Deco.isRight] using h⟩
  | right q =>
    constructor
    · rintro ⟨c, hc, h⟩
      rcases List.mem_append.1 hc with hc | hc
      · exact (no c hc h).elim
      · simp only [List.mem_singleton] at hc
        subst hc
        simp [Deco.isRight, h]
    · intro h
      exact ⟨q, by simp [Deco.text], by simpa [Deco.isLeft, Deco.isRight] using h⟩

theorem marked_zero {p : Char → Bool} {qy qm qd : Deco} : marked p qy qm qd ≠ 0 ↔
    (qy.isLeft p || qy.isRight p) = true ∨ (qm.isLeft p || qm.isRight p) = true ∨ (qd.isLeft p || qd.isRight p) = true := by
  unfold marked
  generalize qy.isLeft p = a, qy.isRight p = b, qm.isLeft p = c, qm.isRight p = d, qd.isLeft p = e, qd.isRight p = g
  revert a b c d e g
  decide

theorem noQ_xd {w : Str} (h : ∀ c ∈ w, XDigit c) : NoQ w := by
  intro c hc
  rcases h c hc with rfl | ⟨k, hk, rfl⟩
  · decide
  · exact (by decide : ∀ k < 10, isQ (dig k) = false) k hk

/-- A date is marked exactly if such a qualifier is written. -/
theorem marked_iff {p : Char → Bool} (hp : Kind p) {e : Endpoint} (h : e.shape) : marked p e.qy e.qm e.qd ≠ 0 ↔ ∃ c ∈ e.text, p c = true := by
  rw [marked_zero]
  obtain ⟨⟨neg, y, t⟩, qy, qm, qd⟩ := e
  obtain ⟨⟨-, hy, ht⟩, -, -, -, hq⟩ := h
  have hY : NoQ (if neg then '-' :: y else y) := by
    cases neg
    · exact noQ_xd hy
    · exact noQ_cons (by decide) (noQ_xd hy)
  have dash : p '-' = true → False := fun h => by have := kind_q hp h; revert this; decide
  unfold Endpoint.text
  cases t with
  | none =>
    obtain ⟨rfl, rfl⟩ := hq
    simp only [List.append_nil, deco_kind hp hY]
    simp [Deco.isLeft, Deco.isRight]
  | month m =>
    cases hq
    have hM : NoQ m := noQ_xd ht.2
    simp only [List.mem_append, List.mem_cons]
    rw [← deco_kind hp hY, ← deco_kind hp hM]
    constructor
    · rintro (⟨c, h, k⟩ | ⟨c, h, k⟩ | h)
      · exact ⟨c, .inl h, k⟩
      · exact ⟨c, .inr (.inr h), k⟩
      · cases h
    · rintro ⟨c, h | rfl | h, k⟩
      · exact .inl ⟨c, h, k⟩
      · exact (dash k).elim
      · exact .inr (.inl ⟨c, h, k⟩)
  | day m d =>
    have hM : NoQ m := noQ_xd ht.2.1
    have hD : NoQ d := noQ_xd ht.2.2.2
    simp only [List.mem_append, List.mem_cons]
    rw [← deco_kind hp hY, ← deco_kind hp hM, ← deco_kind hp hD]
    constructor
    · rintro (⟨c, h, k⟩ | ⟨c, h, k⟩ | ⟨c, h, k⟩)
      · exact ⟨c, .inl h, k⟩
      · exact ⟨c, .inr (.inr (.inl h)), k⟩
      · exact ⟨c, .inr (.inr (.inr (.inr h))), k⟩
    · rintro ⟨c, h | rfl | h | rfl | h, k⟩
      · exact .inl ⟨c, h, k⟩
      · exact (dash k).elim
      · exact .inr (.inl ⟨c, h, k⟩)
      · exact (dash k).elim
      · exact .inr (.inr ⟨c, h, k⟩)

/-! ### Every text -/

theorem member_noQ {cs : List Chunk} (hc : ChunksOk cs) {t : Str} (h : t ∈ cs.flatMap Chunk.members) : NoQ t := by
  rcases member_run hc.1 h with rfl | ⟨r, -, rfl⟩
  · intro _ h; cases h
  · exact noQ_unm (unm_run r)

theorem clear_of {e : Endpoint} (h : e.shape) (hn : NoQ e.text) {R : DateRange} (hR : Both (Endpoint.flags e) R) : Both (DoubtsAre 0 0) R := by
  have z : ∀ {p : Char → Bool}, Kind p → marked p e.qy e.qm e.qd = 0 := by
    intro p hp
    by_cases hz : marked p e.qy e.qm e.qd = 0
    · exact hz
    · obtain ⟨c, hc, k⟩ := (marked_iff hp h).1 hz
      have := kind_q hp k
      rw [hn c hc] at this
      cases this
  intro b hb
  obtain ⟨k1, k2⟩ := hR b hb
  exact ⟨k1.trans (z (.inl rfl)), k2.trans (z (.inr rfl))⟩

theorem range_clear_of {t : Str} {R : DateRange} (h : RangeOf f t R) (hn : NoQ t) : Both (DoubtsAre 0 0) R := by
  rcases range_flags h with ⟨-, h⟩ | ⟨e, h1, h2, h3⟩
  · exact h
  · exact clear_of h1 (h2 ▸ hn) h3

/-- Sets have no qualifiers. -/
theorem set_clear {p : Prec} {cs : List Chunk} (hc : ChunksOk cs) {x y : Bool} {S E : DateRange} (h : SetSpan f p (cs.flatMap Chunk.members) x y S E) :
    Both (DoubtsAre 0 0) S ∧ Both (DoubtsAre 0 0) E := by
  have fl : ∀ {R : DateRange}, Both (DoubtsAre 0 0) R → Both (DoubtsAre 0 0) (flagged p R) := fun h => flagged_flags (fun _ k => k) h
  have op : ∀ t, Both (DoubtsAre 0 0) (openRange t) := fun t => both_mk ⟨rfl, rfl⟩ ⟨rfl, rfl⟩
  have mix : ∀ {R S : DateRange} {t : Str}, Both (DoubtsAre 0 0) R → Both (DoubtsAre 0 0) S → Both (DoubtsAre 0 0) ⟨t, R.lower, S.upper⟩ := by
    rintro R S t h1 h2 b (k | k)
    · exact h1 b (.inl k)
    · exact h2 b (.inr k)
  cases h with
  | one t h S E hs =>
    obtain ⟨e, h1, h2, h3, h4⟩ := span_flags hs
    have hn : NoQ e.text := h2 ▸ member_noQ hc h.1
    exact ⟨fl (clear_of h1 hn h3), fl (clear_of h1 hn h4)⟩
  | closed a b h hab R S hR hS => exact ⟨fl (range_clear_of hR (member_noQ hc h.1)), fl (range_clear_of hS (member_noQ hc h.2.1))⟩
  | upTo1 t h R hR => exact ⟨op _, fl (range_clear_of hR (member_noQ hc (by rw [h]; simp)))⟩
  | onFrom1 t h R hR => exact ⟨fl (range_clear_of hR (member_noQ hc (by rw [h]; simp))), op _⟩
  | upTo a b h h2 R S hR hS => exact ⟨op _, fl (mix (range_clear_of hR (member_noQ hc h.1)) (range_clear_of hS (member_noQ hc h.2.1)))⟩
  | onFrom a b h h2 R S hR hS => exact ⟨fl (mix (range_clear_of hR (member_noQ hc h.1)) (range_clear_of hS (member_noQ hc h.2.1))), op _⟩
  | both a b h h2 R S hR hS =>
    have := mix (t := []) (op (c! "")) (range_clear_of hS (member_noQ hc h.2.1))
    exact ⟨this, this⟩

theorem clock_unm (neg : Bool) (y m d hh mi ss : Nat) (z : Zone) : Unmarked (clockText neg y m d hh mi ss z) := by
  have hzz : Unmarked z.text := by
    cases z with
    | none => exact unm_nil
    | utc => exact unm_cons (by decide) unm_nil
    | hours b a => exact unm_cons (by cases b <;> decide) (unm_pad a).2
    | full b a c => exact unm_cons (by cases b <;> decide) (unm_append (unm_pad a).2 (unm_cons (by decide) (unm_pad c).2))
  have one : ∀ {x : Char}, x ∉ c! "X?~%" → Unmarked [x] := fun h => unm_cons h unm_nil
  unfold clockText hmsText
  refine unm_append ?_ ?_
  · cases neg
    · exact unm_nil
    · exact one (by decide)
  · have p2 := fun n => (unm_pad n).2
    exact unm_append (unm_append (unm_append (unm_append (unm_append (unm_append (unm_append (unm_pad y).1 (one (by decide))) (p2 m)) (one (by decide))) (p2 d))
      (one (by decide))) (unm_append (unm_append (unm_append (unm_append (p2 hh) (one (by decide))) (p2 mi)) (one (by decide))) (p2 ss))) hzz

/-- Such a qualifier at the end of a month or a day. -/
def LateQ (s : Str) : Prop := ∃ q ∈ c! "?~%", MonthAnd [q] s

theorem late_slash {s : Str} (h : LateQ s) : '/' ∉ s := by
  obtain ⟨q, hq, neg, n, m, -, -, -, h⟩ := h
  have hq : '/' ≠ q := by rintro rfl; revert hq; decide
  have p2 : ∀ n, '/' ∉ pad2 n := fun n h => by
    have := List.all_eq_true.1 (pad2_all n) _ h
    revert this; decide
  have p4 : '/' ∉ signed neg (pad4 n) := by
    have : '/' ∉ pad4 n := fun h => by
      have := List.all_eq_true.1 (pad4_all n) _ h
      revert this; decide
    cases neg
    · exact this
    · exact fun h => by
        rcases List.mem_cons.1 h with h | h
        · revert h; decide
        · exact this h
  rcases h with rfl | ⟨k, -, -, rfl⟩ <;> simp [hq, p2, p4]

/-- Only the season parser takes them. -/
theorem late_feature {s : Str} {d : EDTFDate} (hf : DayCount f) (hd : Denotes f s d) (h : LateQ s) (hn : s.head? ≠ some '-') : d.feature = c! "Seasons" := by
  obtain ⟨q, hq, neg, n, m, h0, h1, h2, h⟩ := h
  have : neg = false := by
    cases neg with
    | false => rfl
    | true => exfalso; rcases h with rfl | ⟨k, -, -, rfl⟩ <;> exact hn rfl
  subst this
  have hy : SeasonYear (n : Int) := .inl (by omega)
  rcases h with rfl | ⟨k, k1, k2, rfl⟩
  · rw [C55_unique hf hd (.month false n m h0 h1 h2 n rfl hy _ (.qualifier _ q hq))]
    rfl
  · rw [C55_unique hf hd (.month false n m h0 h1 h2 n rfl hy _ (.dayQualifier _ k k1 k2 q hq))]
    rfl

theorem epos_head {e : Endpoint} (h : e.shape) (hn : e.date.neg = false) : e.text.head? ≠ some '-' := by
  obtain ⟨⟨neg, y, t⟩, qy, qm, qd⟩ := e
  cases hn
  obtain ⟨⟨hl, hy, -⟩, hq, -⟩ := h
  obtain ⟨c, w, rfl⟩ : ∃ c w, y = c :: w := by
    cases y with
    | nil => cases hl
    | cons c w => exact ⟨c, w, rfl⟩
  have hc : c ≠ '-' := by
    rcases hy c List.mem_cons_self with rfl | ⟨k, hk, rfl⟩
    · decide
    · exact (by decide : ∀ k < 10, dig k ≠ '-') k hk
  unfold Endpoint.text
  cases qy with
  | none => simpa [Deco.text] using hc
  | left q =>
    have : q ≠ '-' := by
      have hq : (q == '?' || q == '~' || q == '%') = true := hq
      simp only [Bool.or_eq_true, beq_iff_eq] at hq
      rcases hq with (rfl | rfl) | rfl <;> decide
    simpa [Deco.text] using this
  | right q => simpa [Deco.text] using hc

/-- All boundaries without doubt. -/
def Clear (d : EDTFDate) : Prop := ∀ b, BoundaryOf d b → DoubtsAre 0 0 b

/-- The qualifiers of every text and of its result. -/
theorem denotes_marks (hf : DayCount f) {s : Str} {d : EDTFDate} (hd : Denotes f s d) :
    (Clear d ∧ (NoQ s ∨ LateQ s)) ∨
    ('/' ∉ s ∧ ¬ LateQ s ∧ ∃ e : Endpoint, e.shape ∧ e.text = s ∧ ∀ b, BoundaryOf d b → Endpoint.flags e b) ∨
    (∃ (a b : Endpoint) (R S : DateRange), s = a.text ++ '/' :: b.text ∧ a.shape ∧ b.shape ∧ d.start = some R ∧ d.stop = some S ∧
      Both (Endpoint.flags a) R ∧ Both (Endpoint.flags b) S) := by
  have hk := hd
  have clear : ∀ {d : EDTFDate} {S E : DateRange}, d.start = some S → d.stop = some E → Both (DoubtsAre 0 0) S → Both (DoubtsAre 0 0) E → Clear d :=
    fun h1 h2 h3 h4 b hb => both_boundary h1 h2 h3 h4 hb
  have pad : ∀ n, NoQ (pad4 n) ∧ NoQ (pad2 n) := fun n => ⟨noQ_unm (unm_pad n).1, noQ_unm (unm_pad n).2⟩
  have sg : ∀ b {t}, NoQ t → NoQ (signed b t) := by
    intro b t h
    cases b
    · exact h
    · exact noQ_cons (by decide) h
  have date : ∀ x : Date0, NoQ x.text := fun x => noQ_unm (unm_date x)
  have digs : ∀ {ds : List Nat}, Digits ds → NoQ (ds.map dig) := fun h => noQ_unm (unm_map h)
  have nil : NoQ [] := fun _ h => by cases h
  cases hd with
  | unknown => exact .inl ⟨clear rfl rfl (both_mk ⟨rfl, rfl⟩ ⟨rfl, rfl⟩) (both_mk ⟨rfl, rfl⟩ ⟨rfl, rfl⟩), .inl nil⟩
  | opened => exact .inl ⟨clear rfl rfl (both_mk ⟨rfl, rfl⟩ ⟨rfl, rfl⟩) (both_mk ⟨rfl, rfl⟩ ⟨rfl, rfl⟩), .inl (noQ_unm (unm_dots (.inr rfl)))⟩
  | date x h =>
    refine .inl ⟨clear rfl rfl (both_mk ⟨rfl, rfl⟩ ?_) (both_mk ?_ ⟨rfl, rfl⟩), .inl (date x)⟩
    · split <;> exact ⟨rfl, rfl⟩
    · split <;> exact ⟨rfl, rfl⟩
  | time neg y m d hh mi ss z hy V k1 k2 k3 hz y' m' d' hh' mi' ss' V' k1' k2' k3' e =>
    refine .inl ⟨clear rfl rfl (both_mk ⟨rfl, rfl⟩ ⟨rfl, rfl⟩) (both_mk ⟨rfl, rfl⟩ ⟨rfl, rfl⟩), .inl ?_⟩
    exact noQ_unm (clock_unm _ _ _ _ _ _ _ _)
  | interval a b ha hb ra rb R S hR hS =>
    right; right
    rcases range_flags hR with ⟨h, -⟩ | ⟨a', h1, h2, h3⟩
    · exact absurd h (e_nonempty ha)
    rcases range_flags hS with ⟨h, -⟩ | ⟨b', g1, g2, g3⟩
    · exact absurd h (e_nonempty hb)
    exact ⟨a', b', R, S, by rw [h2, g2], h1, g1, rfl, rfl, h3, g3⟩
  | startless l hl x h =>
    refine .inl ⟨clear rfl rfl ?_ (range_clear _ _ _), .inl ?_⟩
    · rcases hl with rfl | rfl <;> exact both_mk ⟨rfl, rfl⟩ ⟨rfl, rfl⟩
    · refine noQ_append ?_ (noQ_cons (by decide) (date x))
      rcases hl with rfl | rfl
      · exact noQ_unm (unm_dots (.inr rfl))
      · exact nil
  | endless neg n h r hr =>
    refine .inl ⟨clear rfl rfl (range_clear _ _ _) ?_, .inl ?_⟩
    · rcases hr with rfl | rfl <;> exact both_mk ⟨rfl, rfl⟩ ⟨rfl, rfl⟩
    · refine noQ_append (date _) (noQ_cons (by decide) ?_)
      rcases hr with rfl | rfl
      · exact noQ_unm (unm_dots (.inr rfl))
      · exact nil
  | qualifiedYear neg n h q hq =>
    right; left
    have ht : (⟨neg, n, .none⟩ : Date0).text = signed neg (pad4 n) := by cases neg <;> rfl
    refine ⟨?_, ?_, ⟨⟨neg, pad4 n, .none⟩, .right q, .none, .none⟩, ?_, ?_, ?_⟩
    · have : '/' ≠ q := by rintro rfl; revert hq; decide
      intro k
      rcases List.mem_append.1 k with k | k
      · exact date0_not_mem _ (by decide) (by decide) k
      · exact this (List.mem_singleton.1 k)
    · rintro ⟨q', -, neg', n', m', -, -, -, k⟩
      rcases k with k | ⟨j, -, -, k⟩ <;>
      · have := congrArg List.length k
        cases neg <;> cases neg' <;> simp [ht, signed] at this
    · exact ⟨⟨pad4_length n, fun c hc => .inr ((isDig_iff c).1 (List.all_eq_true.1 (pad4_all n) c hc)), trivial⟩, (by decide : ∀ q ∈ c! "?~%", (Deco.right q).ok = true) q hq, rfl, rfl, rfl, rfl⟩
    · rw [ht]; cases neg <;> rfl
    · have e : ∀ q ∈ c! "?~%", (if saysUncertain q then Prec.YEAR else 0) = marked saysUncertain (.right q) .none .none ∧
          (if saysApproximate q then Prec.YEAR else 0) = marked saysApproximate (.right q) .none .none := by decide
      intro b hb
      refine both_boundary rfl rfl (both_mk ?_ ?_) (both_mk ?_ ?_) hb <;> exact e q hq
  | group e h hn hX hl he S E hs =>
    obtain ⟨e', h1, h2, h3, h4⟩ := span_flags hs
    refine .inr (.inl ⟨e_not_mem h (by decide) (by decide) (by decide), fun k => ?_, e', h1, h2, fun b hb => both_boundary rfl rfl h3 h4 hb⟩)
    exact absurd (show c! "Qualification (Group)" = c! "Seasons" from late_feature hf hk k (epos_head h hn)) (by decide)
  | individual e h hn hX hr hl S E hs =>
    obtain ⟨e', h1, h2, h3, h4⟩ := span_flags hs
    refine .inr (.inl ⟨e_not_mem h (by decide) (by decide) (by decide), fun k => ?_, e', h1, h2, fun b hb => both_boundary rfl rfl h3 h4 hb⟩)
    exact absurd (show c! "Qualification (Individual)" = c! "Seasons" from late_feature hf hk k (epos_head h hn)) (by decide)
  | unspecified x h hn hX S E hs =>
    left
    obtain ⟨e', h1, h2, h3, h4⟩ := span_flags hs
    have nq : NoQ x.text := fun c hc => xtext_no_qual h hc
    have z : ∀ {p : Char → Bool}, Kind p → marked p e'.qy e'.qm e'.qd = 0 := by
      intro p hp
      by_cases hz : marked p e'.qy e'.qm e'.qd = 0
      · exact hz
      · obtain ⟨c, hc, k⟩ := (marked_iff hp h1).1 hz
        rw [h2] at hc
        have := kind_q hp k
        rw [nq c hc] at this
        cases this
    refine ⟨fun b hb => ?_, .inl nq⟩
    obtain ⟨k1, k2⟩ := both_boundary rfl rfl h3 h4 hb
    exact ⟨k1.trans (z (.inl rfl)), k2.trans (z (.inr rfl))⟩
  | month neg n m hn h1 h2 y hv hy t ht =>
    refine .inl ⟨clear rfl rfl (range_clear _ _ _) (range_clear _ _ _), ?_⟩
    cases ht with
    | qualifier _ q hq => exact .inr ⟨q, hq, neg, n, m, hn, h1, h2, .inl rfl⟩
    | dayQualifier _ k k1 k2 q hq => exact .inr ⟨q, hq, neg, n, m, hn, h1, h2, .inr ⟨k, k1, k2, rfl⟩⟩
    | ended _ t ht => exact .inl (noQ_append (sg _ (pad n).1) (noQ_cons (by decide) (noQ_append (pad m).2 (noQ_cons (by decide) (noQ_unm (unm_dots ht))))))
    | dayEnded _ k k1 k2 t ht =>
      exact .inl (noQ_append (sg _ (pad n).1) (noQ_cons (by decide) (noQ_append (pad m).2 (noQ_cons (by decide) (noQ_append (pad k).2 (noQ_cons (by decide) (noQ_unm (unm_dots ht))))))))
    | loose a b h =>
      have : isQ a = false ∧ isQ b = false := by
        have t1 : ∀ c ∈ c! "0123Xx", isQ c = false := by decide
        have t2 : ∀ c ∈ c! "0123456789Xx", isQ c = false := by decide
        obtain ⟨h, -⟩ := h
        rcases h with ⟨h1, h2⟩ | ⟨h1, h2⟩
        · exact ⟨t1 _ ((by decide : ∀ c ∈ c! "012Xx", c ∈ c! "0123Xx") _ h1), t2 _ ((by decide : ∀ c ∈ c! "123456789Xx", c ∈ c! "0123456789Xx") _ h2)⟩
        · exact ⟨t1 _ ((by decide : ∀ c ∈ c! "3Xx", c ∈ c! "0123Xx") _ h1), t2 _ ((by decide : ∀ c ∈ c! "01Xx", c ∈ c! "0123456789Xx") _ h2)⟩
      exact .inl (noQ_append (pad n).1 (noQ_cons (by decide) (noQ_append (pad m).2 (noQ_cons (by decide) (noQ_cons this.1 (noQ_cons this.2 nil))))))
  | season neg n hn z y hv hy hz => exact .inl ⟨clear rfl rfl (range_clear _ _ _) (range_clear _ _ _), .inl (noQ_append (sg _ (pad n).1) (noQ_cons (by decide) (pad _).2))⟩
  | seasonName z w t1 t2 n hw h1 h2 hn hz =>
    exact .inl ⟨clear rfl rfl (range_clear _ _ _) (range_clear _ _ _), .inl (noQ_unm (unm_named ⟨z, w, t1, t2, n, hw, h1, h2, rfl⟩))⟩
  | letter neg n h =>
    exact .inl ⟨clear rfl rfl (both_mk ⟨rfl, rfl⟩ ⟨rfl, rfl⟩) (both_mk ⟨rfl, rfl⟩ ⟨rfl, rfl⟩), .inl (noQ_cons (by decide) (date _))⟩
  | exponential yc ec hy he neg ms es hm hes b n h1 h2 hv =>
    refine .inl ⟨clear rfl rfl (both_mk ⟨rfl, rfl⟩ ⟨rfl, rfl⟩) (both_mk ⟨rfl, rfl⟩ ⟨rfl, rfl⟩), .inl ?_⟩
    exact noQ_cons ((by decide : ∀ c ∈ c! "Yy", isQ c = false) _ hy) (sg _ (noQ_append (digs hm) (noQ_cons ((by decide : ∀ c ∈ c! "Ee", isQ c = false) _ he) (digs hes))))
  | significant t v h ds hd a b hk =>
    refine .inl ⟨clear rfl rfl (range_clear _ _ _) (range_clear _ _ _), .inl (noQ_append ?_ (noQ_cons (by decide) (digs hd)))⟩
    cases h with
    | date neg n h => exact sg _ (pad n).1
    | letter neg us hu hl => exact noQ_cons (by decide) (sg _ (digs hu))
    | exponential yc ec hy he neg ms es hm hes v hv =>
      exact noQ_cons ((by decide : ∀ c ∈ c! "Yy", isQ c = false) _ hy) (sg _ (noQ_append (digs hm) (noQ_cons ((by decide : ∀ c ∈ c! "Ee", isQ c = false) _ he) (digs hes))))
  | grouping n hn g hg => exact .inl ⟨clear rfl rfl (range_clear _ _ _) (range_clear _ _ _), .inl (noQ_append (pad n).1 (noQ_cons (by decide) (pad _).2))⟩
  | set o c hb cs hc S E hm =>
    have br : isQ o = false ∧ isQ c = false := by
      obtain ⟨rfl | rfl, rfl | rfl⟩ := hb <;> decide
    have sc := set_clear hc hm
    exact .inl ⟨clear rfl rfl sc.1 sc.2, .inl (noQ_cons br.1 (noQ_append (noQ_unm (unm_join cs)) (noQ_cons br.2 nil)))⟩

/-! ### Doubt -/

/-- The property at a place of the result. -/
theorem has_of {s : Str} {d : EDTFDate} {P : Date → Prop} (h : parseString s = .ok d) {r : DateRange} (hr : d.start = some r ∨ d.stop = some r) {b : Date}
    (hb : r.lower = some b ∨ r.upper = some b) (k : P b) : HasEnd s P := ⟨d, b, h, ⟨r, hr, hb⟩, k⟩

theorem has_marks {p : Char → Bool} (hp : Kind p) {g : Date → Prec} (h0 : ∀ b, DoubtsAre 0 0 b → g b = 0)
    (h1 : ∀ (e : Endpoint) (b : Date), Endpoint.flags e b → g b = marked p e.qy e.qm e.qd) (s : Str) :
    HasEnd s (fun b => g b ≠ 0) ↔ (∃ d, parseString s = .ok d) ∧ (∃ c ∈ s, p c = true) ∧ ¬ LateQ s := by
  have hf := dayCount_unixDay
  have key : ∀ {e : Endpoint} {b : Date}, e.shape → Endpoint.flags e b → (g b ≠ 0 ↔ ∃ c ∈ e.text, p c = true) := by
    intro e b h k
    rw [h1 e b k, marked_iff hp h]
  have slash : p '/' ≠ true := fun h => by have := kind_q hp h; revert this; decide
  constructor
  · rintro ⟨d, b, hd, hb, k⟩
    refine ⟨⟨d, hd⟩, ?_⟩
    rcases denotes_marks hf ((C55_denotes hf s d).1 hd) with ⟨h, -⟩ | ⟨-, hl, e, he, rfl, h⟩ | ⟨a, b', R, S, rfl, ha, hb', eR, eS, hR, hS⟩
    · exact absurd (h0 b (h b hb)) k
    · exact ⟨(key he (h b hb)).1 k, hl⟩
    · refine ⟨?_, fun h => late_slash h (by simp)⟩
      obtain ⟨r, hr, hb⟩ := hb
      rw [eR, eS] at hr
      rcases hr with hr | hr
      · cases hr
        obtain ⟨c, hc, k⟩ := (key ha (hR b hb)).1 k
        exact ⟨c, by simp [hc], k⟩
      · cases hr
        obtain ⟨c, hc, k⟩ := (key hb' (hS b hb)).1 k
        exact ⟨c, by simp [hc], k⟩
  · rintro ⟨⟨d, hd⟩, ⟨c, hc, k⟩, hl⟩
    obtain ⟨es, ee, sl, su, el, eu, e1, e2, -⟩ := C31_wellformed hf hd
    rcases denotes_marks hf ((C55_denotes hf s d).1 hd) with ⟨-, h | h⟩ | ⟨-, -, e, he, rfl, h⟩ | ⟨a, b', R, S, rfl, ha, hb', eR, eS, hR, hS⟩
    · have := kind_q hp k
      rw [h c hc] at this
      cases this
    · exact absurd h hl
    · exact has_of hd (.inl e1) (.inl rfl) ((key he (h sl ⟨_, .inl e1, .inl rfl⟩)).2 ⟨c, hc, k⟩)
    · rw [e1] at eR; rw [e2] at eS
      cases eR; cases eS
      rcases List.mem_append.1 hc with hc | hc
      · exact has_of hd (.inl e1) (.inl rfl) ((key ha (hR sl (.inl rfl))).2 ⟨c, hc, k⟩)
      · rcases List.mem_cons.1 hc with rfl | hc
        · exact absurd k slash
        · exact has_of hd (.inr e2) (.inl rfl) ((key hb' (hS el (.inl rfl))).2 ⟨c, hc, k⟩)

/-- **C101.** A result is uncertain somewhere exactly if the text has a question mark or a percent sign,
and it is not the one at the end of a month or a day. -/
theorem C101_uncertain (s : Str) : HasEnd s (fun b => b.uncertain ≠ 0) ↔
    (∃ d, parseString s = .ok d) ∧ ('?' ∈ s ∨ '%' ∈ s) ∧ ¬ ∃ q ∈ c! "?~%", MonthAnd [q] s := by
  rw [has_marks (g := Date.uncertain) (.inl rfl) (fun _ h => h.1) (fun _ _ h => h.1) s]
  have : (∃ c ∈ s, saysUncertain c = true) ↔ ('?' ∈ s ∨ '%' ∈ s) := by
    unfold saysUncertain
    constructor
    · rintro ⟨c, hc, h⟩
      simp only [Bool.or_eq_true, beq_iff_eq] at h
      rcases h with rfl | rfl
      · exact .inl hc
      · exact .inr hc
    · rintro (h | h)
      · exact ⟨_, h, by decide⟩
      · exact ⟨_, h, by decide⟩
  rw [this]
  exact Iff.rfl

/-- The doubt in a year is kept, also in an interval; the doubt in a month is not. -/
example : HasEnd (c! "1984?") (fun b => b.uncertain ≠ 0) ∧ HasEnd (c! "1984/2004-%06") (fun b => b.uncertain ≠ 0) ∧ ¬ HasEnd (c! "2004-06?") (fun b => b.uncertain ≠ 0) ∧
    ∃ d, parseString (c! "2004-06?") = .ok d :=
  ⟨⟨_, _, rfl, ⟨_, .inl rfl, .inl rfl⟩, by decide⟩, ⟨_, _, rfl, ⟨_, .inr rfl, .inl rfl⟩, by decide⟩,
    fun h => ((C101_uncertain _).1 h).2.2 ⟨'?', by decide, false, 2004, 6, by decide, by decide, by decide, .inl rfl⟩, _, rfl⟩

/-- **C101.** A result is approximate somewhere exactly if the text has a tilde or a percent sign, and it is not
the one at the end of a month or a day. -/
theorem C101_approximate (s : Str) : HasEnd s (fun b => b.approximate ≠ 0) ↔
    (∃ d, parseString s = .ok d) ∧ ('~' ∈ s ∨ '%' ∈ s) ∧ ¬ ∃ q ∈ c! "?~%", MonthAnd [q] s := by
  rw [has_marks (g := Date.approximate) (.inr rfl) (fun _ h => h.2) (fun _ _ h => h.2) s]
  have : (∃ c ∈ s, saysApproximate c = true) ↔ ('~' ∈ s ∨ '%' ∈ s) := by
    unfold saysApproximate
    constructor
    · rintro ⟨c, hc, h⟩
      simp only [Bool.or_eq_true, beq_iff_eq] at h
      rcases h with rfl | rfl
      · exact .inl hc
      · exact .inr hc
    · rintro (h | h)
      · exact ⟨_, h, by decide⟩
      · exact ⟨_, h, by decide⟩
  rw [this]
  exact Iff.rfl

/-- A doubt of the other kind is not mixed up with it. -/
example : HasEnd (c! "2004~-06-11") (fun b => b.approximate ≠ 0) ∧ ¬ HasEnd (c! "2004?-06-11") (fun b => b.approximate ≠ 0) ∧ ∃ d, parseString (c! "2004?-06-11") = .ok d :=
  ⟨⟨_, _, rfl, ⟨_, .inl rfl, .inl rfl⟩, by decide⟩, fun h => absurd ((C101_approximate _).1 h).2.1 (by decide), _, rfl⟩

/-- **C101.** Outside intervals all boundaries have the same doubts, about the same components. -/
theorem C101_same {s : Str} {d : EDTFDate} (h : parseString s = .ok d) (hs : '/' ∉ s) {b b' : Date} (hb : BoundaryOf d b) (hb' : BoundaryOf d b') :
    b.uncertain = b'.uncertain ∧ b.approximate = b'.approximate := by
  have hf := dayCount_unixDay
  rcases denotes_marks hf ((C55_denotes hf s d).1 h) with ⟨h, -⟩ | ⟨-, -, e, -, -, h⟩ | ⟨a, b', R, S, rfl, -⟩
  · exact ⟨(h b hb).1.trans (h b' hb').1.symm, (h b hb).2.trans (h b' hb').2.symm⟩
  · exact ⟨(h b hb).1.trans (h b' hb').1.symm, (h b hb).2.trans (h b' hb').2.symm⟩
  · simp at hs

/-- An interval with doubt about its end alone. -/
example : ∃ d b b', parseString (c! "1984/2004-%06") = .ok d ∧ BoundaryOf d b ∧ BoundaryOf d b' ∧ b.uncertain ≠ b'.uncertain :=
  ⟨_, _, _, rfl, ⟨_, .inl rfl, .inl rfl⟩, ⟨_, .inr rfl, .inl rfl⟩, by decide⟩

theorem slash_sides {a b s t : Str} (ha : '/' ∉ a) (hb : '/' ∉ b) (h : s ++ '/' :: t = a ++ '/' :: b) : s = a ∧ t = b := by
  rcases List.append_eq_append_iff.1 h with ⟨w, h1, h2⟩ | ⟨w, h1, h2⟩
  · cases w with
    | nil => cases h2; exact ⟨by simpa using h1.symm, rfl⟩
    | cons x w => cases h2; exact absurd (by rw [h1]; simp) ha
  · cases w with
    | nil => cases h2; exact ⟨by simpa using h1, rfl⟩
    | cons x w => cases h2; exact absurd (by simp) hb

/-- **C101.** In an interval each side has its own doubts: a side is uncertain exactly if a question mark or a percent
sign is written in it, and approximate exactly if a tilde or a percent sign is. -/
theorem C101_sides {s t : Str} {d : EDTFDate} (h : parseString (s ++ '/' :: t) = .ok d) {b : Date} :
    (∀ r, d.start = some r → (r.lower = some b ∨ r.upper = some b) →
      (b.uncertain ≠ 0 ↔ ('?' ∈ s ∨ '%' ∈ s)) ∧ (b.approximate ≠ 0 ↔ ('~' ∈ s ∨ '%' ∈ s))) ∧
    (∀ r, d.stop = some r → (r.lower = some b ∨ r.upper = some b) →
      (b.uncertain ≠ 0 ↔ ('?' ∈ t ∨ '%' ∈ t)) ∧ (b.approximate ≠ 0 ↔ ('~' ∈ t ∨ '%' ∈ t))) := by
  have hf := dayCount_unixDay
  have no : ∀ {w : Str} {b : Date}, DoubtsAre 0 0 b → NoQ w →
      (b.uncertain ≠ 0 ↔ ('?' ∈ w ∨ '%' ∈ w)) ∧ (b.approximate ≠ 0 ↔ ('~' ∈ w ∨ '%' ∈ w)) := by
    intro w b h hw
    have k : ∀ c ∈ c! "?~%", c ∉ w := by
      intro c hc hm
      have := hw c hm
      rw [(by decide : ∀ c ∈ c! "?~%", isQ c = true) c hc] at this
      cases this
    simp [h.1, h.2, k '?' (by decide), k '~' (by decide), k '%' (by decide)]
  have yes : ∀ {e : Endpoint} {b : Date}, e.shape → Endpoint.flags e b →
      (b.uncertain ≠ 0 ↔ ('?' ∈ e.text ∨ '%' ∈ e.text)) ∧ (b.approximate ≠ 0 ↔ ('~' ∈ e.text ∨ '%' ∈ e.text)) := by
    intro e b he hb
    rw [hb.1, hb.2, marked_iff (.inl rfl) he, marked_iff (.inr rfl) he]
    unfold saysUncertain saysApproximate
    simp only [Bool.or_eq_true, beq_iff_eq]
    constructor
    · constructor
      · rintro ⟨c, hc, rfl | rfl⟩
        · exact .inl hc
        · exact .inr hc
      · rintro (h | h)
        · exact ⟨_, h, .inl rfl⟩
        · exact ⟨_, h, .inr rfl⟩
    · constructor
      · rintro ⟨c, hc, rfl | rfl⟩
        · exact .inl hc
        · exact .inr hc
      · rintro (h | h)
        · exact ⟨_, h, .inl rfl⟩
        · exact ⟨_, h, .inr rfl⟩
  rcases denotes_marks hf ((C55_denotes hf _ d).1 h) with ⟨h, hn | hl⟩ | ⟨hs, -⟩ | ⟨a, b', R, S, e, ha, hb', eR, eS, hR, hS⟩
  · refine ⟨fun r hr hb => no (h b ⟨r, .inl hr, hb⟩) fun c hc => hn c (by simp [hc]), fun r hr hb => no (h b ⟨r, .inr hr, hb⟩) fun c hc => hn c (by simp [hc])⟩
  · exact absurd (by simp) (late_slash hl)
  · exact absurd (by simp) hs
  · have sb : '/' ∉ b'.text := e_not_mem hb' (by decide) (by decide) (by decide)
    have sa : '/' ∉ a.text := e_not_mem ha (by decide) (by decide) (by decide)
    have : s = a.text ∧ t = b'.text := slash_sides sa sb e
    obtain ⟨rfl, rfl⟩ := this
    refine ⟨fun r hr hb => ?_, fun r hr hb => ?_⟩
    · rw [eR] at hr; cases hr
      exact yes ha (hR b hb)
    · rw [eS] at hr; cases hr
      exact yes hb' (hS b hb)

/-- An interval with different doubts at its ends. -/
example : ∃ d r b, parseString (c! "?1984" ++ '/' :: c! "~2004") = .ok d ∧ d.start = some r ∧ r.lower = some b ∧ b.uncertain ≠ 0 ∧ b.approximate = 0 :=
  ⟨_, _, _, rfl, rfl, rfl, by decide, rfl⟩

end EDTF
