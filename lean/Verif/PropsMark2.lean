/-
C101: open and unknown ends.
-/
import Verif.PropsMark
namespace EDTF
open Spec

variable {f : Int → Nat → Nat → Int}

/-! ### Texts without dots, opening brackets and slashes -/

def Fit (s : Str) : Prop := ∀ c ∈ s, c ∉ c! ".[{/"

theorem fit_nil : Fit [] := fun _ h => by cases h

theorem fit_append {s t : Str} (h : Fit s) (k : Fit t) : Fit (s ++ t) := fun c hc => (List.mem_append.1 hc).elim (h c) (k c)

theorem fit_cons {x : Char} {t : Str} (h : x ∉ c! ".[{/") (k : Fit t) : Fit (x :: t) := by
  intro c hc
  rcases List.mem_cons.1 hc with rfl | hc
  · exact h
  · exact k c hc

theorem fit_not {s : Str} (h : ∀ c ∈ c! ".[{/", c ∉ s) : Fit s := fun c hc k => h c k hc

theorem fit_dig {s : Str} (h : s.all isDig = true) : Fit s := fit_not fun c hc hm => by
  have := List.all_eq_true.1 h c hm
  rw [(by decide : ∀ c ∈ c! ".[{/", isDig c = false) c hc] at this
  cases this

theorem fit_pad4 (n : Nat) : Fit (pad4 n) := fit_dig (pad4_all n)

theorem fit_pad2 (n : Nat) : Fit (pad2 n) := fit_dig (pad2_all n)

theorem fit_signed (b : Bool) {t : Str} (h : Fit t) : Fit (signed b t) := by
  cases b
  · exact h
  · exact fit_cons (by decide) h

theorem fit_date (x : Date0) : Fit x.text := fit_not fun c hc =>
  have := (by decide : ∀ c ∈ c! ".[{/", isDig c = false ∧ c ≠ '-') c hc
  date0_not_mem x this.1 this.2

theorem fit_run (r : List Date0) : Fit (runText r) := fit_not fun c hc =>
  have := (by decide : ∀ c ∈ c! ".[{/", isDig c = false ∧ c ≠ '-') c hc
  runText_not_mem r this.1 this.2

theorem fit_e {e : Endpoint} (h : e.shape) : Fit e.text := fit_not fun c hc =>
  have := (by decide : ∀ c ∈ c! ".[{/", isDX c = false ∧ c ≠ '-' ∧ isQ c = false) c hc
  e_not_mem h this.1 this.2.1 this.2.2

theorem fit_digits {ds : List Nat} (h : Digits ds) : Fit (ds.map dig) := by
  intro c hc
  obtain ⟨k, hk, rfl⟩ := List.mem_map.1 hc
  exact (by decide : ∀ k < 10, dig k ∉ c! ".[{/") k (h.2 k hk)

theorem fit_named {z : Season} {w t1 t2 : Str} (n : Nat) (hw : Folded z.word w) (h1 : Blank t1) (h2 : Blank t2) : Fit (w ++ (t1 ++ ',' :: (t2 ++ pad4 n))) := by
  have hb : ∀ {t : Str}, Blank t → Fit t := fun hb => fit_not fun c hc hm => by
    have := hb _ hm
    revert this
    exact (by decide : ∀ c ∈ c! ".[{/", ¬ (c = ' ' ∨ c = '\t' ∨ c = '\n' ∨ c = '\x0c' ∨ c = '\r')) c hc
  refine fit_append (fit_not fun c hc => folded_not hw ((by decide : ∀ c ∈ c! ".[{/", c ≠ 'ſ') c hc) ?_)
    (fit_append (hb h1) (fit_cons (by decide) (fit_append (hb h2) (fit_pad4 n))))
  revert c
  cases z <;> decide

theorem fit_clock (neg : Bool) (y m d hh mi ss : Nat) (z : Zone) : Fit (clockText neg y m d hh mi ss z) := by
  have hzz : Fit z.text := by
    cases z with
    | none => exact fit_nil
    | utc => exact fit_cons (by decide) fit_nil
    | hours b a => exact fit_cons (by cases b <;> decide) (fit_pad2 a)
    | full b a c => exact fit_cons (by cases b <;> decide) (fit_append (fit_pad2 a) (fit_cons (by decide) (fit_pad2 c)))
  have one : ∀ {x : Char}, x ∉ c! ".[{/" → Fit [x] := fun h => fit_cons h fit_nil
  unfold clockText hmsText
  refine fit_append ?_ ?_
  · cases neg
    · exact fit_nil
    · exact one (by decide)
  · exact fit_append (fit_append (fit_append (fit_append (fit_append (fit_append (fit_append (fit_pad4 y) (one (by decide))) (fit_pad2 m)) (one (by decide))) (fit_pad2 d))
      (one (by decide))) (fit_append (fit_append (fit_append (fit_append (fit_pad2 hh) (one (by decide))) (fit_pad2 mi)) (one (by decide))) (fit_pad2 ss))) hzz

/-! ### The ends of every text -/

/-- Neither open nor unknown. -/
def Shut (b : Date) : Prop := b.isOpen = false ∧ b.unknown = false

def ShutAll (d : EDTFDate) : Prop := ∀ b, BoundaryOf d b → Shut b

/-- The ends of a text and of its result. -/
inductive EndsOf (f : Int → Nat → Nat → Int) (s : Str) (d : EDTFDate) : Prop
  | fit (h : ShutAll d) (h0 : s ≠ []) (hs : Fit s)
  | pair (h : ShutAll d) (a b : Str) (ha : Fit a) (a0 : a ≠ []) (hb : Fit b) (b0 : b ≠ []) (e : s = a ++ '/' :: b)
  | month (h : ShutAll d) (hs : MonthAnd (c! "/..") s ∨ MonthAnd (c! "/") s)
  | unknown (e : s = []) (h : ∀ b, BoundaryOf d b → b = unknownEnd)
  | opened (e : s = c! "..") (h : ∀ b, BoundaryOf d b → b = openEnd)
  | startless (l : Side) (hl : l = .opened ∨ l = .unknown) (x : Date0) (e : s = l.text ++ '/' :: x.text) (E : DateRange) (h1 : d.start = some (l.range f))
      (h2 : d.stop = some E) (h3 : Both Shut E)
  | endless (neg : Bool) (n : Nat) (r : Side) (hr : r = .opened ∨ r = .unknown) (e : s = signed neg (pad4 n) ++ '/' :: r.text) (S : DateRange)
      (h1 : d.start = some S) (h2 : d.stop = some (r.range f)) (h3 : Both Shut S)
  | set (o c : Char) (hb : Brackets o c) (cs : List Chunk) (hc : ChunksOk cs) (S E : DateRange)
      (hm : SetSpan f (setFlag o) (cs.flatMap Chunk.members) (cs.any Chunk.opensStart) (cs.any Chunk.opensEnd) S E)
      (e : s = o :: (commaJoin (cs.map Chunk.text) ++ [c])) (h1 : d.start = some S) (h2 : d.stop = some E)

theorem span_shut {t : Str} {S E : DateRange} (h : SpanOf f t S E) : Both Shut S ∧ Both Shut E := by
  cases h with
  | date e h y1 m1 d1 y2 m2 d2 hr =>
    refine ⟨both_mk ⟨rfl, rfl⟩ ?_, both_mk ?_ ⟨rfl, rfl⟩⟩ <;> split <;> exact ⟨rfl, rfl⟩

theorem range_shut {t : Str} {R : DateRange} (h : RangeOf f t R) (ht : t ≠ []) : Both Shut R := by
  cases h with
  | absent => exact absurd rfl ht
  | date e h y1 m1 d1 y2 m2 d2 hr => exact both_mk ⟨rfl, rfl⟩ ⟨rfl, rfl⟩

theorem range_not_open {t : Str} {R : DateRange} (h : RangeOf f t R) : Both (fun b => b.isOpen = false) R := by
  cases h with
  | absent => exact both_mk rfl rfl
  | date e h y1 m1 d1 y2 m2 d2 hr => exact both_mk rfl rfl

theorem date_shut (x : Date0) (t : Str) (p : Prec) : Both Shut (x.range f t 0 0 p) := both_mk ⟨rfl, rfl⟩ ⟨rfl, rfl⟩

theorem denotes_ends {s : Str} {d : EDTFDate} (hd : Denotes f s d) : EndsOf f s d := by
  have shut : ∀ {d : EDTFDate} {S E : DateRange}, d.start = some S → d.stop = some E → Both Shut S → Both Shut E → ShutAll d :=
    fun h1 h2 h3 h4 b hb => both_boundary h1 h2 h3 h4 hb
  have span : ∀ {t : Str} {S E : DateRange}, SpanOf f t S E → t ≠ [] ∧ Fit t := by
    intro t S E h
    obtain ⟨e, h1, rfl, -⟩ := span_flags h
    exact ⟨e_nonempty h1, fit_e h1⟩
  have p4 : ∀ n (b : Bool), signed b (pad4 n) ≠ [] := by
    intro n b
    cases b <;> simp [signed, pad4]
  cases hd with
  | unknown =>
    refine .unknown rfl fun b hb => ?_
    exact both_boundary (P := fun b => b = unknownEnd) rfl rfl (both_mk rfl rfl) (both_mk rfl rfl) hb
  | opened =>
    refine .opened rfl fun b hb => ?_
    exact both_boundary (P := fun b => b = openEnd) rfl rfl (both_mk rfl rfl) (both_mk rfl rfl) hb
  | date x h =>
    refine .fit (shut rfl rfl (both_mk ⟨rfl, rfl⟩ ?_) (both_mk ?_ ⟨rfl, rfl⟩)) (date0_ne_nil x) (fit_date x)
    · split <;> exact ⟨rfl, rfl⟩
    · split <;> exact ⟨rfl, rfl⟩
  | time neg y m d hh mi ss z hy V k1 k2 k3 hz y' m' d' hh' mi' ss' V' k1' k2' k3' e =>
    refine .fit (shut rfl rfl (both_mk ⟨rfl, rfl⟩ ⟨rfl, rfl⟩) (both_mk ⟨rfl, rfl⟩ ⟨rfl, rfl⟩)) ?_ (fit_clock _ _ _ _ _ _ _ _)
    unfold clockText
    cases neg <;> simp [pad4]
  | interval a b ha hb ra rb R S hR hS =>
    exact .pair (shut rfl rfl (range_shut hR (e_nonempty ha)) (range_shut hS (e_nonempty hb))) a.text b.text (fit_e ha) (e_nonempty ha) (fit_e hb) (e_nonempty hb) rfl
  | startless l hl x h => exact .startless l hl x rfl _ rfl rfl (date_shut _ _ _)
  | endless neg n h r hr =>
    have ht : (⟨neg, n, .none⟩ : Date0).text = signed neg (pad4 n) := by cases neg <;> rfl
    exact .endless neg n r hr (by rw [ht]) _ rfl rfl (date_shut _ _ _)
  | qualifiedYear neg n h q hq =>
    refine .fit (shut rfl rfl (both_mk ⟨rfl, rfl⟩ ?_) (both_mk ?_ ⟨rfl, rfl⟩)) (by simp) (fit_append (fit_date _) (fit_cons ((by decide : ∀ q ∈ c! "?~%", q ∉ c! ".[{/") q hq) fit_nil))
    · exact ⟨rfl, rfl⟩
    · exact ⟨rfl, rfl⟩
  | group e h hn hX hl he S E hs => exact .fit (shut rfl rfl (span_shut hs).1 (span_shut hs).2) (span hs).1 (span hs).2
  | individual e h hn hX hr hl S E hs => exact .fit (shut rfl rfl (span_shut hs).1 (span_shut hs).2) (span hs).1 (span hs).2
  | unspecified x h hn hX S E hs => exact .fit (shut rfl rfl (span_shut hs).1 (span_shut hs).2) (span hs).1 (span hs).2
  | month neg n m hn h1 h2 y hv hy t ht =>
    have hs : ∀ {s : Str}, ShutAll (monthsResult f s 1 (c! "Seasons") y m y m) := shut rfl rfl (date_shut _ _ _) (date_shut _ _ _)
    have q0 := (by decide : ∀ q ∈ c! "?~%", q ∉ c! ".[{/")
    cases ht with
    | qualifier _ q hq =>
      exact .fit hs (by simp) (fit_append (fit_signed _ (fit_pad4 n)) (fit_cons (by decide) (fit_append (fit_pad2 m) (fit_cons (q0 q hq) fit_nil))))
    | dayQualifier _ k k1 k2 q hq =>
      exact .fit hs (by simp) (fit_append (fit_signed _ (fit_pad4 n)) (fit_cons (by decide) (fit_append (fit_pad2 m) (fit_cons (by decide) (fit_append (fit_pad2 k)
        (fit_cons (q0 q hq) fit_nil))))))
    | ended _ t ht =>
      refine .month hs ?_
      rcases ht with rfl | rfl
      · exact .inr ⟨neg, n, m, hn, h1, h2, .inl rfl⟩
      · exact .inl ⟨neg, n, m, hn, h1, h2, .inl rfl⟩
    | dayEnded _ k k1 k2 t ht =>
      refine .month hs ?_
      rcases ht with rfl | rfl
      · exact .inr ⟨neg, n, m, hn, h1, h2, .inr ⟨k, k1, k2, rfl⟩⟩
      · exact .inl ⟨neg, n, m, hn, h1, h2, .inr ⟨k, k1, k2, rfl⟩⟩
    | loose a b h =>
      have : a ∉ c! ".[{/" ∧ b ∉ c! ".[{/" := by
        obtain ⟨⟨h1, h2⟩ | ⟨h1, h2⟩, -⟩ := h
        · exact ⟨(by decide : ∀ c ∈ c! "012Xx", c ∉ c! ".[{/") _ h1, (by decide : ∀ c ∈ c! "123456789Xx", c ∉ c! ".[{/") _ h2⟩
        · exact ⟨(by decide : ∀ c ∈ c! "3Xx", c ∉ c! ".[{/") _ h1, (by decide : ∀ c ∈ c! "01Xx", c ∉ c! ".[{/") _ h2⟩
      exact .fit hs (by simp) (fit_append (fit_signed _ (fit_pad4 n)) (fit_cons (by decide) (fit_append (fit_pad2 m) (fit_cons (by decide) (fit_cons this.1 (fit_cons this.2 fit_nil))))))
  | season neg n hn z y hv hy hz =>
    exact .fit (shut rfl rfl (date_shut _ _ _) (date_shut _ _ _)) (by simp) (fit_append (fit_signed _ (fit_pad4 n)) (fit_cons (by decide) (fit_pad2 _)))
  | seasonName z w t1 t2 n hw h1 h2 hn hz => exact .fit (shut rfl rfl (date_shut _ _ _) (date_shut _ _ _)) (by simp) (fit_named n hw h1 h2)
  | letter neg n h =>
    exact .fit (shut rfl rfl (both_mk ⟨rfl, rfl⟩ ⟨rfl, rfl⟩) (both_mk ⟨rfl, rfl⟩ ⟨rfl, rfl⟩)) (by simp) (fit_cons (by decide) (fit_date _))
  | exponential yc ec hy he neg ms es hm hes b n h1 h2 hv =>
    refine .fit (shut rfl rfl (both_mk ⟨rfl, rfl⟩ ⟨rfl, rfl⟩) (both_mk ⟨rfl, rfl⟩ ⟨rfl, rfl⟩)) (by simp) ?_
    exact fit_cons ((by decide : ∀ c ∈ c! "Yy", c ∉ c! ".[{/") _ hy)
      (fit_signed _ (fit_append (fit_digits hm) (fit_cons ((by decide : ∀ c ∈ c! "Ee", c ∉ c! ".[{/") _ he) (fit_digits hes))))
  | significant t v h ds hd a b hk =>
    refine .fit (shut rfl rfl (date_shut _ _ _) (date_shut _ _ _)) (by simp) (fit_append ?_ (fit_cons (by decide) (fit_digits hd)))
    cases h with
    | date neg n h => exact fit_signed _ (fit_pad4 n)
    | letter neg us hu hl => exact fit_cons (by decide) (fit_signed _ (fit_digits hu))
    | exponential yc ec hy he neg ms es hm hes v hv =>
      exact fit_cons ((by decide : ∀ c ∈ c! "Yy", c ∉ c! ".[{/") _ hy)
        (fit_signed _ (fit_append (fit_digits hm) (fit_cons ((by decide : ∀ c ∈ c! "Ee", c ∉ c! ".[{/") _ he) (fit_digits hes))))
  | grouping n hn g hg => exact .fit (shut rfl rfl (date_shut _ _ _) (date_shut _ _ _)) (by simp) (fit_append (fit_pad4 n) (fit_cons (by decide) (fit_pad2 _)))
  | set o c hb cs hc S E hm => exact .set o c hb cs hc S E hm rfl rfl rfl

/-! ### Dots -/

theorem dots_char {s : Str} (h : DotsAtEnd s) : ∃ c ∈ s, c ∈ c! ".[{" := by
  rcases h with rfl | ⟨w, rfl⟩ | ⟨w, rfl⟩ | ⟨ps, ⟨o, c, hb, -, -, rfl⟩, -⟩
  · exact ⟨'.', by decide, by decide⟩
  · exact ⟨'.', by simp, by decide⟩
  · exact ⟨'.', by simp, by decide⟩
  · exact ⟨o, by simp, by obtain ⟨rfl | rfl, -⟩ := hb <;> decide⟩

theorem fit_dots {s : Str} (h : Fit s) : ¬ DotsAtEnd s := by
  intro k
  obtain ⟨c, hc, k⟩ := dots_char k
  exact h c hc ((by decide : ∀ c ∈ c! ".[{", c ∈ c! ".[{/") c k)

/-- No dots and opening brackets, but maybe slashes. -/
theorem slash_dots {a b : Str} (ha : Fit a) (hb : Fit b) : ¬ DotsAtEnd (a ++ '/' :: b) := by
  intro k
  obtain ⟨c, hc, k⟩ := dots_char k
  rcases List.mem_append.1 hc with hc | hc
  · exact ha c hc ((by decide : ∀ c ∈ c! ".[{", c ∈ c! ".[{/") c k)
  · rcases List.mem_cons.1 hc with rfl | hc
    · revert k; decide
    · exact hb c hc ((by decide : ∀ c ∈ c! ".[{", c ∈ c! ".[{/") c k)

theorem monthAnd_text {t s : Str} (h : MonthAnd t s) : ∃ w, w ≠ [] ∧ Fit w ∧ 7 ≤ w.length ∧ s = w ++ t := by
  obtain ⟨neg, n, m, -, -, -, rfl | ⟨k, -, -, rfl⟩⟩ := h
  · exact ⟨signed neg (pad4 n) ++ '-' :: pad2 m, by simp, fit_append (fit_signed _ (fit_pad4 n)) (fit_cons (by decide) (fit_pad2 m)), by cases neg <;> simp [signed], by simp⟩
  · exact ⟨signed neg (pad4 n) ++ '-' :: (pad2 m ++ '-' :: pad2 k), by simp, fit_append (fit_signed _ (fit_pad4 n)) (fit_cons (by decide) (fit_append (fit_pad2 m) (fit_cons (by decide) (fit_pad2 k)))),
      by cases neg <;> simp [signed], by simp⟩

theorem monthAnd_head {t s : Str} (h : MonthAnd t s) {c : Char} {w : Str} (e : s = c :: w) : c ∉ c! ".[{/" := by
  obtain ⟨u, h0, hu, -, rfl⟩ := monthAnd_text h
  cases u with
  | nil => exact absurd rfl h0
  | cons x u => cases e; exact hu _ List.mem_cons_self

/-- The chunks with dots at an end are the open ones. -/
theorem chunk_dots {k : Chunk} (hk : k.ok) : (c! ".." <+: k.text ∨ c! ".." <:+ k.text) ↔ (k.opensStart || k.opensEnd) = true := by
  have nd : ∀ r, '.' ∉ runText r := fun r => runText_not_mem r (by decide) (by decide)
  cases k with
  | run r =>
    have h : '.' ∉ (Chunk.run r).text := nd r
    constructor
    · rintro (⟨w, e⟩ | ⟨w, e⟩) <;> exact absurd (by rw [← e]; simp) h
    · intro h; cases h
  | pair a b =>
    constructor
    · rintro (⟨w, e⟩ | ⟨w, e⟩)
      · have e : runText a ++ (c! ".." ++ runText b) = c! ".." ++ w := e.symm
        cases h : runText a with
        | nil => exact absurd h (runText_ne_nil hk.1)
        | cons x t =>
          rw [h] at e
          injection e with e _
          exact absurd (by rw [h, e]; simp) (nd a)
      · have e : runText a ++ (c! ".." ++ runText b) = w ++ c! ".." := e.symm
        have e := congrArg List.getLast? e
        cases h : runText b with
        | nil => exact absurd h (runText_ne_nil hk.2)
        | cons x t =>
          rw [h] at e
          have : (x :: t).getLast? = some '.' := by simpa [List.getLast?_append] using e
          exact absurd (by rw [h]; exact List.mem_of_getLast? this) (nd b)
    · intro h; cases h
  | upTo r => exact ⟨fun _ => rfl, fun _ => .inl ⟨runText r, rfl⟩⟩
  | onFrom r => exact ⟨fun _ => rfl, fun _ => .inr ⟨runText r, rfl⟩⟩
  | blank =>
    constructor
    · rintro (⟨w, e⟩ | ⟨w, e⟩)
      · cases e
      · simp [Chunk.text] at e
    · intro h; cases h
  | dots => exact ⟨fun _ => rfl, fun _ => .inl ⟨[], rfl⟩⟩

theorem set_dots {o c : Char} (hb : Brackets o c) {cs : List Chunk} (hc : ChunksOk cs) :
    DotsAtEnd (o :: (commaJoin (cs.map Chunk.text) ++ [c])) ↔ (cs.any Chunk.opensStart = true ∨ cs.any Chunk.opensEnd = true) := by
  have key : (∃ k ∈ cs, (k.opensStart || k.opensEnd) = true) ↔ (cs.any Chunk.opensStart = true ∨ cs.any Chunk.opensEnd = true) := by
    simp only [List.any_eq_true, Bool.or_eq_true]
    constructor
    · rintro ⟨k, h, e | e⟩
      · exact .inl ⟨k, h, e⟩
      · exact .inr ⟨k, h, e⟩
    · rintro (⟨k, h, e⟩ | ⟨k, h, e⟩)
      · exact ⟨k, h, .inl e⟩
      · exact ⟨k, h, .inr e⟩
  have n0 : cs.map Chunk.text ≠ [] := by
    obtain ⟨-, ⟨k, hk, -⟩, -⟩ := hc
    cases cs with
    | nil => cases hk
    | cons => simp
  have nc : ∀ t ∈ cs.map Chunk.text, ',' ∉ t := by
    intro t ht
    obtain ⟨k, -, rfl⟩ := List.mem_map.1 ht
    exact chunk_comma k
  rw [← key]
  constructor
  · rintro (e | ⟨w, e⟩ | ⟨w, e⟩ | ⟨ps, ⟨o', c', -, p0, pc, e⟩, p, hp, h⟩)
    · injection e with e _
      obtain ⟨h, -⟩ := hb
      subst e
      exact absurd h (by decide)
    · injection e with e _
      obtain ⟨h, -⟩ := hb
      subst e
      exact absurd h (by decide)
    · have e := congrArg List.getLast? e
      have e : c = '.' := by simpa [List.getLast?_append, List.getLast?_cons] using e.symm
      obtain ⟨-, h⟩ := hb
      subst e
      exact absurd h (by decide)
    · injection e with _ e
      have e := (List.append_inj_left' e rfl)
      have e := commaJoin_inj nc pc n0 p0 e
      subst e
      obtain ⟨k, hk, rfl⟩ := List.mem_map.1 hp
      exact ⟨k, hk, (chunk_dots (hc.1 k hk)).1 h⟩
  · rintro ⟨k, hk, h⟩
    exact .inr (.inr (.inr ⟨_, ⟨o, c, hb, n0, nc, rfl⟩, k.text, List.mem_map_of_mem hk, (chunk_dots (hc.1 k hk)).2 h⟩))

theorem set_open {p : Prec} {ms : List Str} {x y : Bool} {S E : DateRange} (h : SetSpan f p ms x y S E) :
    ((x = true ∨ y = true) ∧ ∃ b r, (r = S ∨ r = E) ∧ r.lower = some b ∧ b.isOpen = true) ∨
    (¬ (x = true ∨ y = true) ∧ Both (fun b => b.isOpen = false) S ∧ Both (fun b => b.isOpen = false) E) := by
  have fl : ∀ {R : DateRange}, Both (fun b => b.isOpen = false) R → Both (fun b => b.isOpen = false) (flagged p R) := fun h => flagged_flags (fun _ k => k) h
  cases h with
  | one t h S E hs => exact .inr ⟨by decide, fl fun b hb => ((span_shut hs).1 b hb).1, fl fun b hb => ((span_shut hs).2 b hb).1⟩
  | closed a b h hab R S hR hS => exact .inr ⟨by decide, fl (range_not_open hR), fl (range_not_open hS)⟩
  | upTo1 t h R hR => exact .inl ⟨.inl rfl, _, _, .inl rfl, rfl, rfl⟩
  | onFrom1 t h R hR => exact .inl ⟨.inr rfl, _, _, .inr rfl, rfl, rfl⟩
  | upTo a b h h2 R S hR hS => exact .inl ⟨.inl rfl, _, _, .inl rfl, rfl, rfl⟩
  | onFrom a b h h2 R S hR hS => exact .inl ⟨.inr rfl, _, _, .inr rfl, rfl, rfl⟩
  | both a b h h2 R S hR hS => exact .inl ⟨.inl rfl, _, _, .inl rfl, rfl, rfl⟩

/-- The open ends of every text and of its result. -/
theorem ends_open {s : Str} {d : EDTFDate} (h : parseString s = .ok d) :
    ((∃ b, BoundaryOf d b ∧ b.isOpen = true) ∧ DotsAtEnd s ∧ ¬ MonthAnd (c! "/..") s) ∨
    ((∀ b, BoundaryOf d b → b.isOpen = false) ∧ (¬ DotsAtEnd s ∨ MonthAnd (c! "/..") s)) := by
  have hf := dayCount_unixDay
  cases denotes_ends ((C55_denotes hf s d).1 h) with
  | fit h h0 hs => exact .inr ⟨fun b hb => (h b hb).1, .inl (fit_dots hs)⟩
  | pair h a b ha a0 hb b0 e => exact .inr ⟨fun b hb => (h b hb).1, .inl (e ▸ slash_dots ha hb)⟩
  | month h hs =>
    refine .inr ⟨fun b hb => (h b hb).1, ?_⟩
    rcases hs with hs | hs
    · exact .inr hs
    · obtain ⟨w, -, hw, -, rfl⟩ := monthAnd_text hs
      exact .inl (slash_dots hw fit_nil)
  | unknown e h => exact .inr ⟨fun b hb => by rw [h b hb]; rfl, .inl (e ▸ fit_dots fit_nil)⟩
  | opened e h' =>
    obtain ⟨es, ee, sl, su, el, eu, e1, e2, -⟩ := C31_wellformed hf h
    refine .inl ⟨⟨sl, ⟨_, .inl e1, .inl rfl⟩, by rw [h' sl ⟨_, .inl e1, .inl rfl⟩]; rfl⟩, .inl e, fun k => ?_⟩
    exact monthAnd_head k e (by decide)
  | startless l hl x e E h1 h2 h3 =>
    rcases hl with rfl | rfl
    · exact .inl ⟨⟨openEnd, ⟨_, .inl h1, .inl rfl⟩, rfl⟩, .inr (.inl ⟨x.text, by rw [e]; rfl⟩), fun k => monthAnd_head k e (by decide)⟩
    · refine .inr ⟨fun b hb => both_boundary (P := fun b => b.isOpen = false) h1 h2 (both_mk rfl rfl) (fun b hb => (h3 b hb).1) hb, .inl ?_⟩
      rw [e]
      exact slash_dots fit_nil (fit_date x)
  | endless neg n r hr e S h1 h2 h3 =>
    rcases hr with rfl | rfl
    · refine .inl ⟨⟨openEnd, ⟨_, .inr h2, .inl rfl⟩, rfl⟩, .inr (.inr (.inl ⟨_, e.symm⟩)), fun k => ?_⟩
      obtain ⟨w, -, -, hl, e'⟩ := monthAnd_text k
      have := congrArg List.length (e.symm.trans e')
      cases neg <;> simp [signed, Side.text] at this <;> omega
    · refine .inr ⟨fun b hb => both_boundary (P := fun b => b.isOpen = false) h1 h2 (fun b hb => (h3 b hb).1) (both_mk rfl rfl) hb, .inl ?_⟩
      rw [e]
      exact slash_dots (fit_signed _ (fit_pad4 n)) fit_nil
  | set o c hb cs hc S E hm e h1 h2 =>
    rcases set_open hm with ⟨k, b, r, hr, hl, hb'⟩ | ⟨k, hS, hE⟩
    · refine .inl ⟨⟨b, ⟨r, ?_, .inl hl⟩, hb'⟩, e ▸ (set_dots hb hc).2 k, fun k => ?_⟩
      · rcases hr with rfl | rfl
        · exact .inl h1
        · exact .inr h2
      · refine monthAnd_head k e ?_
        obtain ⟨rfl | rfl, -⟩ := hb <;> decide
    · refine .inr ⟨fun b hb => both_boundary (P := fun b => b.isOpen = false) h1 h2 hS hE hb, .inl ?_⟩
      rw [e, set_dots hb hc]
      exact k

/-- **C101.** A result is open somewhere exactly if two dots are written at an end, and they do not follow a month or a day. -/
theorem C101_open (s : Str) : HasEnd s (fun b => b.isOpen = true) ↔ (∃ d, parseString s = .ok d) ∧ DotsAtEnd s ∧ ¬ MonthAnd (c! "/..") s := by
  constructor
  · rintro ⟨d, b, h, hb, k⟩
    rcases ends_open h with ⟨-, h'⟩ | ⟨h', -⟩
    · exact ⟨⟨d, h⟩, h'⟩
    · rw [h' b hb] at k; cases k
  · rintro ⟨⟨d, h⟩, h1, h2⟩
    rcases ends_open h with ⟨⟨b, hb, k⟩, -⟩ | ⟨-, k | k⟩
    · exact ⟨d, b, h, hb, k⟩
    · exact absurd h1 k
    · exact absurd k h2

/-- A year, a set and, not open, a month. -/
example : HasEnd (c! "1985/..") (fun b => b.isOpen = true) ∧ HasEnd (c! "[..1760-12-03]") (fun b => b.isOpen = true) ∧
    ¬ HasEnd (c! "1985-04/..") (fun b => b.isOpen = true) ∧ ¬ HasEnd (c! "{1960..1970}") (fun b => b.isOpen = true) ∧
    (∃ d, parseString (c! "1985-04/..") = .ok d) ∧ ∃ d, parseString (c! "{1960..1970}") = .ok d := by
  refine ⟨⟨_, _, rfl, ⟨_, .inr rfl, .inl rfl⟩, rfl⟩, ⟨_, _, rfl, ⟨_, .inl rfl, .inl rfl⟩, rfl⟩,
    fun h => ((C101_open _).1 h).2.2 ⟨false, 1985, 4, by decide, by decide, by decide, .inl rfl⟩, ?_, ⟨_, rfl⟩, _, rfl⟩
  rintro ⟨d, b, h, hb, k⟩
  cases h
  revert k
  exact both_boundary (P := fun b => ¬ b.isOpen = true) rfl rfl (both_mk (by decide) (by decide)) (both_mk (by decide) (by decide)) hb

/-! ### A missing side -/

theorem fit_slash {s : Str} (h0 : s ≠ []) (h : Fit s) : ¬ (s = [] ∨ c! "/" <+: s ∨ c! "/" <:+ s) := by
  rintro (e | ⟨w, rfl⟩ | ⟨w, rfl⟩)
  · exact h0 e
  · exact h '/' (by simp) (by decide)
  · exact h '/' (by simp) (by decide)

theorem pair_slash {a b : Str} (ha : Fit a) (a0 : a ≠ []) {x : Char} (hx : x ≠ '/') {b' : Str} (hb : b = b' ++ [x]) :
    ¬ (a ++ '/' :: b = [] ∨ c! "/" <+: a ++ '/' :: b ∨ c! "/" <:+ a ++ '/' :: b) := by
  subst hb
  rintro (e | ⟨w, e⟩ | ⟨w, e⟩)
  · simp at e
  · cases a with
    | nil => exact a0 rfl
    | cons y a =>
      injection e with e _
      exact ha y List.mem_cons_self (by rw [← e]; decide)
  · have e := congrArg List.getLast? e
    have e : '/' = x := by simpa [List.getLast?_append, List.getLast?_cons] using e
    exact hx e.symm

theorem fit_last {b : Str} (h : Fit b) (h0 : b ≠ []) : ∃ b' x, b = b' ++ [x] ∧ x ≠ '/' := by
  refine ⟨b.dropLast, b.getLast h0, (List.dropLast_concat_getLast h0).symm, fun e => ?_⟩
  exact h _ (List.getLast_mem h0) (by rw [e]; decide)

/-- The unknown ends of every text outside brackets and of its result. -/
theorem ends_unknown {s : Str} {d : EDTFDate} (h : parseString s = .ok d) (hs : s.head? ≠ some '[' ∧ s.head? ≠ some '{') :
    ((∃ b, BoundaryOf d b ∧ b.unknown = true) ∧ (s = [] ∨ c! "/" <+: s ∨ c! "/" <:+ s) ∧ ¬ MonthAnd (c! "/") s) ∨
    ((∀ b, BoundaryOf d b → b.unknown = false) ∧ (¬ (s = [] ∨ c! "/" <+: s ∨ c! "/" <:+ s) ∨ MonthAnd (c! "/") s)) := by
  have hf := dayCount_unixDay
  cases denotes_ends ((C55_denotes hf s d).1 h) with
  | fit h h0 hs => exact .inr ⟨fun b hb => (h b hb).2, .inl (fit_slash h0 hs)⟩
  | pair h a b ha a0 hb b0 e =>
    obtain ⟨b', x, eb, hx⟩ := fit_last hb b0
    exact .inr ⟨fun b hb => (h b hb).2, .inl (e ▸ pair_slash ha a0 hx eb)⟩
  | month h hs =>
    refine .inr ⟨fun b hb => (h b hb).2, ?_⟩
    rcases hs with hs | hs
    · obtain ⟨w, w0, hw, -, rfl⟩ := monthAnd_text hs
      exact .inl (pair_slash (b := c! "..") hw w0 (x := '.') (by decide) (b' := c! ".") rfl)
    · exact .inr hs
  | unknown e h' =>
    obtain ⟨es, ee, sl, su, el, eu, e1, e2, -⟩ := C31_wellformed hf h
    refine .inl ⟨⟨sl, ⟨_, .inl e1, .inl rfl⟩, by rw [h' sl ⟨_, .inl e1, .inl rfl⟩]; rfl⟩, .inl e, fun k => ?_⟩
    obtain ⟨w, w0, -, -, e'⟩ := monthAnd_text k
    simp [e] at e'
  | opened e h =>
    refine .inr ⟨fun b hb => by rw [h b hb]; rfl, .inl ?_⟩
    subst e
    rintro (e | ⟨w, e⟩ | ⟨w, e⟩)
    · cases e
    · injection e with e _
      exact absurd e (by decide)
    · have e := congrArg List.getLast? e
      simp at e
  | startless l hl x e E h1 h2 h3 =>
    obtain ⟨b', y, eb, hy⟩ := fit_last (fit_date x) (date0_ne_nil x)
    rcases hl with rfl | rfl
    · refine .inr ⟨fun b hb => both_boundary (P := fun b => b.unknown = false) h1 h2 (both_mk rfl rfl) (fun b hb => (h3 b hb).2) hb, .inl ?_⟩
      subst e
      rintro (e | ⟨w, e⟩ | ⟨w, e⟩)
      · cases e
      · injection e with e _
        exact absurd e (by decide)
      · rw [eb] at e
        have e := congrArg List.getLast? e
        have e : '/' = y := by simpa [List.getLast?_append, List.getLast?_cons, Side.text] using e
        exact hy e.symm
    · exact .inl ⟨⟨unknownEnd, ⟨_, .inl h1, .inl rfl⟩, rfl⟩, .inr (.inl ⟨x.text, by rw [e]; rfl⟩), fun k => monthAnd_head k e (by decide)⟩
  | endless neg n r hr e S h1 h2 h3 =>
    have y0 : signed neg (pad4 n) ≠ [] := by cases neg <;> simp [signed, pad4]
    rcases hr with rfl | rfl
    · refine .inr ⟨fun b hb => both_boundary (P := fun b => b.unknown = false) h1 h2 (fun b hb => (h3 b hb).2) (both_mk rfl rfl) hb, .inl ?_⟩
      subst e
      exact pair_slash (b := c! "..") (fit_signed _ (fit_pad4 n)) y0 (x := '.') (by decide) (b' := c! ".") rfl
    · refine .inl ⟨⟨unknownEnd, ⟨_, .inr h2, .inl rfl⟩, rfl⟩, .inr (.inr ⟨_, e.symm⟩), fun k => ?_⟩
      obtain ⟨w, -, -, hl, e'⟩ := monthAnd_text k
      have := congrArg List.length (e.symm.trans e')
      cases neg <;> simp [signed, Side.text] at this <;> omega
  | set o c hb cs hc S E hm e h1 h2 =>
    exfalso
    subst e
    obtain ⟨rfl | rfl, -⟩ := hb
    · exact hs.1 rfl
    · exact hs.2 rfl

/-- **C101.** Outside brackets, a result is unknown somewhere exactly if the text is empty or a side of an interval is missing,
and it is not the side after a month or a day. -/
theorem C101_unknown {s : Str} (hs : s.head? ≠ some '[' ∧ s.head? ≠ some '{') : HasEnd s (fun b => b.unknown = true) ↔
    (∃ d, parseString s = .ok d) ∧ (s = [] ∨ c! "/" <+: s ∨ c! "/" <:+ s) ∧ ¬ MonthAnd (c! "/") s := by
  constructor
  · rintro ⟨d, b, h, hb, k⟩
    rcases ends_unknown h hs with ⟨-, h'⟩ | ⟨h', -⟩
    · exact ⟨⟨d, h⟩, h'⟩
    · rw [h' b hb] at k; cases k
  · rintro ⟨⟨d, h⟩, h1, h2⟩
    rcases ends_unknown h hs with ⟨⟨b, hb, k⟩, -⟩ | ⟨-, k | k⟩
    · exact ⟨d, b, h, hb, k⟩
    · exact absurd h1 k
    · exact absurd k h2

/-- A year and, not unknown, a month. -/
example : HasEnd (c! "1985/") (fun b => b.unknown = true) ∧ HasEnd (c! "/1985-04-12") (fun b => b.unknown = true) ∧ ¬ HasEnd (c! "1985-04/") (fun b => b.unknown = true) ∧
    ∃ d, parseString (c! "1985-04/") = .ok d :=
  ⟨⟨_, _, rfl, ⟨_, .inr rfl, .inl rfl⟩, rfl⟩, ⟨_, _, rfl, ⟨_, .inl rfl, .inl rfl⟩, rfl⟩,
    fun h => ((C101_unknown (by decide)).1 h).2.2 ⟨false, 1985, 4, by decide, by decide, by decide, .inl rfl⟩, _, rfl⟩

/-! ### Brackets -/

/-- No choice and no inclusion. -/
def Single (b : Date) : Prop := b.inclusivity = 0

theorem range_single {t : Str} {R : DateRange} (h : RangeOf f t R) : Both Single R := by
  cases h with
  | absent => exact both_mk rfl rfl
  | date e h y1 m1 d1 y2 m2 d2 hr => exact both_mk rfl rfl

theorem span_single {t : Str} {S E : DateRange} (h : SpanOf f t S E) : Both Single S ∧ Both Single E := by
  cases h with
  | date e h y1 m1 d1 y2 m2 d2 hr =>
    refine ⟨both_mk rfl ?_, both_mk ?_ rfl⟩ <;> split <;> exact rfl

/-- Without brackets there is neither. -/
theorem denotes_single {s : Str} {d : EDTFDate} (hd : Denotes f s d) : (∀ b, BoundaryOf d b → Single b) ∨
    ∃ (o c : Char) (cs : List Chunk) (S E : DateRange), Brackets o c ∧ ChunksOk cs ∧
      SetSpan f (setFlag o) (cs.flatMap Chunk.members) (cs.any Chunk.opensStart) (cs.any Chunk.opensEnd) S E ∧
      s = o :: (commaJoin (cs.map Chunk.text) ++ [c]) ∧ d.start = some S ∧ d.stop = some E := by
  have one : ∀ {d : EDTFDate} {S E : DateRange}, d.start = some S → d.stop = some E → Both Single S → Both Single E → ∀ b, BoundaryOf d b → Single b :=
    fun h1 h2 h3 h4 b hb => both_boundary h1 h2 h3 h4 hb
  have dr : ∀ (x : Date0) (t : Str) (u a p : Prec), Both Single (x.range f t u a p) := fun x t u a p => both_mk rfl rfl
  cases hd with
  | unknown => exact .inl (one rfl rfl (both_mk rfl rfl) (both_mk rfl rfl))
  | opened => exact .inl (one rfl rfl (both_mk rfl rfl) (both_mk rfl rfl))
  | date x h => refine .inl (one rfl rfl (both_mk rfl ?_) (both_mk ?_ rfl)) <;> split <;> exact rfl
  | time => exact .inl (one rfl rfl (both_mk rfl rfl) (both_mk rfl rfl))
  | interval a b ha hb ra rb R S hR hS => exact .inl (one rfl rfl (range_single hR) (range_single hS))
  | startless l hl x h => rcases hl with rfl | rfl <;> exact .inl (one rfl rfl (both_mk rfl rfl) (dr _ _ _ _ _))
  | endless neg n h r hr => rcases hr with rfl | rfl <;> exact .inl (one rfl rfl (dr _ _ _ _ _) (both_mk rfl rfl))
  | qualifiedYear neg n h q hq => exact .inl (one rfl rfl (both_mk rfl rfl) (both_mk rfl rfl))
  | group e h hn hX hl he S E hs => exact .inl (one rfl rfl (span_single hs).1 (span_single hs).2)
  | individual e h hn hX hr hl S E hs => exact .inl (one rfl rfl (span_single hs).1 (span_single hs).2)
  | unspecified x h hn hX S E hs => exact .inl (one rfl rfl (span_single hs).1 (span_single hs).2)
  | month => exact .inl (one rfl rfl (dr _ _ _ _ _) (dr _ _ _ _ _))
  | season => exact .inl (one rfl rfl (dr _ _ _ _ _) (dr _ _ _ _ _))
  | seasonName => exact .inl (one rfl rfl (dr _ _ _ _ _) (dr _ _ _ _ _))
  | letter => exact .inl (one rfl rfl (both_mk rfl rfl) (both_mk rfl rfl))
  | exponential => exact .inl (one rfl rfl (both_mk rfl rfl) (both_mk rfl rfl))
  | significant => exact .inl (one rfl rfl (dr _ _ _ _ _) (dr _ _ _ _ _))
  | grouping => exact .inl (one rfl rfl (dr _ _ _ _ _) (dr _ _ _ _ _))
  | set o c hb cs hc S E hm => exact .inr ⟨o, c, cs, S, E, hb, hc, hm, rfl, rfl, rfl⟩

theorem flagged_is {p : Prec} {R : DateRange} : Both (fun b => b.inclusivity = p) (flagged p R) := by
  obtain ⟨t, l, u⟩ := R
  rintro b (k | k)
  · cases l with
    | none => cases k
    | some l => cases k; rfl
  · cases u with
    | none => cases k
    | some u => cases k; rfl

/-- The flags of a set. -/
theorem set_flags {p : Prec} {ms : List Str} {x y : Bool} {S E : DateRange} (h : SetSpan f p ms x y S E) :
    (x = true ∧ y = true ∧ Both Single S ∧ Both Single E) ∨
    (¬ (x = true ∧ y = true) ∧ ((Both (fun b => b.inclusivity = p) S ∧ Both (fun b => b.inclusivity = p ∨ b.inclusivity = 0) E) ∨
      (Both (fun b => b.inclusivity = p) E ∧ Both (fun b => b.inclusivity = p ∨ b.inclusivity = 0) S))) := by
  have op : ∀ t, Both (fun b => b.inclusivity = p ∨ b.inclusivity = 0) (openRange t) := fun t => both_mk (.inr rfl) (.inr rfl)
  have fl : ∀ {R : DateRange}, Both (fun b => b.inclusivity = p ∨ b.inclusivity = 0) (flagged p R) := fun b hb => .inl (flagged_is b hb)
  cases h with
  | one t h S E hs => exact .inr ⟨by decide, .inl ⟨flagged_is, fl⟩⟩
  | closed a b h hab R S hR hS => exact .inr ⟨by decide, .inl ⟨flagged_is, fl⟩⟩
  | upTo1 t h R hR => exact .inr ⟨by decide, .inr ⟨flagged_is, op _⟩⟩
  | onFrom1 t h R hR => exact .inr ⟨by decide, .inl ⟨flagged_is, op _⟩⟩
  | upTo a b h h2 R S hR hS => exact .inr ⟨by decide, .inr ⟨flagged_is, op _⟩⟩
  | onFrom a b h h2 R S hR hS => exact .inr ⟨by decide, .inl ⟨flagged_is, op _⟩⟩
  | both a b h h2 R S hR hS =>
    have hS := range_single hS
    have : Both Single ⟨[], some openEnd, S.upper⟩ := by
      rintro b (k | k)
      · cases k; rfl
      · exact hS b (.inr k)
    exact .inl ⟨rfl, rfl, this, this⟩

theorem chunk_start {k : Chunk} (hk : k.ok) : c! ".." <+: k.text ↔ k.opensStart = true := by
  have nd : ∀ r, '.' ∉ runText r := fun r => runText_not_mem r (by decide) (by decide)
  have no : ∀ {r : List Date0} {t w : Str}, RunOk r → c! ".." ++ w = runText r ++ t → False := by
    intro r t w hr e
    cases h : runText r with
    | nil => exact runText_ne_nil hr h
    | cons x u =>
      rw [h] at e
      injection e with e _
      exact nd r (by rw [h, e]; simp)
  cases k with
  | run r => exact ⟨fun ⟨w, e⟩ => (no (t := []) hk (by rw [e]; simp [Chunk.text])).elim, fun h => by cases h⟩
  | pair a b => exact ⟨fun ⟨w, e⟩ => (no hk.1 e).elim, fun h => by cases h⟩
  | upTo r => exact ⟨fun _ => rfl, fun _ => ⟨runText r, rfl⟩⟩
  | onFrom r => exact ⟨fun ⟨w, e⟩ => (no hk e).elim, fun h => by cases h⟩
  | blank => exact ⟨fun ⟨w, e⟩ => (by cases e), fun h => by cases h⟩
  | dots => exact ⟨fun _ => rfl, fun _ => ⟨[], rfl⟩⟩

theorem chunk_end {k : Chunk} (hk : k.ok) : (c! ".." <:+ k.text ∧ ¬ c! ".." <+: k.text) ↔ k.opensEnd = true := by
  rw [chunk_start hk]
  constructor
  · rintro ⟨h, k⟩
    have := (chunk_dots hk).1 (.inr h)
    cases h : Chunk.opensStart _ with
    | true => exact absurd h k
    | false => rw [h] at this; exact this
  · intro h
    cases k with
    | onFrom r => exact ⟨⟨runText r, rfl⟩, fun h => by cases h⟩
    | _ => cases h

theorem set_both {o c : Char} (hb : Brackets o c) {cs : List Chunk} (hc : ChunksOk cs) :
    OpenBothWays (o :: (commaJoin (cs.map Chunk.text) ++ [c])) ↔ (cs.any Chunk.opensStart = true ∧ cs.any Chunk.opensEnd = true) := by
  have n0 : cs.map Chunk.text ≠ [] := by
    obtain ⟨-, ⟨k, hk, -⟩, -⟩ := hc
    cases cs with
    | nil => cases hk
    | cons => simp
  have nc : ∀ t ∈ cs.map Chunk.text, ',' ∉ t := by
    intro t ht
    obtain ⟨k, -, rfl⟩ := List.mem_map.1 ht
    exact chunk_comma k
  simp only [List.any_eq_true]
  constructor
  · rintro ⟨ps, ⟨o', c', -, p0, pc, e⟩, ⟨p, hp, h⟩, q, hq, h'⟩
    injection e with _ e
    have e := (List.append_inj_left' e rfl)
    have e := commaJoin_inj nc pc n0 p0 e
    subst e
    obtain ⟨k, hk, rfl⟩ := List.mem_map.1 hp
    obtain ⟨k', hk', rfl⟩ := List.mem_map.1 hq
    exact ⟨⟨k, hk, (chunk_start (hc.1 k hk)).1 h⟩, k', hk', (chunk_end (hc.1 k' hk')).1 h'⟩
  · rintro ⟨⟨k, hk, h⟩, k', hk', h'⟩
    exact ⟨_, ⟨o, c, hb, n0, nc, rfl⟩, ⟨k.text, List.mem_map_of_mem hk, (chunk_start (hc.1 k hk)).2 h⟩, k'.text, List.mem_map_of_mem hk', (chunk_end (hc.1 k' hk')).2 h'⟩

theorem has_flag {o : Char} {p : Prec} (h0 : p ≠ 0) (hp : ∀ x c, Brackets x c → (setFlag x = p ↔ x = o)) (ho : o = '[' ∨ o = '{') (s : Str) :
    HasEnd s (fun b => b.inclusivity = p) ↔ (∃ d, parseString s = .ok d) ∧ s.head? = some o ∧ ¬ OpenBothWays s := by
  have hf := dayCount_unixDay
  constructor
  · rintro ⟨d, b, h, hb, k⟩
    refine ⟨⟨d, h⟩, ?_⟩
    rcases denotes_single ((C55_denotes hf s d).1 h) with h1 | ⟨x, c, cs, S, E, hx, hc, hm, rfl, h1, h2⟩
    · exact absurd (k.symm.trans (h1 b hb)) h0
    · rcases set_flags hm with ⟨-, -, hS, hE⟩ | ⟨hn, h'⟩
      · exact absurd (k.symm.trans (both_boundary (P := Single) h1 h2 hS hE hb)) h0
      · have hq : b.inclusivity = setFlag x ∨ b.inclusivity = 0 := by
          rcases h' with ⟨hS, hE⟩ | ⟨hE, hS⟩
          · exact both_boundary (P := fun b => b.inclusivity = setFlag x ∨ b.inclusivity = 0) h1 h2 (fun b hb => .inl (hS b hb)) hE hb
          · exact both_boundary (P := fun b => b.inclusivity = setFlag x ∨ b.inclusivity = 0) h1 h2 hS (fun b hb => .inl (hE b hb)) hb
        rcases hq with hq | hq
        · exact ⟨by rw [(hp x c hx).1 (hq.symm.trans k)]; rfl, fun hb => hn ((set_both hx hc).1 hb)⟩
        · exact absurd (k.symm.trans hq) h0
  · rintro ⟨⟨d, h⟩, h1, h2⟩
    obtain ⟨es, ee, sl, su, el, eu, e1, e2, -⟩ := C31_wellformed hf h
    have hd := (C55_denotes hf s d).1 h
    rcases denotes_single hd with h' | ⟨x, c, cs, S, E, hx, hc, hm, rfl, k1, k2⟩
    · exfalso
      have hb : ∀ {t : Str}, Fit t → t.head? ≠ some o := by
        intro t ht e
        cases t with
        | nil => cases e
        | cons y t =>
          cases e
          refine ht o List.mem_cons_self ?_
          rcases ho with rfl | rfl <;> decide
      have no : ∀ {u v : Str}, u ≠ [] → Fit u → (u ++ v).head? ≠ some o := by
        intro u v h0 hu e
        cases u with
        | nil => exact h0 rfl
        | cons y u => exact hb hu e
      cases denotes_ends hd with
      | fit _ _ hs => exact hb hs h1
      | pair _ a b ha a0 hb b0 e => subst e; exact no a0 ha h1
      | month _ hs =>
        rcases hs with hs | hs
        · obtain ⟨w, w0, hw, -, rfl⟩ := monthAnd_text hs
          exact no w0 hw h1
        · obtain ⟨w, w0, hw, -, rfl⟩ := monthAnd_text hs
          exact no w0 hw h1
      | unknown e _ => subst e; cases h1
      | opened e _ => subst e; cases h1; revert ho; decide
      | startless l hl x e =>
        subst e
        rcases hl with rfl | rfl <;> (cases h1; revert ho; decide)
      | endless neg n r hr e =>
        subst e
        exact no (by cases neg <;> simp [signed, pad4]) (fit_signed _ (fit_pad4 n)) h1
      | set x c hx cs hc S E hm e k1 k2 =>
        rcases set_flags hm with ⟨b1, b2, -⟩ | ⟨-, h''⟩
        · exact h2 (e ▸ (set_both hx hc).2 ⟨b1, b2⟩)
        · have ex : x = o := by rw [e] at h1; cases h1; rfl
          have ep := (hp x c hx).2 ex
          rw [k1] at e1; rw [k2] at e2
          cases e1; cases e2
          rcases h'' with ⟨hS, -⟩ | ⟨hE, -⟩
          · exact h0 (ep.symm.trans ((hS sl (.inl rfl)).symm.trans (h' sl ⟨_, .inl k1, .inl rfl⟩)))
          · exact h0 (ep.symm.trans ((hE el (.inl rfl)).symm.trans (h' el ⟨_, .inr k2, .inl rfl⟩)))
    · have ex : x = o := by cases h1; rfl
      have ep := (hp x c hx).2 ex
      rcases set_flags hm with ⟨b1, b2, -⟩ | ⟨-, h''⟩
      · exact absurd ((set_both hx hc).2 ⟨b1, b2⟩) h2
      · rw [k1] at e1; rw [k2] at e2
        cases e1; cases e2
        rcases h'' with ⟨hS, -⟩ | ⟨hE, -⟩
        · exact has_of h (.inl k1) (.inl rfl) ((hS sl (.inl rfl)).trans ep)
        · exact has_of h (.inr k2) (.inl rfl) ((hE el (.inl rfl)).trans ep)

/-- **C101.** A result is a choice ("one of") exactly if the text begins with a square bracket, and is an inclusion ("all of") exactly if it begins with a
curly one; except that sets which are open both ways are neither. -/
theorem C101_choice (s : Str) :
    (HasEnd s (fun b => b.inclusivity = Prec.ANY) ↔ (∃ d, parseString s = .ok d) ∧ s.head? = some '[' ∧ ¬ OpenBothWays s) ∧
    (HasEnd s (fun b => b.inclusivity = Prec.ALL) ↔ (∃ d, parseString s = .ok d) ∧ s.head? = some '{' ∧ ¬ OpenBothWays s) := by
  refine ⟨has_flag (by decide) ?_ (.inl rfl) s, has_flag (by decide) ?_ (.inr rfl) s⟩ <;>
  · rintro x c ⟨rfl | rfl, -⟩ <;> decide

/-- A choice, an inclusion, and neither. -/
example : HasEnd (c! "[1667,1668]") (fun b => b.inclusivity = Prec.ANY) ∧ HasEnd (c! "{..1984}") (fun b => b.inclusivity = Prec.ALL) ∧
    ¬ HasEnd (c! "[..1667,1760..]") (fun b => b.inclusivity = Prec.ANY) ∧ ∃ d, parseString (c! "[..1667,1760..]") = .ok d :=
  ⟨⟨_, _, rfl, ⟨_, .inl rfl, .inl rfl⟩, rfl⟩, ⟨_, _, rfl, ⟨_, .inr rfl, .inl rfl⟩, rfl⟩,
    fun h => (((C101_choice _).1.1 h).2.2 ⟨[c! "..1667", c! "1760.."], ⟨'[', ']', by decide, by decide, by decide, rfl⟩,
      ⟨c! "..1667", by decide, c! "1667", rfl⟩, c! "1760..", by decide, ⟨c! "1760", rfl⟩, by decide⟩), _, rfl⟩

/-- **C101.** There are no other such flags. -/
theorem C101_kinds {s : Str} {d : EDTFDate} (h : parseString s = .ok d) {b : Date} (hb : BoundaryOf d b) :
    b.inclusivity = 0 ∨ b.inclusivity = Prec.ANY ∨ b.inclusivity = Prec.ALL := by
  have hf := dayCount_unixDay
  rcases denotes_single ((C55_denotes hf s d).1 h) with h1 | ⟨x, c, cs, S, E, hx, hc, hm, rfl, h1, h2⟩
  · exact .inl (h1 b hb)
  · have : b.inclusivity = setFlag x ∨ b.inclusivity = 0 := by
      rcases set_flags hm with ⟨-, -, hS, hE⟩ | ⟨-, ⟨hS, hE⟩ | ⟨hE, hS⟩⟩
      · exact .inr (both_boundary (P := Single) h1 h2 hS hE hb)
      · exact both_boundary (P := fun b => b.inclusivity = setFlag x ∨ b.inclusivity = 0) h1 h2 (fun b hb => .inl (hS b hb)) hE hb
      · exact both_boundary (P := fun b => b.inclusivity = setFlag x ∨ b.inclusivity = 0) h1 h2 hS (fun b hb => .inl (hE b hb)) hb
    rcases this with k | k
    · obtain ⟨rfl | rfl, -⟩ := hx
      · exact .inr (.inl k)
      · exact .inr (.inr k)
    · exact .inl k

/-- An open start with a flagged end. -/
example : ∃ d b b', parseString (c! "{..1984}") = .ok d ∧ BoundaryOf d b ∧ BoundaryOf d b' ∧ b.inclusivity = 0 ∧ b'.inclusivity = Prec.ALL :=
  ⟨_, _, _, rfl, ⟨_, .inl rfl, .inl rfl⟩, ⟨_, .inr rfl, .inl rfl⟩, rfl, rfl⟩

end EDTF
