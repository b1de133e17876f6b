/-
C95: putting dates in order.
-/
import Verif.SpecSort
import Verif.PropsCmp
import Verif.LemmasSame
namespace EDTF
open Spec

theorem spans_unique {s : Str} {l u l' u' : Int} (h : Spans s l u) (k : Spans s l' u') : l = l' ∧ u = u' := by
  obtain ⟨d, p, a, b⟩ := h
  obtain ⟨d', p', a', b'⟩ := k
  rw [p] at p'; cases p'
  rw [a] at a'; rw [b] at b'
  cases a'; cases b'
  exact ⟨rfl, rfl⟩

theorem precedes_iff {s t : Str} {l u l' u' : Int} (h : Spans s l u) (k : Spans t l' u') : Precedes s t ↔ u ≤ l' := by
  obtain ⟨d, p, a, b⟩ := h
  obtain ⟨d', p', a', b'⟩ := k
  unfold Precedes
  rw [(C34_strings p p' ⟨a, b⟩ ⟨a', b'⟩).2]
  simp

/-- C95: of two pairs, each in order, one of the two crossed pairs is in order too.  (So
"before" is an interval order; the texts may end before they start.) -/
theorem C95_crossed {a b c d : Str} (ha : ∃ l u, Spans a l u) (hb : ∃ l u, Spans b l u) (hc : ∃ l u, Spans c l u) (hd : ∃ l u, Spans d l u)
    (h : Precedes a b) (k : Precedes c d) : Precedes a d ∨ Precedes c b := by
  obtain ⟨_, _, ha⟩ := ha
  obtain ⟨_, _, hb⟩ := hb
  obtain ⟨_, _, hc⟩ := hc
  obtain ⟨_, _, hd⟩ := hd
  rw [precedes_iff ha hb] at h
  rw [precedes_iff hc hd] at k
  rw [precedes_iff ha hd, precedes_iff hc hb]
  omega

example : Precedes (c! "1985/1990") (c! "1991") ∧ Precedes (c! "1970") (c! "1980-04/1995") ∧
    ¬ Precedes (c! "1985/1990") (c! "1980-04/1995") ∧ Precedes (c! "1970") (c! "1991") := by
  unfold Precedes; exact ⟨rfl, rfl, by decide +kernel, rfl⟩

/-- The order used: by the first second, and by the last one if the first is the same. -/
private def key (s : Str) : Int × Int :=
  match parseString s with
  | .ok d => match d.lower, d.upper with
    | .ok l, .ok u => (l, u)
    | _, _ => (0, 0)
  | _ => (0, 0)

private theorem key_eq {s : Str} {l u : Int} (h : Spans s l u) : key s = (l, u) := by
  obtain ⟨d, p, a, b⟩ := h
  unfold key
  rw [p]
  simp only [a, b]

private def keyLe (s t : Str) : Bool := decide ((key s).1 < (key t).1 ∨ ((key s).1 = (key t).1 ∧ (key s).2 ≤ (key t).2))

/-- C95: every list of texts can be arranged so that none is before an earlier one, two
texts for one and the same second aside. -/
theorem C95_sorted (ss : List Str) (h : ∀ s ∈ ss, Forward s) :
    ∃ ts : List Str, ts.Perm ss ∧ ts.Pairwise (fun s t => Precedes t s → OneSecond s t) := by
  refine ⟨ss.mergeSort keyLe, List.mergeSort_perm _ _, ?_⟩
  have hp : (ss.mergeSort keyLe).Pairwise (fun s t => keyLe s t = true) := by
    apply List.pairwise_mergeSort
    · intro a b c h1 h2
      unfold keyLe at *
      simp only [decide_eq_true_eq] at *
      omega
    · intro a b
      unfold keyLe
      simp only [Bool.or_eq_true, decide_eq_true_eq]
      omega
  refine hp.imp_of_mem ?_
  intro s t hs ht hk hb
  obtain ⟨l, u, S, o⟩ := h s ((List.mergeSort_perm _ _).mem_iff.1 hs)
  obtain ⟨l', u', T, o'⟩ := h t ((List.mergeSort_perm _ _).mem_iff.1 ht)
  unfold keyLe at hk
  rw [key_eq S, key_eq T, decide_eq_true_eq] at hk
  rw [precedes_iff T S] at hb
  simp only at hk
  have e : u = l ∧ l' = l ∧ u' = l := by omega
  obtain ⟨rfl, rfl, rfl⟩ := e
  exact ⟨_, S, T⟩

example : ∀ s ∈ [c! "1985-04", c! "1984/1985", c! "-0044-03-15", c! "1985-04-01T00:00:00Z"], Forward s := by
  intro s hs
  simp only [List.mem_cons, List.not_mem_nil, or_false] at hs
  rcases hs with rfl | rfl | rfl | rfl <;> exact ⟨_, _, ⟨_, rfl, rfl, rfl⟩, by decide +kernel⟩

/-- The exception is needed: a second is before itself. -/
example : Precedes (c! "1985-04-01T00:00:00Z") (c! "1985-04-01T00:00:00Z") := rfl

theorem leads_bounds {s t : Str} {ss : List Str} (hs : Forward s) (h : ∀ r ∈ ss, Forward r) (ht : Forward t) (k : Leads s ss t) :
    ∀ l u l' u', Spans s l u → Spans t l' u' → u ≤ l' ∧ (u = l' → ∀ r ∈ ss, Spans r u u) := by
  induction k with
  | one s t k =>
    intro l u l' u' S T
    exact ⟨(precedes_iff S T).1 k, fun _ r hr => by cases hr⟩
  | cons s r t ss k _ ih =>
    intro l u l' u' S T
    have hr := h r (.head _)
    obtain ⟨lr, ur, R, o⟩ := hr
    have k' := (precedes_iff S R).1 k
    obtain ⟨i1, i2⟩ := ih (h r (.head _)) (fun x hx => h x (.tail _ hx)) ht lr ur l' u' R T
    refine ⟨by omega, fun e x hx => ?_⟩
    have e1 : lr = u ∧ ur = u := by omega
    obtain ⟨rfl, rfl⟩ := e1
    rcases List.mem_cons.1 hx with rfl | hx
    · exact R
    · exact i2 e x hx

/-- C95: there are no cycles.  If each text is before the next, and the last before the
first, they all stand for one and the same second. -/
theorem C95_cycle {s : Str} {ss : List Str} (hs : Forward s) (h : ∀ r ∈ ss, Forward r) (k : Leads s ss s) :
    ∀ r ∈ s :: ss, OneSecond s r := by
  have hs' := hs
  obtain ⟨l, u, S, o⟩ := hs'
  obtain ⟨h1, h2⟩ := leads_bounds hs h hs k l u l u S S
  have e : u = l := by omega
  subst e
  intro r hr
  rcases List.mem_cons.1 hr with rfl | hr
  · exact ⟨_, S, S⟩
  · exact ⟨_, S, h2 rfl r hr⟩

/-- The same second, in three ways. -/
example : Leads (c! "1985-04-12T23:20:30Z") [c! "1985-04-12T23:20:30", c! "1985-04-13T00:20:30+01"] (c! "1985-04-12T23:20:30Z") :=
  .cons _ _ _ _ (by unfold Precedes; rfl) (.cons _ _ _ _ (by unfold Precedes; decide +kernel) (.one _ _ (by unfold Precedes; decide +kernel)))

/-- C95: without the condition there are cycles: an interval that ends before it starts is
accepted, and is before itself. -/
theorem C95_backward : ∃ s, (∃ l u, Spans s l u) ∧ ¬ Forward s ∧ Leads s [] s ∧ ¬ OneSecond s s := by
  have S : ∃ l u, Spans (c! "2005/2003") l u ∧ u < l := ⟨_, _, ⟨_, rfl, rfl, rfl⟩, by decide +kernel⟩
  obtain ⟨l, u, S, o⟩ := S
  refine ⟨c! "2005/2003", ⟨l, u, S⟩, ?_, .one _ _ ((precedes_iff S S).2 (by omega)), ?_⟩
  · rintro ⟨l', u', S', o'⟩
    have := spans_unique S S'
    omega
  · rintro ⟨i, S', -⟩
    have := spans_unique S S'
    omega


/-! ### Which texts do not end before they start -/

variable {f : Int → Nat → Nat → Int}

/-- The result has a first and a last second, in this order. -/
def Onward (d : EDTFDate) : Prop := ∃ l u, Timed d l u ∧ l ≤ u

theorem timed_lower {d : EDTFDate} {l u : Int} (h : Timed d l u) : d.lower = .ok l ∧ d.upper = .ok u := by
  obtain ⟨⟨a, ⟨S, e1, e2⟩, e3, -, -⟩, b, ⟨E, e4, e5⟩, e6, -, -⟩ := h
  constructor
  · unfold EDTFDate.lower; rw [e1]; show (do let l ← Res.deref S.lower; _) = _; rw [e2]; show (match a.timestamp with | none => _ | some t => _) = _; rw [e3]
  · unfold EDTFDate.upper; rw [e4]; show (do let l ← Res.deref E.upper; _) = _; rw [e5]; show (match b.timestamp with | none => _ | some t => _) = _; rw [e6]

theorem onward_result (hf : DayCount f) {x : Date0} (h : x.ok) {t s k : Str} {n : Int} {u a : Prec} : Onward (x.result f t s n k u a) := by
  refine ⟨_, _, timed_result, ?_⟩
  have := day_order hf (Date0.valid_first h) (Date0.valid_last h) (first_le_last h)
  unfold firstSecond lastSecond; omega

theorem onward_span (hf : DayCount f) {t s k : Str} {n : Int} {S E : DateRange} (h : SpanOf f t S E) : Onward ⟨some S, some E, s, n, k⟩ := by
  cases h with
  | date e he y1 m1 d1 y2 m2 d2 hr =>
    refine ⟨_, _, timed_span hf he rfl (.date e he y1 m1 d1 y2 m2 d2 hr) hr, ?_⟩
    have := day_order hf hr.2.2.2.1 hr.2.2.2.2 (runs_le hr)
    omega

theorem onward_months (hf : DayCount f) {s k : Str} {n : Int} {y1 y2 : Int} {m1 m2 : Nat} (h1 : 1 ≤ m1) (h2 : m1 ≤ 12) (h3 : 1 ≤ m2) (h4 : m2 ≤ 12)
    (h : y1 < y2 ∨ (y1 = y2 ∧ m1 ≤ m2)) : Onward (monthsResult f s n k y1 m1 y2 m2) := by
  refine ⟨_, _, timed_months, ?_⟩
  have := day_order hf (valid_first (y := y1) h1 h2) (valid_last (y := y2) h3 h4) (by unfold dayLe; have := monthLen_pos y2 m2; omega)
  omega

theorem onward_two (hf : DayCount f) {a b : Date0} (ha : a.ok) (hb : b.ok) (h : dayLe a.value a.first.1 a.first.2 b.value b.last.1 b.last.2)
    {t t' s k : Str} {n : Int} {u v w u' v' w' : Prec} :
    Onward ⟨some (a.range f t u v w), some (b.range f t' u' v' w'), s, n, k⟩ := by
  refine ⟨_, _, ⟨⟨_, ⟨_, rfl, rfl⟩, ts_start .., rfl, rfl⟩, _, ⟨_, rfl, rfl⟩, ts_end .., rfl, rfl⟩, ?_⟩
  have := day_order hf (Date0.valid_first ha) (Date0.valid_last hb) h
  omega

theorem season_onward (z : Season) : 1 ≤ z.firstMonth ∧ z.firstMonth ≤ 12 ∧ 1 ≤ z.lastMonth ∧ z.lastMonth ≤ 12 ∧
    ∀ y : Int, y < z.lastYear y ∨ (y = z.lastYear y ∧ z.firstMonth ≤ z.lastMonth) := by
  cases z <;> simp [Season.firstMonth, Season.lastMonth, Season.lastYear] <;> intros <;> omega


theorem chunk_holds {c : Chunk} {t : Str} (h : t ∈ c.members) : ∃ p q, c.text = p ++ (t ++ q) ∧ (p = [] ∨ ∃ p', p = p' ++ ['.']) := by
  cases c with
  | run r =>
    have : t = runText r := by simpa [Chunk.members] using h
    exact ⟨[], [], by simp [Chunk.text, this], .inl rfl⟩
  | pair a b =>
    have : t = runText a ∨ t = runText b := by simpa [Chunk.members] using h
    rcases this with e | e
    · exact ⟨[], c! ".." ++ runText b, by simp [Chunk.text, e], .inl rfl⟩
    · exact ⟨runText a ++ c! "..", [], by simp [Chunk.text, e], .inr ⟨runText a ++ c! ".", by simp⟩⟩
  | upTo r =>
    have : t = runText r := by simpa [Chunk.members] using h
    exact ⟨c! "..", [], by simp [Chunk.text, this], .inr ⟨c! ".", rfl⟩⟩
  | onFrom r =>
    have : t = runText r := by simpa [Chunk.members] using h
    exact ⟨[], c! "..", by simp [Chunk.text, this], .inl rfl⟩
  | blank =>
    have : t = [] := by simpa [Chunk.members] using h
    exact ⟨[], [], by simp [Chunk.text, this], .inl rfl⟩
  | dots =>
    have : t = [] := by simpa [Chunk.members] using h
    exact ⟨[], c! "..", by simp [Chunk.text, this], .inl rfl⟩

theorem joined_member {cs : List Chunk} {t : Str} (h : t ∈ cs.flatMap Chunk.members) :
    ∃ p q, commaJoin (cs.map Chunk.text) = p ++ (t ++ q) ∧ (p = [] ∨ ∃ p' c, c ∈ c! ",." ∧ p = p' ++ [c]) := by
  induction cs with
  | nil => simp at h
  | cons x cs ih =>
    rw [List.flatMap_cons, List.mem_append] at h
    rcases h with h | h
    · obtain ⟨p, q, e, k⟩ := chunk_holds h
      refine ⟨p, (match cs with | [] => q | _ => q ++ ',' :: commaJoin (cs.map Chunk.text)), ?_, k.imp id (fun ⟨p', e'⟩ => ⟨p', '.', by decide, e'⟩)⟩
      cases cs with
      | nil => exact e
      | cons y cs => show x.text ++ ',' :: _ = _; rw [e]; simp
    · obtain ⟨p, q, e, k⟩ := ih h
      cases cs with
      | nil => simp at h
      | cons y cs =>
        refine ⟨x.text ++ ',' :: p, q, ?_, .inr ?_⟩
        · show x.text ++ ',' :: commaJoin ((y :: cs).map Chunk.text) = _
          rw [e]; simp
        · rcases k with rfl | ⟨p', c, hc, rfl⟩
          · exact ⟨x.text, ',', by decide, rfl⟩
          · exact ⟨x.text ++ ',' :: p', c, hc, by simp⟩

theorem unsigned_member {o c : Char} (ho : Brackets o c) {cs : List Chunk} {z : Date0} (h : z.text ∈ cs.flatMap Chunk.members)
    (hs : NoSign (o :: (commaJoin (cs.map Chunk.text) ++ [c]))) : z.neg = false := by
  obtain ⟨p, q, e, k⟩ := joined_member h
  obtain ⟨n, y, t⟩ := z
  cases n with
  | false => rfl
  | true =>
    have ht : (⟨true, y, t⟩ : Date0).text = '-' :: (⟨false, y, t⟩ : Date0).text := by cases t <;> rfl
    rw [ht] at e
    exfalso
    rcases k with rfl | ⟨p', x, hx, rfl⟩
    · refine hs [] ((⟨false, y, t⟩ : Date0).text ++ q ++ [c]) o ?_ ?_
      · rcases ho with ⟨rfl, -⟩ | ⟨rfl, -⟩ <;> decide
      · rw [e]; simp
    · refine hs (o :: p') ((⟨false, y, t⟩ : Date0).text ++ q ++ [c]) x ?_ ?_
      · rcases (by simpa using hx : x = ',' ∨ x = '.') with rfl | rfl <;> decide
      · rw [e]; simp

theorem onward_flagged {S E : DateRange} {s k s' k' : Str} {n n' : Int} {p : Prec} (h : Onward ⟨some S, some E, s, n, k⟩) :
    Onward ⟨some (flagged p S), some (flagged p E), s', n', k'⟩ := by
  obtain ⟨l, u, ⟨⟨a, ⟨S', e1, e2⟩, e3, e4, e5⟩, b, ⟨E', e6, e7⟩, e8, e9, e10⟩, o⟩ := h
  cases e1; cases e6
  exact ⟨l, u, ⟨⟨{ a with inclusivity := p }, ⟨_, rfl, by show Option.map _ S.lower = _; rw [e2]; rfl⟩, e3, e4, e5⟩,
    { b with inclusivity := p }, ⟨_, rfl, by show Option.map _ E.upper = _; rw [e7]; rfl⟩, e8, e9, e10⟩, o⟩

theorem sig_below {n k : Nat} (h : n ≤ 9999) (hk : k ≤ 4) : n / 10 ^ k * 10 ^ k + (10 ^ k - 1) < 10000 := by
  have : k = 0 ∨ k = 1 ∨ k = 2 ∨ k = 3 ∨ k = 4 := by omega
  rcases this with rfl | rfl | rfl | rfl | rfl <;> simp <;> omega

theorem grouping_onward {n : Nat} (hn : n < 10000) (g : Grouping) (hg : g.crosses = true → n ≤ 9998) :
    (dayOf n g.firstMonth 1).ok ∧ (g.lastDate n).ok ∧
      dayLe (dayOf n g.firstMonth 1).value (dayOf n g.firstMonth 1).first.1 (dayOf n g.firstMonth 1).first.2
        (g.lastDate n).value (g.lastDate n).last.1 (g.lastDate n).last.2 := by
  have key : 1 ≤ g.firstMonth ∧ g.firstMonth ≤ 12 ∧ 1 ≤ g.lastMonth ∧ g.lastMonth ≤ 12 ∧ (g.crosses = false → g.firstMonth ≤ g.lastMonth) := by
    rcases g with z | z | k | k | k
    · cases z <;> decide
    · cases z <;> decide
    all_goals (have := k.isLt; simp [Grouping.firstMonth, Grouping.lastMonth]; omega)
  obtain ⟨k1, k2, k3, k4, k5⟩ := key
  refine ⟨dayOf_ok (by omega) (valid_first k1 k2), ?_, ?_⟩
  · unfold Grouping.lastDate
    split
    · rename_i h
      have := hg h
      exact ⟨by show n + 1 < 10000; omega, k3, k4⟩
    · exact ⟨hn, valid_last k3 k4⟩
  · rw [dayOf_value]
    unfold Grouping.lastDate
    have := monthLen_pos n g.lastMonth
    split
    · simp only [dayLe, Date0.value, Date0.first, Date0.last, dayOf]; simp; omega
    · rename_i h
      have := k5 (by simpa using h)
      simp only [dayLe, Date0.value, Date0.first, Date0.last, dayOf]; simp; omega

/-- A text is unknown, open, a set, or runs onward. -/
theorem denotes_onward (hf : DayCount f) {s : Str} {d : EDTFDate} (hd : Denotes f s d) (h1 : '/' ∉ s) :
    s = [] ∨ s = c! ".." ∨ (∃ (o c : Char) (_ : Brackets o c) (cs : List Chunk) (_ : ChunksOk cs) (S E : DateRange)
      (_ : SetSpan f (setFlag o) (cs.flatMap Chunk.members) (cs.any Chunk.opensStart) (cs.any Chunk.opensEnd) S E),
      s = o :: (commaJoin (cs.map Chunk.text) ++ [c]) ∧ d = ⟨some S, some E, s, 2, c! "Set representation"⟩) ∨ Onward d := by
  cases hd with
  | unknown => exact .inl rfl
  | opened => exact .inr (.inl rfl)
  | date x h => exact .inr (.inr (.inr (onward_result hf h)))
  | time neg y m d hh mi ss z hy V k1 k2 k3 hz y' m' d' hh' mi' ss' V' k1' k2' k3' e =>
    exact .inr (.inr (.inr (⟨_, _, ⟨⟨_, ⟨_, rfl, rfl⟩, rfl, rfl, rfl⟩, _, ⟨_, rfl, rfl⟩, rfl, rfl, rfl⟩, Int.le_refl _⟩)))
  | interval => simp at h1
  | startless => simp at h1
  | endless => simp at h1
  | qualifiedYear neg n h q hq => exact .inr (.inr (.inr (onward_result hf (x := ⟨neg, n, .none⟩) ⟨h, trivial⟩)))
  | group e h hn hX hl he S E hs => exact .inr (.inr (.inr (onward_span hf hs)))
  | individual e h hn hX hr hl S E hs => exact .inr (.inr (.inr (onward_span hf hs)))
  | unspecified x h hn hX S E hs => exact .inr (.inr (.inr (onward_span hf hs)))
  | month neg n m hn m1 m2 y hv hy t ht => exact .inr (.inr (.inr (onward_months hf m1 m2 m1 m2 (.inr ⟨rfl, Nat.le_refl _⟩))))
  | season neg n hn z y hv hy hz =>
    obtain ⟨a, b, c, e, k⟩ := season_onward z
    exact .inr (.inr (.inr (onward_months hf a b c e (k y))))
  | seasonName z w t1 t2 n hw h1 h2 hn hz =>
    obtain ⟨a, b, c, e, k⟩ := season_onward z
    exact .inr (.inr (.inr (onward_months hf a b c e (k n))))
  | letter neg n h => exact .inr (.inr (.inr (onward_result hf (x := ⟨neg, n, .none⟩) ⟨h, trivial⟩)))
  | exponential yc ec hy he neg ms es hm hes b n h1 h2 hv => exact .inr (.inr (.inr (onward_result hf (x := ⟨b, n, .none⟩) ⟨by show n < 10000; omega, trivial⟩)))
  | significant t v h ds hd a b hk =>
    have : a.ok ∧ b.ok ∧ dayLe a.value a.first.1 a.first.2 b.value b.last.1 b.last.2 := by
      revert hk
      generalize value10 ds = j
      intro hk
      cases hk with
      | pos n k h1 h2 hk =>
        have := sig_below h2 hk
        exact ⟨⟨by show _ / _ * _ < 10000; omega, trivial⟩, ⟨by show _ / _ * _ + (_ - 1) < 10000; omega, trivial⟩, by
          simp only [dayLe, Date0.value, Date0.first, Date0.last]; simp; omega⟩
      | neg n k h1 h2 hk =>
        have := sig_below h2 hk
        exact ⟨⟨by show _ / _ * _ + (_ - 1) < 10000; omega, trivial⟩, ⟨by show _ / _ * _ < 10000; omega, trivial⟩, by
          simp only [dayLe, Date0.value, Date0.first, Date0.last]; simp; omega⟩
      | sign n h1 h2 => exact ⟨by decide, by decide, .inl (by decide)⟩
    exact .inr (.inr (.inr (onward_two hf this.1 this.2.1 this.2.2)))
  | grouping n hn g hg =>
    obtain ⟨g1, g2, g3⟩ := grouping_onward hn g (fun h => (hg h).2)
    exact .inr (.inr (.inr (onward_two hf g1 g2 g3)))
  | set o c hb cs hc S E hm => exact .inr (.inr (.inl ⟨o, c, hb, cs, hc, S, E, hm, rfl, rfl⟩))

/-- **C95.** An accepted text that has a first and a last second does not end
before it starts, unless it is an interval or a set with a sign. -/
theorem C95_forward {s : Str} {l u : Int} (h : Spans s l u) (h1 : '/' ∉ s) (h2 : NoSign s) : l ≤ u := by
  obtain ⟨d, hp, hl, hu⟩ := h
  obtain ⟨f, hf⟩ : ∃ f : Int → Nat → Nat → Int, DayCount f := ⟨_, dayCount_unixDay⟩
  have hd := (C55_denotes hf s d).1 hp
  suffices k : Onward d by
    obtain ⟨l', u', k, o⟩ := k
    obtain ⟨k1, k2⟩ := timed_lower k
    rw [hl] at k1; rw [hu] at k2
    cases k1; cases k2; exact o
  rcases denotes_onward hf hd h1 with rfl | rfl | ⟨o, c, hb, cs, hc, S, E, hm, rfl, rfl⟩ | k
  · cases hp; cases hl
  · cases hp; cases hl
  · revert hm
    generalize cs.any Chunk.opensStart = so
    generalize cs.any Chunk.opensEnd = eo
    intro hm
    cases hm with
    | one t h S E hs => exact onward_flagged (s := []) (k := []) (n := 0) (onward_span hf hs)
    | closed a b h hab R S hR hS =>
      have hR' := hR
      have hS' := hS
      cases hR with
      | absent => cases hl
      | date e1 g1 y1 m1 d1 y2 m2 d2 r1 =>
        cases hS with
        | absent => cases hu
        | date e2 g2 y3 m3 d3 y4 m4 d4 r2 =>
          obtain ⟨z, hz, ez⟩ := member_date hc.1 h.1 ⟨e1, ⟨g1, y1, y2, m1, m2, d1, d2, r1⟩, rfl⟩
          obtain ⟨w, hw, ew⟩ := member_date hc.1 h.2.1 ⟨e2, ⟨g2, y3, y4, m3, m4, d3, d4, r2⟩, rfl⟩
          have hx := h.2.2 _ h.2.1
          have nz := unsigned_member hb (z := z) (by rw [← ez]; exact h.1) h2
          have nw := unsigned_member hb (z := w) (by rw [← ew]; exact h.2.1) h2
          revert hR' hS'
          generalize (⟨e1.text, some (e1.dawn f y1 m1 d1), some (e1.dusk f y2 m2 d2)⟩ : DateRange) = R
          generalize (⟨e2.text, some (e2.dawn f y3 m3 d3), some (e2.dusk f y4 m4 d4)⟩ : DateRange) = S
          intro hR hS
          rw [ez] at hR; rw [ew] at hS
          rw [ez, ew] at hx
          have s1 := SpanOf.date (f := f) (dateE z) (dateE_ok z).1 _ _ _ _ _ _ (date_runs hz)
          have s2 := SpanOf.date (f := f) (dateE w) (dateE_ok w).1 _ _ _ _ _ _ (date_runs hw)
          rw [dateE_text] at s1 s2
          have q1 := (range_of_span hf hR s1).1
          have q2 := (range_of_span hf hS s2).2
          apply onward_flagged (s := []) (k := []) (n := 0)
          refine ⟨_, _, ⟨⟨_, ⟨_, rfl, q1⟩, ts_start .., rfl, rfl⟩, _, ⟨_, rfl, q2⟩, ts_end .., rfl, rfl⟩, ?_⟩
          have := day_order hf (Date0.valid_first hz) (Date0.valid_last hw) (text_order hz hw nz nw (textLe_iff.1 hx.1)).2.1
          omega
    | upTo1 t h R hR => cases hl
    | onFrom1 t h R hR => cases hu
    | upTo a b h h2 R S hR hS => cases hl
    | onFrom a b h h2 R S hR hS => cases hu
    | both a b h h2 R S hR hS => cases hl
  · exact k

example : ∃ l u, Spans (c! "{1667..1670,1672}") l u ∧ l ≤ u :=
  ⟨_, _, ⟨_, rfl, rfl, rfl⟩, C95_forward (s := c! "{1667..1670,1672}") ⟨_, rfl, rfl, rfl⟩ (by decide) (fun a b c _ e => by
    have : '-' ∈ c! "{1667..1670,1672}" := by rw [e]; simp
    exact absurd this (by decide))⟩

example : ∃ l u, Spans (c! "[-2001..2004,2010]") l u ∧ ¬ NoSign (c! "[-2001..2004,2010]") :=
  ⟨_, _, ⟨_, rfl, rfl, rfl⟩, fun h => h [] (c! "2001..2004,2010]") '[' (by decide) rfl⟩

/-- **C95.** Every accepted text other than "", "..", an interval and a set has
a first and a last second, in this order. -/
theorem C95_single {s : Str} {d : EDTFDate} (h : parseString s = .ok d) (h0 : s ≠ []) (h1 : s ≠ c! "..") (h2 : '/' ∉ s)
    (h3 : s.head? ≠ some '[') (h4 : s.head? ≠ some '{') : Forward s := by
  obtain ⟨f, hf⟩ : ∃ f : Int → Nat → Nat → Int, DayCount f := ⟨_, dayCount_unixDay⟩
  rcases denotes_onward hf ((C55_denotes hf s d).1 h) h2 with e | e | ⟨o, c, hb, cs, -, -, -, -, e, -⟩ | ⟨l, u, k, o⟩
  · exact absurd e h0
  · exact absurd e h1
  · rcases hb with ⟨rfl, -⟩ | ⟨rfl, -⟩
    · exact absurd (by rw [e]; rfl) h3
    · exact absurd (by rw [e]; rfl) h4
  · exact ⟨l, u, ⟨d, h, timed_lower k⟩, o⟩

example : Forward (c! "2001-21") := C95_single (d := _) rfl (by decide) (by decide) (by decide) (by decide) (by decide)

example : Forward (c! "1956S2") := C95_single (d := _) rfl (by decide) (by decide) (by decide) (by decide) (by decide)

/-- **C95.** A sign in a set turns it around. -/
theorem C95_signed : ∃ l u, Spans (c! "{-2001,-2000}") l u ∧ u < l := ⟨_, _, ⟨_, rfl, rfl, rfl⟩, by decide +kernel⟩

end EDTF
