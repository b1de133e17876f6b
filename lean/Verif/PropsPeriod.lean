/-
C98: the calendar repeats after 400 years.
-/
import Verif.LemmasPeriod
namespace EDTF
open Spec

variable {f : Int → Nat → Nat → Int}

/-- The second text denotes a time that is that of the first, moved. -/
def MovesTo (f : Int → Nat → Nat → Int) (k : Int) (d : EDTFDate) (t : Str) : Prop :=
  ∃ e l u, Denotes f t e ∧ Timed d l u ∧ Timed e (l + period * k) (u + period * k)

/-- A date with unspecified digits or qualifiers alone, and the endpoint with the new century. -/
theorem span_moves (hf : DayCount f) {e : Endpoint} (h : e.shape) {p : Str} (hp : p ∈ heads) {a b : Nat} (ha : a < 100) (hb : b < 100) {k : Int}
    (hk : (b : Int) = a + 4 * (if '-' ∈ p then -k else k)) {r : Str} (et : e.text = p ++ (pad2 a ++ r)) {S E : DateRange} (hs : SpanOf f e.text S E) :
    ∃ (c d : Char) (S' E' : DateRange), isDX c = true ∧ isDX d = true ∧ e.date.year = pad2 a ++ [c, d] ∧ (withYear e (pad2 b ++ [c, d])).shape ∧ (withYear e (pad2 b ++ [c, d])).text = p ++ (pad2 b ++ r) ∧
      SpanOf f (withYear e (pad2 b ++ [c, d])).text S' E' ∧
      ∀ {s s' t t' : Str} {n n' : Int}, ∃ l u, Timed ⟨some S, some E, s, n, t⟩ l u ∧ Timed ⟨some S', some E', s', n', t'⟩ (l + period * k) (u + period * k) := by
  obtain ⟨y1, y2, m1, m2, d1, d2, hr⟩ := readable_runs (span_readable hf h hs)
  obtain ⟨c, d, hc, hd, hy, hn, ht⟩ := endpoint_move (b := b) h hp et
  simp only [hn] at hk
  have hr' := runs_move ha hb hk hy hr
  have hs' := shape_move (b := b) h hc hd
  refine ⟨c, d, _, _, hc, hd, hy, hs', ht, .date _ hs' _ _ _ _ _ _ hr', fun {s s' t t' n n'} => ⟨_, _, timed_span hf h rfl hs hr, ?_⟩⟩
  exact timed_move hf hr.2.2.2.1 hr.2.2.2.2 (timed_span hf hs' rfl (.date _ hs' _ _ _ _ _ _ hr') hr')

theorem sig_inv {v : Int} {q : Nat} {x y : Date0} (h : SigYears v q x y) (hq : q < 3) :
    ∃ (neg : Bool) (n : Nat), 1000 ≤ n ∧ n ≤ 9999 ∧ v = (if neg then -(n : Int) else n) ∧
      x = ⟨neg, n / 10 ^ q * 10 ^ q + (if neg then 10 ^ q - 1 else 0), .none⟩ ∧ y = ⟨neg, n / 10 ^ q * 10 ^ q + (if neg then 0 else 10 ^ q - 1), .none⟩ := by
  cases h with
  | pos n k h1 h2 hk => exact ⟨false, n, h1, h2, rfl, rfl, rfl⟩
  | neg n k h1 h2 hk => exact ⟨true, n, h1, h2, rfl, rfl, rfl⟩
  | sign => omega

theorem sig_make {neg : Bool} {n q : Nat} (h1 : 1000 ≤ n) (h2 : n ≤ 9999) (hq : q < 3) :
    SigYears (if neg then -(n : Int) else n) q ⟨neg, n / 10 ^ q * 10 ^ q + (if neg then 10 ^ q - 1 else 0), .none⟩
      ⟨neg, n / 10 ^ q * 10 ^ q + (if neg then 0 else 10 ^ q - 1), .none⟩ := by
  cases neg
  · exact .pos n q h1 h2 (by omega)
  · exact .neg n q h1 h2 (by omega)

/-- Rounding to tens or hundreds commutes with adding whole centuries. -/
theorem round_move {a b j q : Nat} (hq : q < 3) : ∃ v, v < 100 ∧ (100 * a + j) / 10 ^ q * 10 ^ q = 100 * a + v + 100 * (j / 100) ∧ (100 * b + j) / 10 ^ q * 10 ^ q = 100 * b + v + 100 * (j / 100) ∧ v + (10 ^ q - 1) < 100 := by
  rcases (by omega : q = 0 ∨ q = 1 ∨ q = 2) with rfl | rfl | rfl
  · exact ⟨j % 100, by omega, by omega, by omega, by omega⟩
  · exact ⟨j % 100 / 10 * 10, by omega, by omega, by omega, by omega⟩
  · exact ⟨0, by omega, by omega, by omega, by omega⟩

theorem grouping_months (g : Grouping) : (1 ≤ g.firstMonth ∧ g.firstMonth ≤ 12) ∧ 1 ≤ g.lastMonth ∧ g.lastMonth ≤ 12 := by
  cases g with
  | north z => cases z <;> decide
  | south z => cases z <;> decide
  | quarter i => revert i; decide
  | quadrimester i => revert i; decide
  | semester i => revert i; decide

theorem last_seconds (g : Grouping) (n : Nat) : lastSecond f (g.lastDate n) = 86400 * f (g.lastYear n) g.lastMonth (monthLen (g.lastYear n) g.lastMonth) + 86399 := by
  unfold Grouping.lastDate Grouping.lastYear
  split <;> rfl

theorem moved_denotes (hf : DayCount f) {k : Int} {s t : Str} {d : EDTFDate} (hm : Moved k s t) (h : Denotes f s d) (hc : ¬ Coarse s) (he : ¬ Early t) (hw : ¬ LastWinter t) :
    MovesTo f k d t := by
  obtain ⟨p, a, b, r, hp, ha, hb, hr, es, rfl, hk⟩ := hm
  replace hp : p ∈ heads := hp
  have noS : '/' ∈ s → False := fun h => heads_noSlash hp hr (es ▸ h)
  have hd : ∀ {c : Char} {w : Str}, c :: w = s → c ∉ c! "-?~%" → isDX c = false → False := by
    intro c w e h1 h2
    rcases head_of hp (e.trans es) with h | h
    · rw [h2] at h; cases h
    · exact h1 h
  cases h with
  | unknown => cases p <;> cases es
  | opened => exact (hd rfl (by decide) (by decide)).elim
  | date x h =>
    obtain ⟨w, et⟩ := date0_signed x
    obtain ⟨j, hj, e1, rfl, e3, e4⟩ := century_move hp ha hk h.1 ((et x.year).symm.trans es)
    have hn : 100 * b + j < 10000 := by omega
    obtain ⟨h1, -, -⟩ := date0_move h hn (k := k) e4
    obtain ⟨q1, q2⟩ := date0_seconds hf h hn (k := k) e4
    rw [e3, ← et]
    exact ⟨_, _, _, .date _ h1, timed_result, by rw [← q1, ← q2]; exact timed_result⟩
  | time neg y m d hh mi ss z hy V k1 k2 k3 hz y' m' d' hh' mi' ss' V' k1' k2' k3' e =>
    have et : ∀ n, clockText neg n m d hh mi ss z = signed neg (pad4 n) ++ ('-' :: (pad2 m ++ '-' :: (pad2 d ++ 'T' :: (hmsText hh mi ss ++ z.text)))) := by
      intro n; cases neg <;> simp [clockText, signed]
    obtain ⟨j, hj, e1, rfl, e3, e4⟩ := century_move hp ha hk hy ((et y).symm.trans es)
    have hn : 100 * b + j < 10000 := by omega
    -- the shift of the year before the sign
    obtain ⟨g, hg, hg'⟩ : ∃ g : Int, ((100 * b + j : Nat) : Int) = (y : Int) + 400 * g ∧ k = if neg then -g else g := by
      cases neg
      · simp only [Bool.false_eq_true, if_false] at e4 ⊢; exact ⟨k, by omega, rfl⟩
      · simp only [if_true] at e4 ⊢; exact ⟨-k, by omega, by omega⟩
    rw [e3, ← et]
    have hD := Denotes.time (f := f) neg (100 * b + j) m d hh mi ss z hn (by rw [hg]; exact valid_move g V) k1 k2 k3 hz (y' + 400 * g) m' d' hh' mi' ss' (valid_move g V') k1' k2' k3'
      (by rw [hg, day_move hf g V, day_move hf g V']; omega)
    have T : ∀ {s : Str} {v : Int}, Timed (instantResult s { dated f v m' d' hh' mi' ss' 0 0 0 with ymd := none })
        (86400 * f v m' d' + (3600 * hh' + 60 * mi' + ss' : Nat)) (86400 * f v m' d' + (3600 * hh' + 60 * mi' + ss' : Nat)) := by
      intro s v
      exact ⟨⟨_, ⟨_, rfl, rfl⟩, rfl, rfl, rfl⟩, _, ⟨_, rfl, rfl⟩, rfl, rfl, rfl⟩
    refine ⟨_, _, _, hD, T, ?_⟩
    have W : Valid (if neg then -y' else y') m' d' := by
      cases neg
      · exact V'
      · show Valid (-y') m' d'; unfold Valid; rw [monthLen_neg]; exact V'
    have ev : (if neg then -(y' + 400 * g) else y' + 400 * g) = (if neg then -y' else y') + 400 * k := by
      rw [hg']; cases neg <;> simp only [Bool.false_eq_true, if_false, if_true] <;> omega
    have q := day_move hf k W
    rw [← ev] at q
    have q' : 86400 * f (if neg then -y' else y') m' d' + (3600 * hh' + 60 * mi' + ss' : Nat) + period * k =
        86400 * f (if neg then -(y' + 400 * g) else y' + 400 * g) m' d' + (3600 * hh' + 60 * mi' + ss' : Nat) := by
      rw [q]; unfold period; omega
    rw [q']
    exact T
  | interval => exact (noS (by simp)).elim
  | startless => exact (noS (by simp)).elim
  | endless => exact (noS (by simp)).elim
  | qualifiedYear neg n h q hq =>
    have et : ∀ n, (⟨neg, n, .none⟩ : Date0).text ++ [q] = signed neg (pad4 n) ++ [q] := by intro n; cases neg <;> simp [date0_text, yearStr, sgn, signed]
    obtain ⟨j, hj, e1, rfl, e3, e4⟩ := century_move hp ha hk h ((et n).symm.trans es)
    have hn : 100 * b + j < 10000 := by omega
    obtain ⟨q1, q2⟩ := date0_seconds (x := ⟨neg, n, .none⟩) hf ⟨h, trivial⟩ hn (k := k) e4
    rw [e3, ← et]
    exact ⟨_, _, _, .qualifiedYear neg _ hn q hq, timed_result, by rw [← q1, ← q2]; exact timed_result⟩
  | group e h hn hX hl he S E hs =>
    obtain ⟨c, d, S', E', hc, hd, hy, hs', ht, hS, hT⟩ := span_moves hf h hp ha hb hk es hs
    obtain ⟨l, u, h1, h2⟩ := hT
    rw [← ht]
    exact ⟨_, _, _, .group _ hs' hn (by rw [ht]; exact moved_noX hp (es ▸ hX)) hl he _ _ hS, h1, h2⟩
  | individual e h hn hX hr' hl S E hs =>
    obtain ⟨c, d, S', E', hc, hd, hy, hs', ht, hS, hT⟩ := span_moves hf h hp ha hb hk es hs
    obtain ⟨l, u, h1, h2⟩ := hT
    rw [← ht]
    exact ⟨_, _, _, .individual _ hs' hn (by rw [ht]; exact moved_noX hp (es ▸ hX)) hr' hl _ _ hS, h1, h2⟩
  | unspecified x h hn hX S E hs =>
    have h0 : (⟨x, .none, .none, .none⟩ : Endpoint).shape := ⟨h, rfl, rfl, rfl, by cases x.tail <;> simp⟩
    rw [← endpoint_plain] at hs es
    obtain ⟨c, d, S', E', hc, hd, hy, hs', ht, hS, hT⟩ := span_moves hf h0 hp ha hb hk es hs
    obtain ⟨l, u, h1, h2⟩ := hT
    rw [← ht]
    have e0 : (withYear ⟨x, .none, .none, .none⟩ (pad2 b ++ [c, d])).text = (⟨x.neg, pad2 b ++ [c, d], x.tail⟩ : XDate).text := endpoint_plain _
    rw [e0] at hS ⊢
    refine ⟨_, _, _, .unspecified ⟨x.neg, pad2 b ++ [c, d], x.tail⟩ hs'.1 hn ?_ _ _ hS, h1, h2⟩
    rcases hX with hX | hX
    · left
      have hy : x.year = pad2 a ++ [c, d] := hy
      rw [hy] at hX
      rcases List.mem_append.1 hX with h | h
      · exact absurd h (pad2_noX a)
      · exact List.mem_append.2 (.inr h)
    · exact .inr hX
  | month neg n m hn h1 h2 y hv hy w hw' =>
    obtain ⟨j, hj, e1, rfl, e3, e4⟩ := century_move hp ha hk hn es
    have hn' : 100 * b + j < 10000 := by omega
    have hS : SeasonYear (y + 400 * k) := by
      rw [hv, ← e4]
      cases neg with
      | false => left; simp only [Bool.false_eq_true, if_false]; omega
      | true =>
        right
        simp only [if_true]
        suffices h : ¬ 100 * b + j < 1000 by omega
        intro h
        refine he ⟨true, _, _, h, e3, .inr (.inr ⟨rfl, .inr ?_⟩)⟩
        cases hw' with
        | qualifier _ q hq => exact ⟨pad2 m, q, hq, rfl⟩
        | dayQualifier _ i i1 i2 q hq => exact ⟨pad2 m ++ '-' :: pad2 i, q, hq, by simp⟩
        | ended => exact (noS (by simp)).elim
        | dayEnded => exact (noS (by simp)).elim
    rw [e3]
    refine ⟨_, _, _, .month neg (100 * b + j) m hn' h1 h2 (y + 400 * k) (by rw [hv, e4]) hS w hw', timed_months, ?_⟩
    refine timed_move hf (valid_first h1 h2) (valid_last h1 h2) ?_
    have T := timed_months (f := f) (s := signed neg (pad4 (100 * b + j)) ++ '-' :: (pad2 m ++ w)) (k := c! "Seasons") (n := 1) (y1 := y + 400 * k) (y2 := y + 400 * k) (m1 := m) (m2 := m)
    rwa [monthLen_move] at T
  | season neg n hn z y hv hy hz =>
    obtain ⟨j, hj, e1, rfl, e3, e4⟩ := century_move hp ha hk hn es
    have hn' : 100 * b + j < 10000 := by omega
    have hS : SeasonYear (y + 400 * k) := by
      rw [hv, ← e4]
      cases neg with
      | false => left; simp only [Bool.false_eq_true, if_false]; omega
      | true =>
        right
        simp only [if_true]
        suffices h : ¬ 100 * b + j < 1000 by omega
        intro h
        exact he ⟨true, _, _, h, e3, .inr (.inr ⟨rfl, .inl (by cases z <;> decide)⟩)⟩
    have hz' : z = .winter → y + 400 * k ≠ 9999 ∧ y + 400 * k ≠ -1000 := by
      rintro rfl
      rw [hv, ← e4]
      cases neg with
      | false =>
        simp only [Bool.false_eq_true, if_false]
        refine ⟨fun h => hw ?_, by omega⟩
        rw [e3, show 100 * b + j = 9999 by omega]; unfold LastWinter; decide
      | true =>
        simp only [if_true]
        refine ⟨by omega, fun h => hw ?_⟩
        rw [e3, show 100 * b + j = 1000 by omega]; unfold LastWinter; decide
    have eL : z.lastYear (y + 400 * k) = z.lastYear y + 400 * k := by cases z <;> simp only [Season.lastYear]; omega
    rw [e3]
    refine ⟨_, _, _, .season neg (100 * b + j) hn' z (y + 400 * k) (by rw [hv, e4]) hS hz', timed_months, ?_⟩
    have m1 : 1 ≤ z.firstMonth ∧ z.firstMonth ≤ 12 := by cases z <;> decide
    have m2 : 1 ≤ z.lastMonth ∧ z.lastMonth ≤ 12 := by cases z <;> decide
    refine timed_move hf (valid_first m1.1 m1.2) (valid_last m2.1 m2.2) ?_
    have T := timed_months (f := f) (s := signed neg (pad4 (100 * b + j)) ++ '-' :: pad2 z.code) (k := c! "Seasons") (n := 1) (y1 := y + 400 * k) (y2 := z.lastYear (y + 400 * k)) (m1 := z.firstMonth) (m2 := z.lastMonth)
    rw [eL] at T ⊢
    rwa [monthLen_move] at T
  | seasonName z w t1 t2 n hw' =>
    obtain ⟨c, u, rfl, hc'⟩ := word_head hw'
    have := (by decide : ∀ c ∈ c! "SsFfWwſ", c ∉ c! "-?~%" ∧ isDX c = false) c hc'
    exact (hd rfl this.1 this.2).elim
  | letter => exact (hd rfl (by decide) (by decide)).elim
  | exponential yc ec hy =>
    have := (by decide : ∀ c ∈ c! "Yy", c ∉ c! "-?~%" ∧ isDX c = false) yc hy
    exact (hd rfl this.1 this.2).elim
  | significant v w h ds hds x y hk' =>
    have hk3 : value10 ds < 3 := by
      apply Nat.lt_of_not_le
      intro h3
      exact hc ⟨_, ds, hds, h3, rfl⟩
    cases h with
    | letter => exact (hd rfl (by decide) (by decide)).elim
    | exponential yc ec hy =>
      have := (by decide : ∀ c ∈ c! "Yy", c ∉ c! "-?~%" ∧ isDX c = false) yc hy
      exact (hd rfl this.1 this.2).elim
    | date neg n hn =>
      obtain ⟨j, hj, e1, rfl, e3, e4⟩ := century_move hp ha hk hn es
      have hn' : 100 * b + j < 10000 := by omega
      have hbig : 1000 ≤ 100 * b + j := by
        apply Nat.le_of_not_lt
        intro h
        exact he ⟨neg, _, _, h, e3, .inl rfl⟩
      have hj0 : j / 100 = 0 := by omega
      obtain ⟨neg', n0, b1, b2, b3, rfl, rfl⟩ := sig_inv hk' hk3
      have hnn : n0 = n ∧ neg' = neg := by
        cases neg <;> cases neg' <;> simp only [Bool.false_eq_true, if_false, if_true] at b3 <;> constructor <;> first | rfl | omega
      obtain ⟨rfl, rfl⟩ := hnn
      subst e1
      rw [e3]
      have hD := Denotes.significant (f := f) _ _ (.date neg' (100 * b + j) hn') ds hds _ _ (sig_make hbig (by omega) hk3)
      refine ⟨_, _, _, hD, timed_years, ?_⟩
      obtain ⟨v, v0, v1, v2, v3⟩ := round_move (a := a) (b := b) (j := j) hk3
      have tpos : 0 < 10 ^ value10 ds := Nat.pow_pos (by omega)
      have hk0 : (b : Int) = a + 4 * (if neg' then -k else k) := by simpa only [sign_mem] using hk
      have sec : ∀ {w : Nat}, w < 100 → firstSecond f ⟨neg', 100 * b + w, .none⟩ = firstSecond f ⟨neg', 100 * a + w, .none⟩ + period * k ∧
          lastSecond f ⟨neg', 100 * b + w, .none⟩ = lastSecond f ⟨neg', 100 * a + w, .none⟩ + period * k := by
        intro w hw'
        refine date0_seconds (x := ⟨neg', 100 * a + w, .none⟩) hf ⟨by show 100 * a + w < 10000; omega, trivial⟩ (by omega) ?_
        show (if neg' then -((100 * b + w : Nat) : Int) else ((100 * b + w : Nat) : Int)) = (if neg' then -((100 * a + w : Nat) : Int) else ((100 * a + w : Nat) : Int)) + 400 * k
        cases neg'
        · simp only [Bool.false_eq_true, if_false] at hk0 ⊢; omega
        · simp only [if_true] at hk0 ⊢; omega
      have T := timed_years (f := f) (a := ⟨neg', (100 * b + j) / 10 ^ value10 ds * 10 ^ value10 ds + (if neg' then 10 ^ value10 ds - 1 else 0), .none⟩)
        (b := ⟨neg', (100 * b + j) / 10 ^ value10 ds * 10 ^ value10 ds + (if neg' then 0 else 10 ^ value10 ds - 1), .none⟩)
        (s := signed neg' (pad4 (100 * b + j)) ++ 'S' :: ds.map dig) (k := c! "Significant digits") (n := 2)
        (p := (⟨neg', (100 * b + j) / 10 ^ value10 ds * 10 ^ value10 ds + (if neg' then 10 ^ value10 ds - 1 else 0), .none⟩ : Date0).text)
        (q := (⟨neg', (100 * b + j) / 10 ^ value10 ds * 10 ^ value10 ds + (if neg' then 0 else 10 ^ value10 ds - 1), .none⟩ : Date0).text)
      generalize 10 ^ value10 ds = z at *
      have o1 : v + (if neg' then z - 1 else 0) < 100 := by cases neg' <;> simp only [Bool.false_eq_true, if_false, if_true] <;> omega
      have o2 : v + (if neg' then 0 else z - 1) < 100 := by cases neg' <;> simp only [Bool.false_eq_true, if_false, if_true] <;> omega
      have s1 := (sec o1).1
      have s2 := (sec o2).2
      rw [v1, hj0, Nat.mul_zero, Nat.add_zero, Nat.add_assoc, Nat.add_assoc, ← s1, ← s2]
      rw [v2, hj0, Nat.mul_zero, Nat.add_zero, Nat.add_assoc, Nat.add_assoc] at T ⊢
      exact T
  | grouping n hn g hg =>
    obtain ⟨j, hj, e1, rfl, e3, e4⟩ := century_move (neg := false) hp ha hk hn es
    have hn' : 100 * b + j < 10000 := by omega
    simp only [Bool.false_eq_true, if_false] at e4
    have e3' : signed false [] ++ (pad2 b ++ r) = pad4 (100 * b + j) ++ '-' :: pad2 g.code := e3
    have hg' : g.crosses = true → 999 ≤ 100 * b + j ∧ 100 * b + j ≤ 9998 := by
      intro hx
      have hz : '-' :: pad2 g.code ∈ [c! "-28", c! "-30"] := by
        cases g with
        | north z => cases z <;> first | decide | cases hx
        | south z => cases z <;> first | decide | cases hx
        | _ => cases hx
      refine ⟨?_, ?_⟩
      · suffices h : ¬ 100 * b + j < 1000 by omega
        intro h
        exact he ⟨false, _, _, h, e3, .inr (.inl hz)⟩
      · suffices h : ¬ 100 * b + j = 9999 by omega
        intro h
        apply hw
        rw [e3', h]
        unfold LastWinter
        simp only [List.mem_cons, List.not_mem_nil, or_false] at hz
        rcases hz with hz | hz <;> rw [hz] <;> decide
    rw [e3']
    refine ⟨_, _, _, .grouping (100 * b + j) hn' g hg', timed_years, ?_⟩
    obtain ⟨m1, m2⟩ := grouping_months g
    have T := timed_years (f := f) (a := dayOf ((100 * b + j : Nat) : Int) g.firstMonth 1) (b := g.lastDate (100 * b + j))
      (s := pad4 (100 * b + j) ++ '-' :: pad2 g.code) (k := c! "Sub-year groupings") (n := 2)
      (p := (dayOf ((100 * b + j : Nat) : Int) g.firstMonth 1).text) (q := (g.lastDate (100 * b + j)).text)
    have fs : ∀ y : Int, firstSecond f (dayOf y g.firstMonth 1) = 86400 * f y g.firstMonth 1 := by
      intro y
      show 86400 * f (dayOf y g.firstMonth 1).value g.firstMonth 1 = _
      rw [dayOf_value]
    have eL : (g.lastYear (100 * b + j) : Int) = g.lastYear n + 400 * k := by
      unfold Grouping.lastYear; split <;> omega
    rw [fs, last_seconds, eL, e4, monthLen_move] at T
    rw [fs, last_seconds, e4]
    exact timed_move hf (valid_first m1.1 m1.2) (valid_last m2.1 m2.2) T
  | set o c hb' =>
    have : o ∉ c! "-?~%" ∧ isDX o = false := by rcases hb'.1 with rfl | rfl <;> decide
    exact (hd rfl this.1 this.2).elim

theorem moves_spans (hf : DayCount f) {k : Int} {s t : Str} {d : EDTFDate} (h : parseString s = .ok d) (hm : MovesTo f k d t) :
    ∃ l u, Spans s l u ∧ Spans t (l + period * k) (u + period * k) := by
  obtain ⟨e, l, u, hD, h1, h2⟩ := hm
  exact ⟨l, u, ⟨d, h, timed_lower h1⟩, ⟨e, (C55_denotes hf _ _).2 hD, timed_lower h2⟩⟩

/-- **C98** A text whose year is moved by `k` times 400 years is understood, and its time is moved by `k` times
146097 days. -/
theorem C98_moved {k : Int} {s t : Str} {d : EDTFDate} (hm : Moved k s t) (h : parseString s = .ok d) (hc : ¬ Coarse s) (he : ¬ Early t) (hw : ¬ LastWinter t) :
    ∃ l u, Spans s l u ∧ Spans t (l + period * k) (u + period * k) :=
  moves_spans dayCount_unixDay h (moved_denotes dayCount_unixDay hm ((C55_denotes dayCount_unixDay _ _).1 h) hc he hw)

theorem coarse_s {s : Str} (h : Coarse s) : 'S' ∈ s := by
  obtain ⟨u, ds, -, -, rfl⟩ := h
  simp

theorem early_big {neg : Bool} {n : Nat} {w : Str} (hn : n < 10000) (h : 1000 ≤ n) : ¬ Early (signed neg (pad4 n) ++ w) := by
  rintro ⟨neg', n', w', h1, e, -⟩
  have := (signed_cut hn (by omega) e).2.1
  omega

/-- "2024-02-29T12:00:00+05:30" is 800 years after "1224-02-29T12:00:00+05:30". -/
example : ∃ l u, Spans (c! "1224-02-29T12:00:00+05:30") l u ∧ Spans (c! "2024-02-29T12:00:00+05:30") (l + period * 2) (u + period * 2) := by
  refine C98_moved (s := c! "1224-02-29T12:00:00+05:30") (d := _) ⟨[], 12, 20, c! "24-02-29T12:00:00+05:30", by decide, by decide, by decide, by decide, by decide, by decide, by decide⟩ rfl (fun h => ?_)
    (early_big (neg := false) (n := 2024) (by decide) (by decide)) (by unfold LastWinter; decide)
  exact absurd (coarse_s h) (by decide)

/-- "~0044-03-15" has a year below 1000, and is as far from "~1644-03-15"; behind a sign the direction is the other one. -/
example : (∃ l u, Spans (c! "~1644-03-15") l u ∧ Spans (c! "~0044-03-15") (l + period * -4) (u + period * -4)) ∧
    ∃ l u, Spans (c! "-1644-03") l u ∧ Spans (c! "-0044-03") (l + period * 4) (u + period * 4) := by
  constructor
  · refine C98_moved (s := c! "~1644-03-15") (d := _) ⟨c! "~", 16, 0, c! "44-03-15", by decide, by decide, by decide, by decide, by decide, by decide, by decide⟩ rfl (fun h => ?_) ?_ (by unfold LastWinter; decide)
    · exact absurd (coarse_s h) (by decide)
    · rintro ⟨neg, n, w, -, e, -⟩
      cases neg
      · exact absurd (congrArg List.head? e) (by show some '~' ≠ some (dig _); rw [ne_eq, Option.some.injEq]; exact fun k => by have := isDig_dig (n / 1000); rw [← k] at this; cases this)
      · cases e
  · refine C98_moved (s := c! "-1644-03") (d := _) ⟨c! "-", 16, 0, c! "44-03", by decide, by decide, by decide, by decide, by decide, by decide, by decide⟩ rfl (fun h => ?_) ?_ (by unfold LastWinter; decide)
    · exact absurd (coarse_s h) (by decide)
    · rintro ⟨neg, n, w, hn, e, hw⟩
      obtain ⟨rfl, rfl, rfl⟩ := signed_cut (b := true) (n := 44) (n' := n) (u := c! "-03") (by decide) (by omega) e
      rcases hw with hw | hw | ⟨-, hw | ⟨v, q, hq, hw⟩⟩
      · cases hw
      · revert hw; decide
      · revert hw; decide
      · have := congrArg List.getLast? hw
        rw [show '-' :: (v ++ [q]) = ('-' :: v) ++ [q] by rfl, List.getLast?_append] at this
        have : some '3' = some q := this
        cases this
        revert hq; decide

/-- **C98** Whether a text is understood does not change with the period of 400 years. -/
theorem C98_accepted {k : Int} {s t : Str} (hm : Moved k s t) (hc : ¬ Coarse s) (h1 : ¬ Early s ∧ ¬ LastWinter s) (h2 : ¬ Early t ∧ ¬ LastWinter t) :
    (∃ d, parseString s = .ok d) ↔ ∃ e, parseString t = .ok e := by
  have hc' : ¬ Coarse t := by
    rintro ⟨u, ds, hd, h3, e⟩
    obtain ⟨p, a, b, r, hp, ha, hb, hr, rfl, rfl, hk⟩ := hm
    have hp' : 'S' ∉ p ++ pad2 b := by
      have h1 := (by decide : ∀ q ∈ heads, 'S' ∉ q) p hp
      simp only [List.mem_append, not_or]
      exact ⟨h1, pad2_not_mem b (by decide)⟩
    rw [← List.append_assoc] at e
    have : ∃ r', r = r' ++ 'S' :: ds.map dig := by
      rcases List.append_eq_append_iff.1 e with ⟨x, rfl, e2⟩ | ⟨x, e1, e2⟩
      · exact ⟨x, e2⟩
      · cases x with
        | nil => exact ⟨[], by simpa using e2.symm⟩
        | cons c x =>
          simp only [List.cons_append, List.cons.injEq] at e2
          exact absurd (by rw [e1, ← e2.1]; simp) hp'
    obtain ⟨r', rfl⟩ := this
    exact hc ⟨p ++ (pad2 a ++ r'), ds, hd, h3, by simp⟩
  have hm' : Moved (-k) t s := by
    obtain ⟨p, a, b, r, hp, ha, hb, hr, rfl, rfl, hk⟩ := hm
    refine ⟨p, b, a, r, hp, hb, ha, hr, rfl, rfl, ?_⟩
    split <;> rename_i hx <;> simp only [hx, if_true, if_false] at hk <;> omega
  constructor
  · rintro ⟨d, h⟩
    obtain ⟨l, u, -, e, he, -⟩ := C98_moved hm h hc h2.1 h2.2
    exact ⟨e, he⟩
  · rintro ⟨d, h⟩
    obtain ⟨l, u, -, e, he, -⟩ := C98_moved hm' h hc' h1.1 h1.2
    exact ⟨e, he⟩

/-- "1900-02-29" is no day, so neither is "2300-02-29". -/
example : ¬ ∃ e, parseString (c! "2300-02-29") = .ok e := by
  refine fun h => ?_
  have := (C98_accepted (s := c! "1900-02-29") (t := c! "2300-02-29") (k := 1) ⟨[], 19, 23, c! "00-02-29", by decide, by decide, by decide, by decide, by decide, by decide, by decide⟩
    (fun h => absurd (coarse_s h) (by decide)) ⟨early_big (neg := false) (n := 1900) (by decide) (by decide), by unfold LastWinter; decide⟩
    ⟨early_big (neg := false) (n := 2300) (by decide) (by decide), by unfold LastWinter; decide⟩).2 h
  obtain ⟨d, hd⟩ := this
  revert hd
  rw [show parseString (c! "1900-02-29") = .err _ from rfl]
  intro hd
  cases hd

/-- **C98** The order of two texts does not change if both are moved alike. -/
theorem C98_compare {k : Int} {s s' t t' : Str} {d d' : EDTFDate} (hm : Moved k s t) (hm' : Moved k s' t') (h : parseString s = .ok d) (h' : parseString s' = .ok d')
    (hc : ¬ Coarse s ∧ ¬ Coarse s') (he : ¬ Early t ∧ ¬ Early t') (hw : ¬ LastWinter t ∧ ¬ LastWinter t') :
    isBefore t t' = isBefore s s' ∧ isAfter t t' = isAfter s s' := by
  obtain ⟨l, u, ⟨d1, p1, q1⟩, ⟨e1, r1, s1⟩⟩ := C98_moved hm h hc.1 he.1 hw.1
  obtain ⟨l', u', ⟨d2, p2, q2⟩, ⟨e2, r2, s2⟩⟩ := C98_moved hm' h' hc.2 he.2 hw.2
  have A := C34_strings p1 p2 q1 q2
  have B := C34_strings r1 r2 s1 s2
  rw [A.1, A.2, B.1, B.2]
  constructor <;> congr 1 <;> rw [decide_eq_decide] <;> omega

/-- "2001-21" is before "2001-07-04", as "1601-21" is before "1601-07-04". -/
example : isBefore (c! "2001-21") (c! "2001-07-04") = isBefore (c! "1601-21") (c! "1601-07-04") :=
  (C98_compare (k := 1) ⟨[], 16, 20, c! "01-21", by decide, by decide, by decide, by decide, by decide, by decide, by decide⟩
    ⟨[], 16, 20, c! "01-07-04", by decide, by decide, by decide, by decide, by decide, by decide, by decide⟩
    (s := c! "1601-21") (s' := c! "1601-07-04") (t := c! "2001-21") (t' := c! "2001-07-04") (d := _) (d' := _) rfl rfl
    ⟨fun h => absurd (coarse_s h) (by decide), fun h => absurd (coarse_s h) (by decide)⟩
    ⟨early_big (neg := false) (n := 2001) (by decide) (by decide), early_big (neg := false) (n := 2001) (by decide) (by decide)⟩
    ⟨by unfold LastWinter; decide, by unfold LastWinter; decide⟩).1

/-! ### Intervals -/

theorem moved_head {k : Int} {s t : Str} (h : Moved k s t) : s ≠ [] ∧ s ≠ c! ".." := by
  obtain ⟨p, a, b, r, hp, -, -, -, rfl, -, -⟩ := h
  constructor
  · intro e; cases p <;> cases e
  · intro e
    rcases head_of hp e.symm with h | h
    · cases h
    · revert h; decide

theorem side_moved {k : Int} {s t : Str} (h : MovedSide k s t) (hs : s ≠ [] ∧ s ≠ c! "..") : Moved k s t := by
  rcases h with h | ⟨-, h | h⟩
  · exact h
  · exact absurd h hs.1
  · exact absurd h hs.2

theorem side_same {k : Int} {s t : Str} (h : MovedSide k s t) (hs : s = [] ∨ s = c! "..") : t = s := by
  rcases h with h | ⟨h, -⟩
  · rcases hs with e | e
    · exact absurd e (moved_head h).1
    · exact absurd e (moved_head h).2
  · exact h

theorem undated_moved {k : Int} {a : Date} (h : a.timestamp = none) : MovedEnd k a a := by
  refine ⟨?_, rfl, rfl⟩
  rw [h]; rfl

/-- A date that exists, moved. -/
theorem date_moves (hf : DayCount f) {k : Int} {x : Date0} (h : x.ok) {t : Str} (hm : Moved k x.text t) :
    ∃ n, t = (⟨x.neg, n, x.tail⟩ : Date0).text ∧ (⟨x.neg, n, x.tail⟩ : Date0).ok ∧
      firstSecond f ⟨x.neg, n, x.tail⟩ = firstSecond f x + period * k ∧ lastSecond f ⟨x.neg, n, x.tail⟩ = lastSecond f x + period * k := by
  obtain ⟨p, a, b, r, hp, ha, hb, hr, es, rfl, hk⟩ := hm
  obtain ⟨w, et⟩ := date0_signed x
  obtain ⟨j, hj, e1, rfl, e3, e4⟩ := century_move hp ha hk h.1 ((et x.year).symm.trans es)
  have hn : 100 * b + j < 10000 := by omega
  exact ⟨100 * b + j, by rw [e3, ← et], (date0_move h hn (k := k) e4).1, date0_seconds hf h hn (k := k) e4⟩

/-- An endpoint of an interval, moved. -/
theorem endpoint_moves (hf : DayCount f) {k : Int} {e : Endpoint} (h : e.Readable) (hr : noRight e.qy e.qm e.qd) {t : Str} (hm : Moved k e.text t) :
    ∃ (e' : Endpoint) (R R' : DateRange) (a a' b b' : Date), e'.shape ∧ noRight e'.qy e'.qm e'.qd ∧ t = e'.text ∧ RangeOf f e.text R ∧ RangeOf f e'.text R' ∧
      R.lower = some a ∧ R.upper = some b ∧ R'.lower = some a' ∧ R'.upper = some b' ∧ MovedEnd k a a' ∧ MovedEnd k b b' := by
  obtain ⟨p, a, b, r, hp, ha, hb, hr', es, rfl, hk⟩ := hm
  obtain ⟨y1, y2, m1, m2, d1, d2, hR⟩ := readable_runs h
  obtain ⟨c, d, hc, hd, hy, hn, ht⟩ := endpoint_move (b := b) h.1 hp es
  simp only [hn] at hk
  have hR' := runs_move ha hb hk hy hR
  have hs' := shape_move (b := b) h.1 hc hd
  refine ⟨_, _, _, _, _, _, _, hs', hr, ht.symm, .date e h.1 _ _ _ _ _ _ hR, .date _ hs' _ _ _ _ _ _ hR', rfl, rfl, rfl, rfl, ⟨?_, rfl, rfl⟩, ⟨?_, rfl, rfl⟩⟩
  · show some _ = some _
    rw [day_move hf k hR.2.2.2.1]
    unfold period
    congr 1; dsimp only; omega
  · show some _ = some _
    rw [day_move hf k hR.2.2.2.2]
    unfold period
    congr 1; dsimp only; omega

theorem moved_months (hf : DayCount f) {k y : Int} {m : Nat} (h1 : 1 ≤ m) (h2 : m ≤ 12) {s s' t t' : Str} {n n' : Int} :
    MovedTime k (monthsResult f s n t y m y m) (monthsResult f s' n' t' (y + 400 * k) m (y + 400 * k) m) := by
  have T := timed_months (f := f) (s := s) (k := t) (n := n) (y1 := y) (y2 := y) (m1 := m) (m2 := m)
  have T' := timed_months (f := f) (s := s') (k := t') (n := n') (y1 := y + 400 * k) (y2 := y + 400 * k) (m1 := m) (m2 := m)
  rw [monthLen_move] at T'
  have T'' := timed_move hf (valid_first h1 h2) (valid_last h1 h2) T'
  obtain ⟨⟨a, ha, a1, a2, a3⟩, b, hb, b1, b2, b3⟩ := T
  obtain ⟨⟨a', ha', a1', a2', a3'⟩, b', hb', b1', b2', b3'⟩ := T''
  exact ⟨⟨a, a', ha, ha', by rw [a1, a1']; rfl, by rw [a2, a2'], by rw [a3, a3']⟩, b, b', hb, hb', by rw [b1, b1']; rfl, by rw [b2, b2'], by rw [b3, b3']⟩

/-- **C98** An interval moved on both sides (an open or unknown side stays as it is) is understood, and both ends are
moved by `k` times 146097 days. -/
theorem C98_interval {k : Int} {l r l' r' : Str} {d : EDTFDate} (hl : MovedSide k l l') (hr : MovedSide k r r') (h : parseString (l ++ '/' :: r) = .ok d)
    (he : r = [] ∨ r = c! ".." → ¬ EarlyYear l') : ∃ e, parseString (l' ++ '/' :: r') = .ok e ∧ MovedTime k d e := by
  obtain ⟨f, hf⟩ : ∃ f : Int → Nat → Nat → Int, DayCount f := ⟨_, dayCount_unixDay⟩
  have hs := one_slash h
  have D := (C55_denotes hf _ _).1 h
  have fin : ∀ {d' e : EDTFDate}, Denotes f (l ++ '/' :: r) d' → Denotes f (l' ++ '/' :: r') e → MovedTime k d' e → ∃ e, parseString (l' ++ '/' :: r') = .ok e ∧ MovedTime k d e := by
    intro d' e h1 h2 h3
    cases C55_unique hf D h1
    exact ⟨e, (C55_denotes hf _ _).2 h2, h3⟩
  rcases accepted_slash hs ((C54_language _).1 ⟨d, h⟩) with ⟨a, b, ha, hb, ra, rb, rfl, rfl⟩ | ⟨ht, x, hx, rfl⟩ | ⟨ht, neg, n, u, hn, rfl, hu⟩
  · have hl' := side_moved hl (endpoint_ne ⟨ha.1, ra⟩)
    have hr' := side_moved hr (endpoint_ne ⟨hb.1, rb⟩)
    obtain ⟨e, R, R', x, x', y, y', h1, h2, rfl, h4, h5, h6, h7, h8, h9, h10, h11⟩ := endpoint_moves hf ha ra hl'
    obtain ⟨g, Q, Q', z, z', w, w', i1, i2, rfl, i4, i5, i6, i7, i8, i9, i10, i11⟩ := endpoint_moves hf hb rb hr'
    exact fin (.interval a b ha.1 hb.1 ra rb _ _ h4 i4) (.interval e g h1 i1 h2 i2 _ _ h5 i5) ⟨⟨x, x', ⟨_, rfl, h6⟩, ⟨_, rfl, h8⟩, h10⟩, w, w', ⟨_, rfl, i7⟩, ⟨_, rfl, i9⟩, i11⟩
  · have e1 := side_same hl ht
    subst e1
    have hxt : x.text ≠ [] ∧ x.text ≠ c! ".." := by rw [← dateE_text]; exact endpoint_ne (dateE_ok x)
    obtain ⟨n, rfl, k1, k2, k3⟩ := date_moves hf hx (side_moved hr hxt)
    have key : ∀ o : Side, o = .opened ∨ o = .unknown → l' = o.text → (∃ a, (o.range f).lower = some a ∧ a.timestamp = none) → ∃ e, parseString (l' ++ '/' :: (⟨x.neg, n, x.tail⟩ : Date0).text) = .ok e ∧ MovedTime k d e := by
      rintro o ho rfl ⟨a, ha, ha'⟩
      refine fin (.startless o ho x hx) (.startless o ho _ k1) ⟨⟨a, a, ⟨_, rfl, ha⟩, ⟨_, rfl, ha⟩, undated_moved ha'⟩, _, _, ⟨_, rfl, rfl⟩, ⟨_, rfl, rfl⟩, ?_, rfl, rfl⟩
      have : lastSecond f ⟨x.neg, n, x.tail⟩ = lastSecond f x + period * k := k3
      rw [ts_end, ts_end]
      show some _ = some _
      congr 1
    rcases ht with rfl | rfl
    · exact key .unknown (.inr rfl) rfl ⟨_, rfl, rfl⟩
    · exact key .opened (.inl rfl) rfl ⟨_, rfl, rfl⟩
  · have e1 := side_same hr ht
    subst e1
    have hlt : signed neg (pad4 n) ++ u ≠ [] ∧ signed neg (pad4 n) ++ u ≠ c! ".." := by
      constructor
      · intro e; cases neg <;> cases e
      · intro e
        have := congrArg List.length e
        simp [signed] at this
        split at this <;> simp at this <;> omega
    obtain ⟨p, a, b, q, hp, ha, hb, hq, es, rfl, hk⟩ := side_moved hl hlt
    obtain ⟨j, hj, e1, rfl, e3, e4⟩ := century_move hp ha hk hn es
    have hn' : 100 * b + j < 10000 := by omega
    rw [e3] at fin he ⊢
    rcases hu with rfl | ⟨hy, m, m1, m2, hu⟩
    · have te : ∀ n, signed neg (pad4 n) ++ [] = (⟨neg, n, .none⟩ : Date0).text := by intro n; cases neg <;> simp [signed, Date0.text, Date0.qtext, Deco.text]
      rw [te, te] at fin
      rw [te]
      obtain ⟨k2, -⟩ := date0_seconds (x := ⟨neg, n, .none⟩) hf ⟨hn, trivial⟩ hn' (k := k) e4
      have key : ∀ o : Side, o = .opened ∨ o = .unknown → r' = o.text → (∃ a, (o.range f).upper = some a ∧ a.timestamp = none) →
          ∃ e, parseString ((⟨neg, 100 * b + j, .none⟩ : Date0).text ++ '/' :: r') = .ok e ∧ MovedTime k d e := by
        rintro o ho rfl ⟨a, ha, ha'⟩
        refine fin (.endless neg n hn o ho) (.endless neg _ hn' o ho) ⟨⟨_, _, ⟨_, rfl, rfl⟩, ⟨_, rfl, rfl⟩, ?_, rfl, rfl⟩, a, a, ⟨_, rfl, ha⟩, ⟨_, rfl, ha⟩, undated_moved ha'⟩
        rw [ts_start, ts_start]
        show some _ = some _
        congr 1
      rcases ht with rfl | rfl
      · exact key .unknown (.inr rfl) rfl ⟨_, rfl, rfl⟩
      · exact key .opened (.inl rfl) rfl ⟨_, rfl, rfl⟩
    · have hS : SeasonYear ((if neg then -(n : Int) else n) + 400 * k) := by
        rw [← e4]
        cases neg with
        | false => left; simp only [Bool.false_eq_true, if_false]; omega
        | true =>
          right
          simp only [if_true]
          suffices h : ¬ 100 * b + j < 1000 by omega
          intro h
          exact he ht ⟨_, u, h, rfl⟩
      rcases hu with rfl | ⟨i, i1, i2, rfl⟩
      · have te : ∀ n, signed neg (pad4 n) ++ '-' :: pad2 m ++ '/' :: r' = signed neg (pad4 n) ++ '-' :: (pad2 m ++ '/' :: r') := by intro n; simp
        rw [te, te] at fin
        rw [te]
        exact fin (.month neg n m hn m1 m2 _ rfl hy _ (.ended neg r' ht)) (.month neg _ m hn' m1 m2 _ e4.symm hS _ (.ended neg r' ht)) (moved_months hf m1 m2)
      · have te : ∀ n, signed neg (pad4 n) ++ '-' :: (pad2 m ++ '-' :: pad2 i) ++ '/' :: r' = signed neg (pad4 n) ++ '-' :: (pad2 m ++ '-' :: (pad2 i ++ '/' :: r')) := by intro n; simp
        rw [te, te] at fin
        rw [te]
        exact fin (.month neg n m hn m1 m2 _ rfl hy _ (.dayEnded neg i i1 i2 r' ht)) (.month neg _ m hn' m1 m2 _ e4.symm hS _ (.dayEnded neg i i1 i2 r' ht)) (moved_months hf m1 m2)

/-- "1985-04-2X/~2004-06" and "1585-04-2X/~1604-06"; and "../1985-04-12", which stays open. -/
example : (∃ d e, parseString (c! "1985-04-2X/~2004-06") = .ok d ∧ parseString (c! "1585-04-2X/~1604-06") = .ok e ∧ MovedTime (-1) d e) ∧
    ∃ d e, parseString (c! "../1985-04-12") = .ok d ∧ parseString (c! "../2385-04-12") = .ok e ∧ MovedTime 1 d e := by
  constructor
  · obtain ⟨e, he, hm⟩ := C98_interval (k := -1) (l := c! "1985-04-2X") (r := c! "~2004-06") (l' := c! "1585-04-2X") (r' := c! "~1604-06") (d := _)
      (.inl ⟨[], 19, 15, c! "85-04-2X", by decide, by decide, by decide, by decide, by decide, by decide, by decide⟩)
      (.inl ⟨c! "~", 20, 16, c! "04-06", by decide, by decide, by decide, by decide, by decide, by decide, by decide⟩) rfl (fun h => absurd h (by decide))
    exact ⟨_, e, rfl, he, hm⟩
  · obtain ⟨e, he, hm⟩ := C98_interval (k := 1) (l := c! "..") (r := c! "1985-04-12") (l' := c! "..") (r' := c! "2385-04-12") (d := _)
      (.inr ⟨rfl, .inr rfl⟩)
      (.inl ⟨[], 19, 23, c! "85-04-12", by decide, by decide, by decide, by decide, by decide, by decide, by decide⟩) rfl (fun h => absurd h (by decide))
    exact ⟨_, e, rfl, he, hm⟩

/-! ### The exceptions -/

/-- **C98** The exceptions are needed: "1950S3" and "2350S3" are the years 1000 to 1999 and 2000 to 2999;
"9599-24" is understood and "9999-24" is not; "1044-28" and "-1044-21" are, and "0644-28" and "-0644-21" are not. -/
theorem C98_exceptions (hf : DayCount f) :
    (Moved 1 (c! "1950S3") (c! "2350S3") ∧ Spans (c! "1950S3") (86400 * f 1000 1 1) (86400 * f 1999 12 31 + 86399) ∧
      Spans (c! "2350S3") (86400 * f 2000 1 1) (86400 * f 2999 12 31 + 86399)) ∧
    (Moved 1 (c! "9599-24") (c! "9999-24") ∧ (∃ d, parseString (c! "9599-24") = .ok d) ∧ ¬ ∃ d, parseString (c! "9999-24") = .ok d) ∧
    (Moved (-1) (c! "1044-28") (c! "0644-28") ∧ (∃ d, parseString (c! "1044-28") = .ok d) ∧ ¬ ∃ d, parseString (c! "0644-28") = .ok d) ∧
    (Moved 1 (c! "-1044-21") (c! "-0644-21") ∧ (∃ d, parseString (c! "-1044-21") = .ok d) ∧ ¬ ∃ d, parseString (c! "-0644-21") = .ok d) := by
  have no : ∀ {s : Str} {e : Err}, parseString s = .err e → ¬ ∃ d, parseString s = .ok d := by
    rintro s e h ⟨d, k⟩
    rw [h] at k; cases k
  refine ⟨⟨⟨[], 19, 23, c! "50S3", by decide, by decide, by decide, by decide, by decide, by decide, by decide⟩, ?_, ?_⟩,
    ⟨⟨[], 95, 99, c! "99-24", by decide, by decide, by decide, by decide, by decide, by decide, by decide⟩, ⟨_, rfl⟩, no rfl⟩,
    ⟨⟨[], 10, 6, c! "44-28", by decide, by decide, by decide, by decide, by decide, by decide, by decide⟩, ⟨_, rfl⟩, no rfl⟩,
    ⟨⟨c! "-", 10, 6, c! "44-21", by decide, by decide, by decide, by decide, by decide, by decide, by decide⟩, ⟨_, rfl⟩, no rfl⟩⟩
  · have D := Denotes.significant (f := f) (pad4 1950) 1950 (.date false 1950 (by decide)) [3] (by decide) _ _ (.pos 1950 3 (by decide) (by decide) (by decide))
    exact ⟨_, (C55_denotes hf _ _).2 D, timed_lower timed_years⟩
  · have D := Denotes.significant (f := f) (pad4 2350) 2350 (.date false 2350 (by decide)) [3] (by decide) _ _ (.pos 2350 3 (by decide) (by decide) (by decide))
    exact ⟨_, (C55_denotes hf _ _).2 D, timed_lower timed_years⟩

end EDTF
